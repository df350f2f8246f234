import Verif.Props.DoubleSpatial
import Verif.Props.DoubleTangent

/-! # Inclined and blown spans in `double` arithmetic (C193) -/

set_option linter.unusedSectionVars false

namespace Verif.Props

open Verif.Double Verif.Double.Curve Inclined

namespace Inclined

/-- `k'` is `k` with its parameters changed a little. -/
structure Twin (k k' : Catenary2d) : Prop where
  positive : k.Positive
  positive' : k'.Positive
  tension : k'.tensionHorizontal = k.tensionHorizontal
  weight : |k'.weightUnit - k.weightUnit| ≤ 20 * u * k.weightUnit
  span : |k'.spacing.x - k.spacing.x| ≤ 300 * u * k.spacing.x
  rise : |k'.spacing.y - k.spacing.y| ≤ 20 * u * k.spacing.x
  short : k.spacing.x ≤ 2 * (k.tensionHorizontal / k.weightUnit)
  flat : |k.spacing.y| ≤ k.spacing.x

section
variable {k k' : Catenary2d}

theorem Twin.z_near (t : Twin k k') : 0 < k.z ∧ k.z ≤ 1 ∧ 0 < k'.z ∧ |k'.z - k.z| ≤ 321 * u * k.z := by
  have hu0 := u_pos
  have hu := u_small
  have P := t.positive
  have P' := t.positive'
  have h0 := P.h
  have w0 := P.w
  have a0 := P.a
  have c0 := P.c
  have e : ∀ k : Catenary2d, k.z = k.spacing.x * k.weightUnit / (2 * k.tensionHorizontal) := by
    intro k; unfold Catenary2d.z; field_simp
  have z0 : 0 < k.z := by unfold Catenary2d.z; positivity
  have z0' : 0 < k'.z := by
    have := P'.a; have := P'.c
    unfold Catenary2d.z; positivity
  refine ⟨z0, ?_, z0', ?_⟩
  · unfold Catenary2d.z
    rw [div_le_one c0]
    linarith [t.short]
  · rw [e k, e k', t.tension, ← sub_div, abs_div, abs_of_pos (by linarith : 0 < 2 * k.tensionHorizontal),
      div_le_iff₀ (by linarith)]
    have i : k'.spacing.x * k'.weightUnit - k.spacing.x * k.weightUnit = (k'.spacing.x - k.spacing.x) * k.weightUnit +
      k.spacing.x * (k'.weightUnit - k.weightUnit) + (k'.spacing.x - k.spacing.x) * (k'.weightUnit - k.weightUnit) := by ring
    have i1 : |(k'.spacing.x - k.spacing.x) * k.weightUnit| ≤ 300 * u * k.spacing.x * k.weightUnit := by
      rw [abs_mul, abs_of_pos w0]; exact mul_le_mul_of_nonneg_right t.span w0.le
    have i2 : |k.spacing.x * (k'.weightUnit - k.weightUnit)| ≤ k.spacing.x * (20 * u * k.weightUnit) := by
      rw [abs_mul, abs_of_pos a0]; exact mul_le_mul_of_nonneg_left t.weight a0.le
    have i3 : |(k'.spacing.x - k.spacing.x) * (k'.weightUnit - k.weightUnit)| ≤
        (300 * u * k.spacing.x) * (20 * u * k.weightUnit) := by
      rw [abs_mul]; exact mul_le_mul t.span t.weight (abs_nonneg _) (by positivity)
    have aw : 0 < k.spacing.x * k.weightUnit := mul_pos a0 w0
    have i4 : (300 * u * k.spacing.x) * (20 * u * k.weightUnit) ≤ u * (k.spacing.x * k.weightUnit) := by
      have : 6000 * u * u ≤ u := by nlinarith
      calc _ = 6000 * u * u * (k.spacing.x * k.weightUnit) := by ring
        _ ≤ _ := mul_le_mul_of_nonneg_right this aw.le
    have := abs_add_three ((k'.spacing.x - k.spacing.x) * k.weightUnit) (k.spacing.x * (k'.weightUnit - k.weightUnit))
      ((k'.spacing.x - k.spacing.x) * (k'.weightUnit - k.weightUnit))
    rw [i]
    have f : 321 * u * (k.spacing.x * k.weightUnit / (2 * k.tensionHorizontal)) * (2 * k.tensionHorizontal) =
        321 * u * (k.spacing.x * k.weightUnit) := by field_simp
    rw [f]
    linarith

/-- The slope of the chord, over the ratio of the hyperbolic sine and its argument. -/
theorem quotient_near {z z' s s' b b' : ℝ} (z0 : 0 < z) (h1 : |z' - z| ≤ 321 * u * z) (hs : z ≤ s) (hs' : z' ≤ s')
    (h2 : |s' - s| ≤ 1284 * u * z) (hb : |b| ≤ z) (h3 : |b' - b| ≤ 41 * u * z) : |b' / s' - b / s| ≤ 1330 * u := by
  have hu0 := u_pos
  have hu := u_small
  have z9 : 0.999 * z ≤ z' := by
    have := (_root_.abs_le.mp h1).1
    nlinarith
  have s0 : 0 < s := by linarith
  have s0' : 0 < s' := by linarith
  have e : b' / s' - b / s = ((b' - b) + b / s * (s - s')) / s' := by field_simp; ring
  rw [e, abs_div, abs_of_pos s0', div_le_iff₀ s0']
  have q : |b / s| ≤ 1 := by rw [abs_div, abs_of_pos s0, div_le_one s0]; linarith
  have i1 : |b / s * (s - s')| ≤ 1 * (1284 * u * z) := by
    rw [abs_mul]; rw [abs_sub_comm] at h2; exact mul_le_mul q h2 (abs_nonneg _) (by norm_num)
  have := abs_add_le (b' - b) (b / s * (s - s'))
  have uz : 0 < u * z := mul_pos hu0 z0
  have f : 1330 * u * (0.999 * z) ≤ 1330 * u * s' := mul_le_mul_of_nonneg_left (by linarith) (by positivity)
  nlinarith

theorem Twin.mid_near (t : Twin k k') : |k'.mid - k.mid| ≤ 1330 * u ∧ |k.mid| ≤ 1 := by
  have hu0 := u_pos
  have hu := u_small
  obtain ⟨z0, z1, z0', zn⟩ := t.z_near
  have P := t.positive
  have P' := t.positive'
  have h0 := P.h
  have w0 := P.w
  have a0 := P.a
  have a0' := P'.a
  have e : ∀ k : Catenary2d, k.Positive → k.mid =
      Real.arsinh ((k.spacing.y * k.weightUnit / (2 * k.tensionHorizontal)) / Real.sinh k.z) := by
    intro k P
    unfold Catenary2d.mid
    congr 1
    have := P.a.ne'; have := P.h.ne'; have := P.w.ne'
    have : Real.sinh k.z ≠ 0 := (Real.sinh_pos_iff.mpr (by
      have := P.a; have := P.c
      unfold Catenary2d.z; positivity)).ne'
    have ez : k.z = k.spacing.x * k.weightUnit / (2 * k.tensionHorizontal) := by
      unfold Catenary2d.z; field_simp
    generalize Real.sinh k.z = s at *
    rw [ez]
    field_simp
  have ez : k.z = k.spacing.x * k.weightUnit / (2 * k.tensionHorizontal) := by
    unfold Catenary2d.z; field_simp
  have b1 : |k.spacing.y * k.weightUnit / (2 * k.tensionHorizontal)| ≤ k.z := by
    rw [ez, abs_div, abs_mul, abs_of_pos w0, abs_of_pos (by linarith : 0 < 2 * k.tensionHorizontal)]
    have := t.flat
    gcongr
  have b2 : |k'.spacing.y * k'.weightUnit / (2 * k'.tensionHorizontal) -
      k.spacing.y * k.weightUnit / (2 * k.tensionHorizontal)| ≤ 41 * u * k.z := by
    rw [t.tension, ← sub_div, abs_div, abs_of_pos (by linarith : 0 < 2 * k.tensionHorizontal), div_le_iff₀ (by linarith), ez]
    have f : 41 * u * (k.spacing.x * k.weightUnit / (2 * k.tensionHorizontal)) * (2 * k.tensionHorizontal) =
        41 * u * (k.spacing.x * k.weightUnit) := by field_simp
    rw [f]
    have i : k'.spacing.y * k'.weightUnit - k.spacing.y * k.weightUnit = (k'.spacing.y - k.spacing.y) * k.weightUnit +
      k.spacing.y * (k'.weightUnit - k.weightUnit) + (k'.spacing.y - k.spacing.y) * (k'.weightUnit - k.weightUnit) := by ring
    have i1 : |(k'.spacing.y - k.spacing.y) * k.weightUnit| ≤ 20 * u * k.spacing.x * k.weightUnit := by
      rw [abs_mul, abs_of_pos w0]; exact mul_le_mul_of_nonneg_right t.rise w0.le
    have i2 : |k.spacing.y * (k'.weightUnit - k.weightUnit)| ≤ k.spacing.x * (20 * u * k.weightUnit) := by
      rw [abs_mul]; exact mul_le_mul t.flat t.weight (abs_nonneg _) a0.le
    have i3 : |(k'.spacing.y - k.spacing.y) * (k'.weightUnit - k.weightUnit)| ≤
        (20 * u * k.spacing.x) * (20 * u * k.weightUnit) := by
      rw [abs_mul]; exact mul_le_mul t.rise t.weight (abs_nonneg _) (by positivity)
    have aw : 0 < k.spacing.x * k.weightUnit := mul_pos a0 w0
    have i4 : (20 * u * k.spacing.x) * (20 * u * k.weightUnit) ≤ u * (k.spacing.x * k.weightUnit) := by
      have : 400 * u * u ≤ u := by nlinarith
      calc _ = 400 * u * u * (k.spacing.x * k.weightUnit) := by ring
        _ ≤ _ := mul_le_mul_of_nonneg_right this aw.le
    have := abs_add_three ((k'.spacing.y - k.spacing.y) * k.weightUnit) (k.spacing.y * (k'.weightUnit - k.weightUnit))
      ((k'.spacing.y - k.spacing.y) * (k'.weightUnit - k.weightUnit))
    rw [i]
    linarith
  have s1 := Real.self_le_sinh_iff.mpr z0.le
  have s1' := Real.self_le_sinh_iff.mpr z0'.le
  have zup : |k'.z| ≤ 2.02 := by
    rw [abs_of_pos z0']
    have := (_root_.abs_le.mp zn).2
    nlinarith
  have s2 : |Real.sinh k'.z - Real.sinh k.z| ≤ 1284 * u * k.z := by
    have := sinh_near zup (by rw [abs_of_pos z0]; linarith : |k.z| ≤ 2.02)
    linarith
  refine ⟨?_, ?_⟩
  · rw [e k P, e k' P']
    exact (arsinh_near _ _).trans (quotient_near z0 zn s1 s1' s2 b1 b2)
  · rw [e k P]
    refine (abs_arsinh_le _).trans ?_
    have s0 : 0 < Real.sinh k.z := by linarith
    rw [abs_div, abs_of_pos s0, div_le_one s0]
    linarith

/-- The ends of the curve, over H/w. -/
theorem Twin.ends (t : Twin k k') :
    |(k'.mid - k'.z) - (k.mid - k.z)| ≤ 1651 * u ∧ |(k'.mid + k'.z) - (k.mid + k.z)| ≤ 1651 * u ∧
    |k.mid - k.z| ≤ 2 ∧ |k.mid + k.z| ≤ 2 := by
  have hu0 := u_pos
  obtain ⟨z0, z1, -, zn⟩ := t.z_near
  obtain ⟨m, m1⟩ := t.mid_near
  have zn' : |k'.z - k.z| ≤ 321 * u := zn.trans (by nlinarith)
  rw [_root_.abs_le] at zn' m m1
  refine ⟨?_, ?_, ?_, ?_⟩ <;> rw [_root_.abs_le] <;> constructor <;> linarith

/-- The place of a point along the curve, over H/w. -/
noncomputable def place (k : Catenary2d) (p : ℝ) : ℝ := k.update.coordinateX p / (k.tensionHorizontal / k.weightUnit)

theorem place_eq (P : k.Positive) (p : ℝ) :
    place k p = Real.arsinh ((1 - p) * Real.sinh (k.mid - k.z) + p * Real.sinh (k.mid + k.z)) := by
  unfold place
  rw [Catenary2d.coordinateX_div P]
  congr 1
  rw [Catenary2d.update_length, Catenary2d.update_lengthLeft, Catenary2d.lengthFromOrigin, Catenary2d.lengthFromOrigin,
    Catenary2d.left_div P, Catenary2d.right_div P]
  have := P.c.ne'
  generalize k.tensionHorizontal / k.weightUnit = C at *
  field_simp
  ring

theorem near_two {x y : ℝ} (hx : |x| ≤ 2) (h : |y - x| ≤ 100000 * u) : |y| ≤ 2.01 := by
  have hu := u_small
  have := abs_sub_abs_le_abs_sub y x
  linarith

theorem Twin.place (t : Twin k k') {p : ℝ} (p0 : 0 ≤ p) (p1 : p ≤ 1) :
    |place k' p - place k p| ≤ 6604 * u ∧ |place k p| ≤ 2 := by
  have hu0 := u_pos
  obtain ⟨l, r, l2, r2⟩ := t.ends
  have l3 := near_two l2 (l.trans (by linarith))
  have r3 := near_two r2 (r.trans (by linarith))
  refine ⟨?_, ?_⟩
  · rw [place_eq t.positive, place_eq t.positive']
    refine (arsinh_near _ _).trans ?_
    have a := (sinh_near (l3.trans (by norm_num)) (l2.trans (by norm_num))).trans (mul_le_mul_of_nonneg_left l (by norm_num))
    have b := (sinh_near (r3.trans (by norm_num)) (r2.trans (by norm_num))).trans (mul_le_mul_of_nonneg_left r (by norm_num))
    generalize Real.sinh (k'.mid - k'.z) = A' at *
    generalize Real.sinh (k.mid - k.z) = A at *
    generalize Real.sinh (k'.mid + k'.z) = B' at *
    generalize Real.sinh (k.mid + k.z) = B at *
    rw [show (1 - p) * A' + p * B' - ((1 - p) * A + p * B) = (1 - p) * (A' - A) + p * (B' - B) by ring]
    refine (abs_add_le _ _).trans ?_
    rw [abs_mul, abs_mul, abs_of_nonneg p0, abs_of_nonneg (by linarith : 0 ≤ 1 - p)]
    nlinarith
  · obtain ⟨m1, m2⟩ := Catenary2d.coordinateX_mem t.positive p0 p1
    have c0 := t.positive.c
    have n1 := div_le_div_of_nonneg_right m1 c0.le
    have n2 := div_le_div_of_nonneg_right m2 c0.le
    rw [Catenary2d.left_div t.positive] at n1
    rw [Catenary2d.right_div t.positive] at n2
    rw [_root_.abs_le] at *
    unfold Inclined.place
    constructor <;> linarith

theorem Twin.cosh (t : Twin k k') {p : ℝ} (p0 : 0 ≤ p) (p1 : p ≤ 1) :
    |Real.cosh (Inclined.place k' p) - Real.cosh (Inclined.place k p)| ≤ 26416 * u ∧
    |Real.sinh (Inclined.place k' p) - Real.sinh (Inclined.place k p)| ≤ 26416 * u ∧
    1 ≤ Real.cosh (Inclined.place k p) ∧ Real.cosh (Inclined.place k p) ≤ 4 := by
  have hu0 := u_pos
  obtain ⟨a, b⟩ := t.place p0 p1
  have c := near_two b (a.trans (by linarith))
  have d := cosh_near (c.trans (by norm_num)) (b.trans (by norm_num))
  have e := sinh_near (c.trans (by norm_num)) (b.trans (by norm_num))
  refine ⟨by linarith, by linarith, Real.one_le_cosh _, cosh_le_four (b.trans (by norm_num))⟩

/-- H/w. -/
theorem Twin.constant (t : Twin k k') :
    |k'.tensionHorizontal / k'.weightUnit - k.tensionHorizontal / k.weightUnit| ≤
      21 * u * (k.tensionHorizontal / k.weightUnit) := by
  have hu0 := u_pos
  have hu := u_small
  have h0 := t.positive.h
  have w0 := t.positive.w
  have w0' := t.positive'.w
  rw [t.tension]
  have e : k.tensionHorizontal / k'.weightUnit - k.tensionHorizontal / k.weightUnit =
    (k.tensionHorizontal / k.weightUnit) * ((k.weightUnit - k'.weightUnit) / k'.weightUnit) := by field_simp
  rw [e, abs_mul, abs_of_pos t.positive.c, mul_comm]
  refine mul_le_mul_of_nonneg_right ?_ t.positive.c.le
  rw [abs_div, abs_of_pos w0', div_le_iff₀ w0', abs_sub_comm]
  have a := t.weight
  have b := (_root_.abs_le.mp a).1
  nlinarith [mul_pos hu0 w0]

/-- A dimensionless quantity times H/w. -/
theorem Twin.times (t : Twin k k') {x x' m r : ℝ} (h : |x' - x| ≤ m * u) (hx : |x| ≤ r) (m0 : 0 ≤ m) (hm : m ≤ 100000) :
    |(k'.tensionHorizontal / k'.weightUnit) * x' - (k.tensionHorizontal / k.weightUnit) * x| ≤
      (m + 21 * r + 1) * u * (k.tensionHorizontal / k.weightUnit) := by
  have hu0 := u_pos
  have hu := u_small
  have c0 := t.positive.c
  have c := t.constant
  generalize k'.tensionHorizontal / k'.weightUnit = C' at *
  generalize k.tensionHorizontal / k.weightUnit = C at *
  have i : C' * x' - C * x = C * (x' - x) + (C' - C) * x + (C' - C) * (x' - x) := by ring
  have i1 : |C * (x' - x)| ≤ C * (m * u) := by
    rw [abs_mul, abs_of_pos c0]; exact mul_le_mul_of_nonneg_left h c0.le
  have i2 : |(C' - C) * x| ≤ 21 * u * C * r := by
    rw [abs_mul]; exact mul_le_mul c hx (abs_nonneg _) (by positivity)
  have i3 : |(C' - C) * (x' - x)| ≤ 21 * u * C * (m * u) := by
    rw [abs_mul]; exact mul_le_mul c h (abs_nonneg _) (by positivity)
  have i4 : 21 * u * C * (m * u) ≤ u * C := by
    have : 21 * (m * u) ≤ 1 := by nlinarith
    nlinarith [mul_pos hu0 c0]
  have := abs_add_three (C * (x' - x)) ((C' - C) * x) ((C' - C) * (x' - x))
  rw [i]
  linarith

theorem Twin.tension_near (t : Twin k k') (R : k.Reachable) (R' : k'.Reachable) {p : ℝ} (p0 : 0 ≤ p) (p1 : p ≤ 1) :
    |k'.tension p - k.tension p| ≤ 26416 * u * k.tensionHorizontal := by
  rw [tension_exact R, tension_exact R', t.tension, ← mul_sub, abs_mul, abs_of_pos t.positive.h, mul_comm]
  have := (t.cosh p0 p1).1
  unfold Inclined.place at this
  rw [t.tension] at this
  exact mul_le_mul_of_nonneg_right this t.positive.h.le

theorem Twin.length_near (t : Twin k k') (R : k.Reachable) (R' : k'.Reachable) :
    |k'.lengthQ - k.lengthQ| ≤ 13377 * u * (k.tensionHorizontal / k.weightUnit) := by
  have hu0 := u_pos
  have e : ∀ k : Catenary2d, k.Reachable → k.Positive → k.lengthQ = (k.tensionHorizontal / k.weightUnit) *
      (Real.sinh (k.mid + k.z) - Real.sinh (k.mid - k.z)) := by
    intro k R P
    unfold Catenary2d.lengthQ
    rw [R.refresh_eq, Catenary2d.update_length, Catenary2d.lengthFromOrigin, Catenary2d.lengthFromOrigin,
      Catenary2d.left_div P, Catenary2d.right_div P]
    ring
  obtain ⟨l, r, l2, r2⟩ := t.ends
  have l3 := near_two l2 (l.trans (by linarith))
  have r3 := near_two r2 (r.trans (by linarith))
  have a := (sinh_near (l3.trans (by norm_num)) (l2.trans (by norm_num))).trans (mul_le_mul_of_nonneg_left l (by norm_num))
  have b := (sinh_near (r3.trans (by norm_num)) (r2.trans (by norm_num))).trans (mul_le_mul_of_nonneg_left r (by norm_num))
  have ch : ∀ x : ℝ, |x| ≤ 2 → |Real.sinh x| ≤ 4 := by
    intro x hx
    have a := cosh_le_four (hx.trans (by norm_num))
    rw [Real.abs_sinh]
    have b := Real.sinh_lt_cosh |x|
    rw [Real.cosh_abs] at b
    linarith
  have al := ch _ l2
  have ar := ch _ r2
  rw [e k R t.positive, e k' R' t.positive']
  refine (t.times (m := 13208) (r := 8) ?_ ?_ (by norm_num) (by norm_num)).trans_eq (by norm_num)
  · rw [show Real.sinh (k'.mid + k'.z) - Real.sinh (k'.mid - k'.z) - (Real.sinh (k.mid + k.z) - Real.sinh (k.mid - k.z)) =
      (Real.sinh (k'.mid + k'.z) - Real.sinh (k.mid + k.z)) - (Real.sinh (k'.mid - k'.z) - Real.sinh (k.mid - k.z)) by ring]
    refine (abs_sub _ _).trans ?_
    linarith
  · exact (abs_sub _ _).trans (by linarith)

theorem magnitude_lipschitz (v w : V2) : |v.magnitude - w.magnitude| ≤ |v.x - w.x| + |v.y - w.y| := by
  have e : ∀ v : V2, v.magnitude = ‖(⟨v.x, v.y⟩ : ℂ)‖ := by
    intro v
    rw [Complex.norm_def, Complex.normSq_mk, ← sq, ← sq]
    rfl
  rw [e, e]
  refine (abs_norm_sub_norm_le _ _).trans ?_
  exact Complex.norm_le_abs_re_add_abs_im _

theorem Twin.slack_near (t : Twin k k') (R : k.Reachable) (R' : k'.Reachable) :
    |k'.lengthSlack - k.lengthSlack| ≤ 14100 * u * (k.tensionHorizontal / k.weightUnit) := by
  have hu0 := u_pos
  have c0 := t.positive.c
  have a := t.length_near R R'
  have e : ∀ k : Catenary2d, k.Reachable → k.lengthSlack = k.lengthQ - k.spacing.magnitude := by
    intro k R
    unfold Catenary2d.lengthSlack Catenary2d.lengthQ
    rw [R.refresh_eq]
    rfl
  have b := magnitude_lipschitz k'.spacing k.spacing
  have c : |k'.spacing.magnitude - k.spacing.magnitude| ≤ 640 * u * (k.tensionHorizontal / k.weightUnit) := by
    have := mul_le_mul_of_nonneg_left t.short hu0.le
    linarith [t.span, t.rise]
  rw [e k R, e k' R', sub_sub_sub_comm]
  refine (abs_sub _ _).trans ?_
  have := mul_pos hu0 c0
  linarith

theorem Twin.height_near (t : Twin k k') {p : ℝ} (p0 : 0 ≤ p) (p1 : p ≤ 1) :
    |k'.coordinateY (k'.update.coordinateX p) - k.coordinateY (k.update.coordinateX p)| ≤
      26480 * u * (k.tensionHorizontal / k.weightUnit) := by
  obtain ⟨a, -, b, c⟩ := t.cosh p0 p1
  refine (t.times (m := 26416) (r := 3) ?_ ?_ (by norm_num) (by norm_num)).trans_eq (by norm_num)
  · rw [sub_sub_sub_cancel_right]; exact a
  · show |Real.cosh (Inclined.place k p) - 1| ≤ 3
    rw [_root_.abs_le]; constructor <;> linarith

theorem Twin.position_near (t : Twin k k') {p : ℝ} (p0 : 0 ≤ p) (p1 : p ≤ 1) :
    |k'.update.coordinateX p - k.update.coordinateX p| ≤ 6647 * u * (k.tensionHorizontal / k.weightUnit) ∧
    |k.update.coordinateX p| ≤ 2 * (k.tensionHorizontal / k.weightUnit) := by
  obtain ⟨a, b⟩ := t.place p0 p1
  have e : ∀ k : Catenary2d, k.Positive → k.update.coordinateX p = (k.tensionHorizontal / k.weightUnit) * Inclined.place k p :=
    fun k P => (mul_div_cancel₀ _ P.c.ne').symm
  rw [e k t.positive, e k' t.positive']
  refine ⟨(t.times a b (by norm_num) (by norm_num)).trans_eq (by norm_num), ?_⟩
  rw [abs_mul, abs_of_pos t.positive.c, mul_comm]
  exact mul_le_mul_of_nonneg_right b t.positive.c.le

theorem Twin.slope_near (t : Twin k k') : |k'.spacing.y / k'.spacing.x - k.spacing.y / k.spacing.x| ≤ 321 * u ∧
    |k.spacing.y / k.spacing.x| ≤ 1 := by
  have hu0 := u_pos
  have hu := u_small
  have a0 := t.positive.a
  have a0' := t.positive'.a
  have q : |k.spacing.y / k.spacing.x| ≤ 1 := by
    rw [abs_div, abs_of_pos a0, div_le_one a0]; exact t.flat
  refine ⟨?_, q⟩
  have e : k'.spacing.y / k'.spacing.x - k.spacing.y / k.spacing.x =
    ((k'.spacing.y - k.spacing.y) + k.spacing.y / k.spacing.x * (k.spacing.x - k'.spacing.x)) / k'.spacing.x := by
    field_simp; ring
  rw [e, abs_div, abs_of_pos a0', div_le_iff₀ a0']
  have i : |k.spacing.y / k.spacing.x * (k.spacing.x - k'.spacing.x)| ≤ 1 * (300 * u * k.spacing.x) := by
    rw [abs_mul, abs_sub_comm k.spacing.x]; exact mul_le_mul q t.span (abs_nonneg _) (by norm_num)
  have := abs_add_le (k'.spacing.y - k.spacing.y) (k.spacing.y / k.spacing.x * (k.spacing.x - k'.spacing.x))
  have b := (_root_.abs_le.mp t.span).1
  have r := t.rise
  have ua := mul_pos hu0 a0
  have f : 0.999 * k.spacing.x ≤ k'.spacing.x := by nlinarith
  have g : 321 * u * (0.999 * k.spacing.x) ≤ 321 * u * k'.spacing.x := mul_le_mul_of_nonneg_left f (by positivity)
  nlinarith

theorem Twin.sagAt_near (t : Twin k k') (R : k.Reachable) (R' : k'.Reachable) {p : ℝ} (p0 : 0 ≤ p) (p1 : p ≤ 1) :
    |k'.sagAt p - k.sagAt p| ≤ 67600 * u * (k.tensionHorizontal / k.weightUnit) := by
  have hu0 := u_pos
  have hu := u_small
  have c0 := t.positive.c
  have y := t.height_near p0 p1
  have y0 := t.height_near le_rfl zero_le_one
  obtain ⟨x, xa⟩ := t.position_near p0 p1
  obtain ⟨x0, xa0⟩ := t.position_near le_rfl zero_le_one
  obtain ⟨s, sa⟩ := t.slope_near
  rw [sagAt_eq R t.positive, sagAt_eq R' t.positive', ← Catenary2d.coordinateX_zero t.positive,
    ← Catenary2d.coordinateX_zero t.positive']
  generalize k'.coordinateY (k'.update.coordinateX p) = Y' at *
  generalize k.coordinateY (k.update.coordinateX p) = Y at *
  generalize k'.coordinateY (k'.update.coordinateX 0) = Z' at *
  generalize k.coordinateY (k.update.coordinateX 0) = Z at *
  generalize k'.update.coordinateX p = X' at *
  generalize k.update.coordinateX p = X at *
  generalize k'.update.coordinateX 0 = W' at *
  generalize k.update.coordinateX 0 = W at *
  generalize k'.spacing.y / k'.spacing.x = S' at *
  generalize k.spacing.y / k.spacing.x = S at *
  generalize k.tensionHorizontal / k.weightUnit = C at *
  have d : |(X' - W') - (X - W)| ≤ 13294 * u * C := by
    rw [sub_sub_sub_comm]; exact (abs_sub _ _).trans (by linarith)
  have da : |X - W| ≤ 4 * C := (abs_sub _ _).trans (by linarith)
  generalize X' - W' = D' at *
  generalize X - W = D at *
  have i : Z' + D' * S' - Y' - (Z + D * S - Y) = (Z' - Z) - (Y' - Y) + ((D' - D) * S + D * (S' - S) + (D' - D) * (S' - S)) := by ring
  have i1 : |(D' - D) * S| ≤ 13294 * u * C * 1 := by
    rw [abs_mul]; exact mul_le_mul d sa (abs_nonneg _) (by positivity)
  have i2 : |D * (S' - S)| ≤ 4 * C * (321 * u) := by
    rw [abs_mul]; exact mul_le_mul da s (abs_nonneg _) (by positivity)
  have i3 : |(D' - D) * (S' - S)| ≤ 13294 * u * C * (321 * u) := by
    rw [abs_mul]; exact mul_le_mul d s (abs_nonneg _) (by positivity)
  have uC := mul_pos hu0 c0
  have i4 : 13294 * u * C * (321 * u) ≤ u * C := by
    have : 13294 * 321 * u ≤ 1 := by linarith
    nlinarith
  have t1 := abs_add_three ((D' - D) * S) (D * (S' - S)) ((D' - D) * (S' - S))
  have t2 := abs_add_le ((Z' - Z) - (Y' - Y)) ((D' - D) * S + D * (S' - S) + (D' - D) * (S' - S))
  have t3 := abs_sub (Z' - Z) (Y' - Y)
  rw [i]
  linarith

theorem Twin.sag_near (t : Twin k k') (R : k.Reachable) (R' : k'.Reachable) :
    |k'.sag - k.sag| ≤ 67600 * u * (k.tensionHorizontal / k.weightUnit) := by
  obtain ⟨e, p0, p1, -⟩ := C47_sag_point R t.positive
  obtain ⟨e', q0, q1, -⟩ := C47_sag_point R' t.positive'
  have a := C47_sag_max R t.positive k'.positionFractionSagPoint
  have b := C47_sag_max R' t.positive' k.positionFractionSagPoint
  have c := _root_.abs_le.mp (t.sagAt_near R R' p0.le p1.le)
  have d := _root_.abs_le.mp (t.sagAt_near R R' q0.le q1.le)
  rw [_root_.abs_le]
  constructor <;> linarith

theorem Twin.max_near (t : Twin k k') (R : k.Reachable) (R' : k'.Reachable) :
    |k'.tensionMax - k.tensionMax| ≤ 26416 * u * k.tensionHorizontal := by
  have n := fun p p0 p1 => _root_.abs_le.mp (t.tension_near R R' (p := p) p0 p1)
  have at0 : ∀ k : Catenary2d, k.Reachable → ∃ p : ℝ, 0 ≤ p ∧ p ≤ 1 ∧ k.tensionMax = k.tension p := by
    intro k R
    rcases C45_max_attained R with e | e
    · exact ⟨0, le_rfl, zero_le_one, e⟩
    · exact ⟨1, zero_le_one, le_rfl, e⟩
  obtain ⟨p, p0, p1, e⟩ := at0 k R
  obtain ⟨q, q0, q1, e'⟩ := at0 k' R'
  have a := C45_tension_le_max R t.positive q0 q1
  have b := C45_tension_le_max R' t.positive' p0 p1
  have c := n p p0 p1
  have d := n q q0 q1
  rw [_root_.abs_le]
  constructor <;> linarith

theorem Twin.average_near (t : Twin k k') (R : k.Reachable) (R' : k'.Reachable) :
    |k'.tensionAverage - k.tensionAverage| ≤ 26416 * u * k.tensionHorizontal := by
  have cont : ∀ k : Catenary2d, k.Reachable → Continuous fun p => k.tension p := by
    intro k R
    have : (fun p => k.tension p) = fun p => k.tensionHorizontal *
        Real.cosh (k.update.coordinateX p / (k.tensionHorizontal / k.weightUnit)) := funext fun p => tension_exact R p
    rw [this]
    apply continuous_const.mul (Real.continuous_cosh.comp _)
    apply Continuous.div_const
    unfold Catenary2d.coordinateX
    apply continuous_const.mul
    refine Real.continuous_arsinh.comp ?_
    fun_prop
  rw [C46_average R t.positive, C46_average R' t.positive',
    ← intervalIntegral.integral_sub ((cont k' R').intervalIntegrable _ _) ((cont k R).intervalIntegrable _ _)]
  have := intervalIntegral.norm_integral_le_of_norm_le_const (a := 0) (b := 1) (f := fun p => k'.tension p - k.tension p)
    (C := 26416 * u * k.tensionHorizontal) (by
      intro p hp
      rw [Set.uIoc_of_le zero_le_one] at hp
      exact t.tension_near R R' hp.1.le hp.2)
  rw [Real.norm_eq_abs] at this
  simpa using this

theorem Twin.points_near (t : Twin k k') (R : k.Reachable) (R' : k'.Reachable) {n : ℤ} (n0 : 0 < n) :
    |k'.tensionAverage n - k.tensionAverage n| ≤ 26416 * u * k.tensionHorizontal := by
  have N0 : (0 : ℝ) < n := by exact_mod_cast n0
  have e : ∀ k : Catenary2d, k.tensionAverage n =
      ((List.range (n.toNat + 1)).map fun i : ℕ => k.tension ((i : ℝ) / (n : ℝ))).sum / ((n : ℝ) + 1) := by
    intro k
    simp only [Catenary2d.tensionAverage, Catenary2d.tensionAverageBody, Catenary2d.tension, n0.ne', n0, if_false, if_true]
  have cast : ((n.toNat : ℕ) : ℝ) = (n : ℝ) := by exact_mod_cast Int.toNat_of_nonneg n0.le
  rw [e, e, ← sub_div, abs_div, abs_of_pos (by linarith : (0 : ℝ) < n + 1), div_le_iff₀ (by linarith)]
  have : ∀ m ≤ n.toNat + 1, |((List.range m).map fun i : ℕ => k'.tension ((i : ℝ) / (n : ℝ))).sum -
      ((List.range m).map fun i : ℕ => k.tension ((i : ℝ) / (n : ℝ))).sum| ≤ m * (26416 * u * k.tensionHorizontal) := by
    intro m
    induction m with
    | zero => simp
    | succ m ih =>
      intro hm
      have a := ih (by omega)
      have b := t.tension_near R R' (p := (m : ℝ) / (n : ℝ)) (by positivity) (by
        rw [div_le_one N0, ← cast]; exact_mod_cast (by omega : m ≤ n.toNat))
      rw [List.range_succ, List.map_append, List.map_append, List.sum_append, List.sum_append, List.map_singleton,
        List.map_singleton, List.sum_singleton, List.sum_singleton, add_sub_add_comm]
      refine (abs_add_le _ _).trans ?_
      push_cast
      linarith
  have := this _ le_rfl
  push_cast at this
  rw [cast] at this
  linarith

end

/-- The vertical spacing in the plane of the cable. -/
theorem rise_close8 {L : Library} {k : Catenary3d} (h : OrdinarySpan k) : Close 8 (Double.Span.rise L k) k.spacing2d.y := by
  have ey : k.spacing2d.y = k.spacing.z * (|k.weightUnit.z| / k.weightUnit.magnitude) := rfl
  rcases h.rise with hz | hz
  · have hr : Double.Span.rise L k = 0 := by unfold Double.Span.rise; rw [hz, zero_mul, rnd_zero]
    rw [hr, ey, hz, zero_mul]
    exact (Close.refl 0).mono (by norm_num)
  · have hz0 : 0 < k.weightUnit.z := (two_zpow_pos _).trans_le h.load.1
    have hW : k.weightUnit.z ≤ k.weightUnit.magnitude := by
      refine Real.le_sqrt_of_sq_le ?_
      nlinarith [sq_nonneg k.weightUnit.x, sq_nonneg k.weightUnit.y]
    have hW0 : 0 < k.weightUnit.magnitude := hz0.trans_le hW
    have cw : Close 6 (magnitude3 L k.weightUnit) k.weightUnit.magnitude :=
      magnitude3_close L h.weight.1 h.weight.2.1 h.weight.2.2
    rw [abs_of_pos hz0] at ey
    have c1 := (Close.refl k.weightUnit.z).div cw
    have b1 : (2 : ℝ) ^ (-100 - 99 : ℤ) ≤ k.weightUnit.z / k.weightUnit.magnitude := zpow_div_le h.load.1 hW0 h.load.2
    have c2 := c1.rnd (not_tiny_close c1 (by norm_num) b1 (by norm_num))
    have c3 := (Close.refl k.spacing.z).mul c2
    rw [← ey] at c3
    have b2 : (2 : ℝ) ^ (-300 : ℤ) ≤ |k.spacing2d.y| := by
      rw [ey, abs_mul, abs_of_pos (div_pos hz0 hW0)]
      refine (two_zpow_le (by norm_num)).trans (zpow_mul_le (d := -100) (e := -100 - 99) hz b1)
    have b3 := c3.abs_ge (by norm_num)
    unfold Double.Span.rise
    rw [abs_of_pos hz0]
    refine (c3.rnd ?_).mono (by norm_num)
    have e : (2 : ℝ) ^ (-300 : ℤ) = 2 ^ (-301 : ℤ) * 2 := by rw [← zpow_add_one₀ (by norm_num)]; norm_num
    rw [e] at b2
    exact (two_zpow_le (by norm_num : (-1022 : ℤ) ≤ -301)).trans (by linarith)

end Inclined

/-- A span of ordinary size that the catenary accepts with a little to spare: a chord shorter than twice H/w, and less
steep than 45 degrees. -/
structure BlownSpan (k : Catenary3d) : Prop extends OrdinarySpan k where
  far : 2 ^ (-99 : ℤ) ≤ k.spacing.x ∧ k.spacing.magnitude ≤ 2 ^ (99 : ℤ)
  tension : IsDouble k.tensionHorizontal ∧ 2 ^ (-100 : ℤ) ≤ k.tensionHorizontal ∧ k.tensionHorizontal ≤ 2 ^ (100 : ℤ)
  short : k.spacing.magnitude ≤ 1.999 * (k.tensionHorizontal / k.weightUnit.magnitude)
  flat : |k.spacing.z| ≤ 0.999 * k.spacing.x

namespace Inclined

/-- The planar catenary with the parameters that are computed with doubles. -/
noncomputable def twin (L : Library) (k : Catenary3d) : Catenary2d :=
  (k.refresh.catenary2d.setSpacing (Double.Span.spacing2d L k)).setWeight (magnitude3 L k.weightUnit)

theorem twin_reachable (L : Library) {k : Catenary3d} (R : k.Reachable) : (twin L k).Reachable := by
  obtain ⟨⟨es, h, e⟩, -, -⟩ := R.inner
  refine ⟨es ++ [.setSpacing (Double.Span.spacing2d L k), .setWeight (magnitude3 L k.weightUnit)], ?_, ?_⟩
  · rw [List.any_append, h]; rfl
  · rw [List.foldl_append, ← e]; rfl

theorem twin_updated (L : CurveLibrary) (k : Catenary3d) :
    Double.Span.updated L k = Curve.update L (twin L.toLibrary k) := by
  have e : ∀ a b : Catenary2d, a.tensionHorizontal = b.tensionHorizontal → a.weightUnit = b.weightUnit →
      a.spacing = b.spacing → Curve.update L a = Curve.update L b := by
    rintro ⟨⟩ ⟨⟩ h1 h2 h3
    simp only at h1 h2 h3
    subst h1 h2 h3
    rfl
  refine e _ _ ?_ rfl rfl
  show k.catenary2d.tensionHorizontal = k.refresh.catenary2d.tensionHorizontal
  rw [(Catenary3d.refresh_params k).2.2.2]
  rfl

theorem relative_bounds {A B m : ℝ} (B0 : 0 < B) (h : |A - B| ≤ m * u * B) (hm : m ≤ 300) :
    0.999999 * B ≤ A ∧ A ≤ 1.000001 * B := by
  have hu0 := u_pos
  have hu := u_small
  have a := _root_.abs_le.mp h
  have : m * u ≤ 0.000001 := by nlinarith
  have := mul_le_mul_of_nonneg_right this B0.le
  constructor <;> linarith

theorem root_near {A B M : ℝ} (A0 : 0 ≤ A) (B0 : 0 < B) (h : |A ^ 2 - B ^ 2| ≤ 128 * u * M) (hM : M ≤ 2 * B ^ 2) :
    |A - B| ≤ 256 * u * B := by
  have hu0 := u_pos
  have f : |A ^ 2 - B ^ 2| = |A - B| * (A + B) := by
    rw [sq_sub_sq, abs_mul, mul_comm, abs_of_nonneg (by linarith : 0 ≤ A + B)]
  rw [f] at h
  have g1 : |A - B| * B ≤ |A - B| * (A + B) := mul_le_mul_of_nonneg_left (by linarith) (abs_nonneg _)
  have k1 : 128 * u * M ≤ 128 * u * (2 * B ^ 2) := mul_le_mul_of_nonneg_left hM (by positivity)
  have g : |A - B| * B ≤ 256 * u * B * B := by
    calc _ ≤ _ := g1
      _ ≤ _ := h
      _ ≤ _ := k1
      _ = _ := by ring
  exact le_of_mul_le_mul_right g B0

theorem ratio_bounds {H W W' : ℝ} (H0 : 0 < H) (W0 : 0 < W) (W0' : 0 < W') (h : 0.999999 * W ≤ W' ∧ W' ≤ 1.000001 * W) :
    0.99999 * (H / W) ≤ H / W' ∧ H / W' ≤ 1.01 * (H / W) := by
  have := mul_pos H0 W0
  rw [← mul_div_assoc, ← mul_div_assoc, div_le_div_iff₀ W0 W0', div_le_div_iff₀ W0' W0]
  have a := mul_le_mul_of_nonneg_left h.1 H0.le
  have b := mul_le_mul_of_nonneg_left h.2 H0.le
  constructor <;> linarith

/-- The exact planar spacing. -/
theorem planar_spacing {k : Catenary3d} (h : OrdinarySpan k) (hf : |k.spacing.z| ≤ 0.999 * k.spacing.x) :
    k.spacing.x ≤ k.spacing2d.x ∧ k.spacing2d.x ≤ k.spacing.magnitude ∧ |k.spacing2d.y| ≤ 0.999 * k.spacing2d.x ∧
    k.spacing.magnitude ^ 2 ≤ 2 * k.spacing2d.x ^ 2 := by
  have x0 : 0 < k.spacing.x := (two_zpow_pos _).trans_le h.span
  have hz0 : 0 < k.weightUnit.z := (two_zpow_pos _).trans_le h.load.1
  have hW : k.weightUnit.z ≤ k.weightUnit.magnitude := by
    refine Real.le_sqrt_of_sq_le ?_
    nlinarith [sq_nonneg k.weightUnit.x, sq_nonneg k.weightUnit.y]
  have hW0 : 0 < k.weightUnit.magnitude := hz0.trans_le hW
  have ay : |k.spacing2d.y| ≤ |k.spacing.z| := by
    show |k.spacing.z * (|k.weightUnit.z| / k.weightUnit.magnitude)| ≤ _
    rw [abs_mul, abs_of_pos hz0, abs_of_pos (div_pos hz0 hW0)]
    refine mul_le_of_le_one_right (abs_nonneg _) ?_
    rw [div_le_one hW0]; exact hW
  have ax2 : k.spacing2d.x ^ 2 = k.spacing.magnitude ^ 2 - k.spacing2d.y ^ 2 := Real.sq_sqrt (sub_nonneg.mpr rise_sq_le)
  have ax0 : 0 ≤ k.spacing2d.x := Real.sqrt_nonneg _
  have m0 : 0 ≤ k.spacing.magnitude := Real.sqrt_nonneg _
  have msq : k.spacing.magnitude ^ 2 = k.spacing.x ^ 2 + k.spacing.z ^ 2 := by
    rw [V3.magnitude_sq, h.straight]; ring
  have ysq : k.spacing2d.y ^ 2 ≤ k.spacing.z ^ 2 := sq_le_sq.mpr ay
  have ax : k.spacing.x ≤ k.spacing2d.x := abs_le_of_sq_le_sq' (by linarith) ax0 |>.2
  have flat : |k.spacing2d.y| ≤ 0.999 * k.spacing2d.x := by linarith
  refine ⟨ax, ?_, flat, ?_⟩
  · exact abs_le_of_sq_le_sq' (by linarith [sq_nonneg k.spacing2d.y]) m0 |>.2
  · have : k.spacing2d.y ^ 2 ≤ k.spacing2d.x ^ 2 := sq_le_sq.mpr (by rw [abs_of_nonneg ax0]; linarith)
    linarith

theorem BlownSpan.twin {L : Library} (hL : L.SquaresRounded) {k : Catenary3d} (R : k.Reachable) (h : BlownSpan k) :
    Twin k.refresh.catenary2d (twin L k) ∧ Span (Inclined.twin L k) ∧
    k.refresh.catenary2d.tensionHorizontal / k.refresh.catenary2d.weightUnit =
      k.tensionHorizontal / k.weightUnit.magnitude ∧
    (Inclined.twin L k).tensionHorizontal / (Inclined.twin L k).weightUnit ≤
      1.01 * (k.tensionHorizontal / k.weightUnit.magnitude) ∧
    k.refresh.catenary2d.tensionHorizontal = k.tensionHorizontal ∧
    (Inclined.twin L k).tensionHorizontal = k.tensionHorizontal := by
  have hu0 := u_pos
  have hu := u_small
  obtain ⟨-, si, wi⟩ := R.inner
  have ti := (Catenary3d.refresh_params k).2.2.2
  have x0 : 0 < k.spacing.x := (two_zpow_pos _).trans_le h.span
  have H0 : 0 < k.tensionHorizontal := (two_zpow_pos _).trans_le h.tension.2.1
  have hz0 : 0 < k.weightUnit.z := (two_zpow_pos _).trans_le h.load.1
  have hW : k.weightUnit.z ≤ k.weightUnit.magnitude := by
    refine Real.le_sqrt_of_sq_le ?_
    nlinarith [sq_nonneg k.weightUnit.x, sq_nonneg k.weightUnit.y]
  have hW0 : 0 < k.weightUnit.magnitude := hz0.trans_le hW
  -- the weight
  have cw : Close 6 (magnitude3 L k.weightUnit) k.weightUnit.magnitude :=
    magnitude3_close L h.weight.1 h.weight.2.1 h.weight.2.2
  have ew := cw.error (by norm_num)
  rw [abs_of_pos hW0] at ew
  push_cast at ew
  have gw := magnitude3_ge hL h.weight.1.1 h.weight.2.1.1 h.weight.2.2
  rw [abs_of_pos hz0] at gw
  have w0' : 0 < magnitude3 L k.weightUnit := hz0.trans_le gw
  -- the planar spacing
  obtain ⟨ax, axm, flat, msq⟩ := planar_spacing h.toOrdinarySpan h.flat
  have a0 : 0 < k.spacing2d.x := by linarith
  have acc := C183_accuracy hL h.toOrdinarySpan
  have i46 : (2 : ℝ) ^ (-46 : ℤ) = 128 * u := by unfold u; norm_num
  rw [i46] at acc
  have a0' : 0 ≤ (Double.Span.spacing2d L k).x := rnd_nonneg (Real.sqrt_nonneg _)
  have ea := root_near a0' a0 acc msq
  have eb := (rise_close8 (L := L) h.toOrdinarySpan).error (by norm_num)
  push_cast at eb
  have eb' : |(Double.Span.spacing2d L k).y - k.spacing2d.y| ≤ 16 * u * k.spacing2d.x := by
    refine eb.trans ?_
    have := mul_le_mul_of_nonneg_left (flat.trans (by linarith : _ ≤ k.spacing2d.x)) (by positivity : 0 ≤ 16 * u)
    linarith
  have ua := mul_pos hu0 a0
  have uw := mul_pos hu0 hW0
  obtain ⟨alow, aup⟩ := relative_bounds a0 ea (by norm_num)
  have a1 : 0 < (Double.Span.spacing2d L k).x := by linarith
  have wb := relative_bounds hW0 (m := 12) (by linarith) (by norm_num)
  have wup := wb.2
  have C0 : 0 < k.tensionHorizontal / k.weightUnit.magnitude := div_pos H0 hW0
  obtain ⟨Clow, Cup⟩ := ratio_bounds H0 hW0 w0' wb
  have et : (Inclined.twin L k).tensionHorizontal = k.tensionHorizontal := ti
  have ec : k.refresh.catenary2d.tensionHorizontal / k.refresh.catenary2d.weightUnit =
      k.tensionHorizontal / k.weightUnit.magnitude := by rw [ti, wi]
  have P : k.refresh.catenary2d.Positive := ⟨by rw [ti]; exact H0, by rw [wi]; exact hW0, by rw [si]; exact a0⟩
  have P' : (Inclined.twin L k).Positive := ⟨by rw [et]; exact H0, w0', a1⟩
  refine ⟨⟨P, P', et.trans ti.symm, ?_, ?_, ?_, ?_, ?_⟩, ⟨⟨?_, ?_, ?_, ?_⟩, ?_, ?_, ?_, ?_, ?_⟩, ec, ?_, ti, et⟩
  · rw [wi]
    show |magnitude3 L k.weightUnit - _| ≤ _
    linarith
  · rw [si]
    show |(Double.Span.spacing2d L k).x - _| ≤ _
    linarith
  · rw [si]
    show |(Double.Span.spacing2d L k).y - _| ≤ _
    linarith
  · rw [ec, si]; linarith [h.short]
  · rw [si]; linarith
  · rw [et]; exact h.tension.1
  · exact rnd_isDouble _
  · exact rnd_isDouble _
  · exact rnd_isDouble _
  · rw [et]; exact h.tension.2
  · refine ⟨h.load.1.trans gw, ?_⟩
    show magnitude3 L k.weightUnit ≤ _
    have e : (2 : ℝ) ^ (100 : ℤ) = 2 * 2 ^ (99 : ℤ) := by rw [← zpow_one_add₀ (by norm_num)]; norm_num
    have := h.load.2
    rw [e]
    generalize (2 : ℝ) ^ (99 : ℤ) = q at *
    linarith
  · show _ ≤ (Double.Span.spacing2d L k).x ∧ (Double.Span.spacing2d L k).x ≤ _
    have e : (2 : ℝ) ^ (100 : ℤ) = 2 * 2 ^ (99 : ℤ) := by rw [← zpow_one_add₀ (by norm_num)]; norm_num
    have e' : (2 : ℝ) ^ (-99 : ℤ) = 2 * 2 ^ (-100 : ℤ) := by rw [← zpow_one_add₀ (by norm_num)]; norm_num
    obtain ⟨f1, f2⟩ := h.far
    rw [e'] at f1
    rw [e]
    have q0 := two_zpow_pos (-100)
    generalize (2 : ℝ) ^ (99 : ℤ) = q at *
    generalize (2 : ℝ) ^ (-100 : ℤ) = q' at *
    constructor <;> linarith
  · show (Double.Span.spacing2d L k).x ≤ 2 * ((Inclined.twin L k).tensionHorizontal / magnitude3 L k.weightUnit)
    rw [et]
    linarith [h.short]
  · show |(Double.Span.spacing2d L k).y| ≤ (Double.Span.spacing2d L k).x
    have := abs_sub_abs_le_abs_sub (Double.Span.spacing2d L k).y k.spacing2d.y
    have : 16 * u * k.spacing2d.x ≤ 0.0001 * k.spacing2d.x := mul_le_mul_of_nonneg_right (by linarith) a0.le
    linarith
  · show (Inclined.twin L k).tensionHorizontal / magnitude3 L k.weightUnit ≤ _
    rw [et]; exact Cup

end Inclined

variable {L : CurveLibrary} {k : Catenary3d}

/-- **C193** (length): the computed length and slack of a span in space are within 2^-39 of H/w of the exact ones. -/
theorem C193_length_partial (hL : L.toLibrary.SquaresRounded) (R : k.Reachable) (h : BlownSpan k) :
    |(Double.Span.updated L k).length - k.length| ≤ 2 ^ (-39 : ℤ) * (k.tensionHorizontal / k.weightUnit.magnitude) ∧
    |Curve.lengthSlack L (Double.Span.updated L k) - k.lengthSlack| ≤
      2 ^ (-39 : ℤ) * (k.tensionHorizontal / k.weightUnit.magnitude) := by
  have hu0 := u_pos
  have i1 : (2 : ℝ) ^ (-39 : ℤ) = 16384 * u := by unfold u; norm_num
  have i2 : (2 : ℝ) ^ (-43 : ℤ) = 1024 * u := by unfold u; norm_num
  obtain ⟨t, s, ec, cup, -, -⟩ := Inclined.BlownSpan.twin hL R h
  have Ri := R.inner.1
  have R' := twin_reachable L.toLibrary R
  have c0 := t.positive.c
  rw [ec] at c0
  obtain ⟨a1, a2⟩ := C191_length_partial (L := L) R' s
  have b1 := t.length_near Ri R'
  have b2 := t.slack_near Ri R'
  rw [ec] at b1 b2
  rw [i2] at a1 a2
  rw [i1, twin_updated]
  have cu := mul_le_mul_of_nonneg_left cup hu0.le
  have uc := mul_pos hu0 c0
  constructor
  · refine (abs_sub_le _ (Inclined.twin L.toLibrary k).lengthQ _).trans ?_
    show _ + |_ - k.refresh.catenary2d.lengthQ| ≤ _
    linarith
  · refine (abs_sub_le _ (Inclined.twin L.toLibrary k).lengthSlack _).trans ?_
    show _ + |_ - k.refresh.catenary2d.lengthSlack| ≤ _
    linarith

/-- **C193** (sag): at every position the computed sag of a span in space is within 2^-36 of H/w of the exact one; so is
the sag of the span, unless it is shorter than 2^-39 times H/w. -/
theorem C193_sag_partial (hL : L.toLibrary.SquaresRounded) (R : k.Reachable) (h : BlownSpan k) :
    (∀ p, 0 ≤ p → p ≤ 1 → |Curve.sagAt L (Double.Span.updated L k) p - k.sagAt p| ≤
      2 ^ (-36 : ℤ) * (k.tensionHorizontal / k.weightUnit.magnitude)) ∧
    (2 ^ (-39 : ℤ) * (k.tensionHorizontal / k.weightUnit.magnitude) ≤ k.spacing.x →
      |Curve.sag L (Double.Span.updated L k) - k.sag| ≤ 2 ^ (-36 : ℤ) * (k.tensionHorizontal / k.weightUnit.magnitude)) := by
  have hu0 := u_pos
  have i1 : (2 : ℝ) ^ (-36 : ℤ) = 131072 * u := by unfold u; norm_num
  have i2 : (2 : ℝ) ^ (-40 : ℤ) = 8192 * u := by unfold u; norm_num
  have i3 : (2 : ℝ) ^ (-39 : ℤ) = 16384 * u := by unfold u; norm_num
  obtain ⟨t, s, ec, cup, -, -⟩ := Inclined.BlownSpan.twin hL R h
  have Ri := R.inner.1
  have R' := twin_reachable L.toLibrary R
  have c0 := t.positive.c
  rw [ec] at c0
  have cu := mul_le_mul_of_nonneg_left cup hu0.le
  have uc := mul_pos hu0 c0
  rw [i1, i3, twin_updated]
  refine ⟨fun p p0 p1 => ?_, fun taut => ?_⟩
  · have a := (C191_position_partial (L := L) R' s p0 p1).2.2.1
    have b := t.sagAt_near Ri R' p0 p1
    rw [ec] at b
    rw [i2] at a
    refine (abs_sub_le _ ((Inclined.twin L.toLibrary k).sagAt p) _).trans ?_
    show _ + |_ - k.refresh.catenary2d.sagAt p| ≤ _
    linarith
  · have x1 := (planar_spacing h.toOrdinarySpan h.flat).1
    have x2 := (relative_bounds t.positive.a t.span (by norm_num)).1
    rw [R.inner.2.1] at x2
    have a := C191_sag_partial (L := L) R' s (by rw [i2]; linarith)
    have b := t.sag_near Ri R'
    rw [ec] at b
    rw [i3] at a
    refine (abs_sub_le _ (Inclined.twin L.toLibrary k).sag _).trans ?_
    show _ + |_ - k.refresh.catenary2d.sag| ≤ _
    linarith

/-- **C193** (tension): at every position the computed tension of a span in space is within 2^-38 of the horizontal
tension of the exact one, and so is the largest tension; no computed tension exceeds the computed largest tension by more
than 2^-40 of the horizontal tension. -/
theorem C193_tension_partial {L : TangentLibrary} (hL : L.toLibrary.SquaresRounded) (R : k.Reachable) (h : BlownSpan k) :
    (∀ p, 0 ≤ p → p ≤ 1 → |Curve.tension L.toCurveLibrary (Double.Span.updated L.toCurveLibrary k) p - k.tension p| ≤
      2 ^ (-38 : ℤ) * k.tensionHorizontal) ∧
    |Curve.tensionMax L (Double.Span.updated L.toCurveLibrary k) - k.tensionMax| ≤ 2 ^ (-38 : ℤ) * k.tensionHorizontal ∧
    ∀ p, 0 ≤ p → p ≤ 1 → Curve.tension L.toCurveLibrary (Double.Span.updated L.toCurveLibrary k) p ≤
      Curve.tensionMax L (Double.Span.updated L.toCurveLibrary k) + 2 ^ (-40 : ℤ) * k.tensionHorizontal := by
  have hu0 := u_pos
  have i1 : (2 : ℝ) ^ (-38 : ℤ) = 32768 * u := by unfold u; norm_num
  have i2 : (2 : ℝ) ^ (-41 : ℤ) = 4096 * u := by unfold u; norm_num
  obtain ⟨t, s, -, -, eh, et⟩ := Inclined.BlownSpan.twin hL R h
  have Ri := R.inner.1
  have R' := twin_reachable L.toLibrary R
  have H0 := t.positive.h
  rw [eh] at H0
  have uH := mul_pos hu0 H0
  rw [i1, twin_updated]
  obtain ⟨m1, m2⟩ := C192_max_partial (L := L) R' s
  rw [et] at m1 m2
  rw [i2] at m1
  refine ⟨fun p p0 p1 => ?_, ?_, m2⟩
  · have a := (C191_position_partial (L := L.toCurveLibrary) R' s p0 p1).2.2.2
    have b := t.tension_near Ri R' p0 p1
    rw [eh] at b
    rw [i2, et] at a
    refine (abs_sub_le _ ((Inclined.twin L.toLibrary k).tension p) _).trans ?_
    show _ + |_ - k.refresh.catenary2d.tension p| ≤ _
    linarith
  · have b := t.max_near Ri R'
    rw [eh] at b
    refine (abs_sub_le _ (Inclined.twin L.toLibrary k).tensionMax _).trans ?_
    show _ + |_ - k.refresh.catenary2d.tensionMax| ≤ _
    linarith

/-- **C193** (average tension): the computed average over points of a span in space is within 2^-37 of the horizontal
tension, and 2^-50 of it for each point, of the exact one; the computed average of the whole cable within 2^-37 of the
horizontal tension times the ratio of H/w and the span, unless the span is shorter than 2^-39 times H/w. -/
theorem C193_average_partial {L : TangentLibrary} (hL : L.toLibrary.SquaresRounded) (R : k.Reachable) (h : BlownSpan k) :
    (∀ n : ℤ, 0 < n → n < 2 ^ 31 - 1 →
      |Curve.tensionAverage L (Double.Span.updated L.toCurveLibrary k) n - k.tensionAverage n| ≤
        (2 ^ (-37 : ℤ) + 2 ^ (-50 : ℤ) * n) * k.tensionHorizontal) ∧
    (2 ^ (-39 : ℤ) * (k.tensionHorizontal / k.weightUnit.magnitude) ≤ k.spacing.x →
      |Curve.tensionAverage L (Double.Span.updated L.toCurveLibrary k) 0 - k.tensionAverage| ≤
        2 ^ (-37 : ℤ) * (k.tensionHorizontal * (k.tensionHorizontal / k.weightUnit.magnitude) / k.spacing.x)) := by
  have hu0 := u_pos
  have i0 : (2 : ℝ) ^ (-50 : ℤ) = 8 * u := by unfold u; norm_num
  have i1 : (2 : ℝ) ^ (-37 : ℤ) = 65536 * u := by unfold u; norm_num
  have i2 : (2 : ℝ) ^ (-40 : ℤ) = 8192 * u := by unfold u; norm_num
  have i3 : (2 : ℝ) ^ (-39 : ℤ) = 16384 * u := by unfold u; norm_num
  obtain ⟨t, s, ec, cup, eh, et⟩ := Inclined.BlownSpan.twin hL R h
  have Ri := R.inner.1
  have R' := twin_reachable L.toLibrary R
  have c0 := t.positive.c
  rw [ec] at c0
  have H0 := t.positive.h
  rw [eh] at H0
  have uH := mul_pos hu0 H0
  have cu := mul_le_mul_of_nonneg_left cup hu0.le
  have uc := mul_pos hu0 c0
  rw [i1, i0, i3, twin_updated]
  refine ⟨fun n n0 n1 => ?_, fun taut => ?_⟩
  · have a := C192_points_partial (L := L) R' s n0 n1
    have b := t.points_near Ri R' n0
    rw [eh] at b
    rw [i2, i0, et] at a
    refine (abs_sub_le _ ((Inclined.twin L.toLibrary k).tensionAverage n) _).trans ?_
    show _ + |_ - k.refresh.catenary2d.tensionAverage n| ≤ _
    linarith
  · obtain ⟨x1, x3, -, -⟩ := planar_spacing h.toOrdinarySpan h.flat
    have x2 := (relative_bounds t.positive.a t.span (by norm_num)).1
    rw [R.inner.2.1] at x2
    have x0 : 0 < k.spacing.x := (two_zpow_pos _).trans_le h.span
    have a := C192_average_partial (L := L) R' s (by rw [i2]; linarith)
    have b := t.average_near Ri R'
    rw [eh] at b
    rw [i2, et] at a
    have q1 : k.tensionHorizontal ≤
        2 * (k.tensionHorizontal * (k.tensionHorizontal / k.weightUnit.magnitude) / k.spacing.x) := by
      rw [← mul_div_assoc, le_div_iff₀ x0]
      have := h.short
      have := mul_le_mul_of_nonneg_left (by linarith : k.spacing.x ≤ 2 * (k.tensionHorizontal / k.weightUnit.magnitude)) H0.le
      linarith
    have q2 : k.tensionHorizontal * ((Inclined.twin L.toLibrary k).tensionHorizontal /
          (Inclined.twin L.toLibrary k).weightUnit) / (Inclined.twin L.toLibrary k).spacing.x ≤
        1.02 * (k.tensionHorizontal * (k.tensionHorizontal / k.weightUnit.magnitude) / k.spacing.x) := by
      have a0' := t.positive'.a
      rw [← mul_div_assoc (1.02 : ℝ), div_le_div_iff₀ a0' x0]
      have l1 := mul_le_mul_of_nonneg_left cup H0.le
      have l2 : 0.999999 * k.spacing.x ≤ (Inclined.twin L.toLibrary k).spacing.x := by linarith
      have l3 : 0 < k.tensionHorizontal * (k.tensionHorizontal / k.weightUnit.magnitude) := mul_pos H0 c0
      calc _ ≤ (k.tensionHorizontal * (1.01 * (k.tensionHorizontal / k.weightUnit.magnitude))) * k.spacing.x :=
            mul_le_mul_of_nonneg_right l1 x0.le
        _ ≤ (1.02 * (k.tensionHorizontal * (k.tensionHorizontal / k.weightUnit.magnitude))) * (0.999999 * k.spacing.x) := by
            have := mul_pos l3 x0
            linarith
        _ ≤ _ := mul_le_mul_of_nonneg_left l2 (by linarith)
    rw [et] at q2
    refine (abs_sub_le _ (Inclined.twin L.toLibrary k).tensionAverage _).trans ?_
    show _ + |_ - k.refresh.catenary2d.tensionAverage| ≤ _
    have r1 := mul_le_mul_of_nonneg_left q1 hu0.le
    have r2 := mul_le_mul_of_nonneg_left q2 hu0.le
    have Q0 : 0 < k.tensionHorizontal * (k.tensionHorizontal / k.weightUnit.magnitude) / k.spacing.x := by positivity
    have := mul_pos hu0 Q0
    linarith

/-- A span of 1000 with a rise of 100, blown by a wind that is three quarters of the weight. -/
noncomputable def windySpan : Catenary3d :=
  (((Catenary3d.new.setSpacing ⟨1000, 0, 100⟩).setTension 2000).setWeight ⟨0, 0.75, 1⟩)

theorem windySpan_reachable : windySpan.Reachable :=
  ⟨[.setSpacing ⟨1000, 0, 100⟩, .setTension 2000, .setWeight ⟨0, 0.75, 1⟩], rfl⟩

theorem windySpan_weight : windySpan.weightUnit.magnitude = 1.25 := by
  show √((0 : ℝ) ^ 2 + 0.75 ^ 2 + 1 ^ 2) = 1.25
  rw [show (0 : ℝ) ^ 2 + 0.75 ^ 2 + 1 ^ 2 = 1.25 ^ 2 by norm_num]
  exact Real.sqrt_sq (by norm_num)

theorem windySpan_blown : BlownSpan windySpan := by
  have d : ∀ n : ℕ, n ≤ 2 ^ 53 → IsDouble (n : ℝ) := fun n hn => isDouble_nat n hn
  have m : windySpan.spacing.magnitude ≤ 1010 := by
    show √((1000 : ℝ) ^ 2 + 0 ^ 2 + 100 ^ 2) ≤ 1010
    rw [Real.sqrt_le_left (by norm_num)]; norm_num
  have big : (2048 : ℝ) ≤ 2 ^ (99 : ℤ) := by
    calc (2048 : ℝ) = 2 ^ (11 : ℤ) := by norm_num
      _ ≤ _ := two_zpow_le (by norm_num)
  have small : (2 : ℝ) ^ (-99 : ℤ) ≤ 1 := by
    calc (2 : ℝ) ^ (-99 : ℤ) ≤ 2 ^ (0 : ℤ) := two_zpow_le (by norm_num)
      _ = 1 := by norm_num
  have small' : (2 : ℝ) ^ (-100 : ℤ) ≤ 1 := (two_zpow_le (by norm_num)).trans small
  have big' : (2 : ℝ) ^ (99 : ℤ) ≤ 2 ^ (100 : ℤ) := two_zpow_le (by norm_num)
  have d75 : IsDouble (0.75 : ℝ) := ⟨3, -2, by norm_num, by norm_num, by norm_num⟩
  have tiny : (2 : ℝ) ^ (-500 : ℤ) ≤ 2 ^ (-2 : ℤ) := two_zpow_le (by norm_num)
  have quarter : (2 : ℝ) ^ (-2 : ℤ) = 1 / 4 := by norm_num
  rw [quarter] at tiny
  refine ⟨⟨⟨rfl, ⟨?_, .inr ?_⟩, ⟨?_, .inr ?_⟩, ⟨isDouble_zero, .inl rfl⟩, ⟨d75, .inr ?_⟩, ⟨isDouble_one, .inr ?_⟩⟩, ?_, .inr ?_, ?_, ?_⟩,
    ⟨?_, ?_⟩, ⟨?_, ?_, ?_⟩, ?_, ?_⟩
  · exact_mod_cast d 1000 (by norm_num)
  · show _ ≤ |(1000 : ℝ)|; rw [abs_of_pos (by norm_num)]; linarith
  · exact_mod_cast d 100 (by norm_num)
  · show _ ≤ |(100 : ℝ)|; rw [abs_of_pos (by norm_num)]; linarith
  · show _ ≤ |(0.75 : ℝ)|; rw [abs_of_pos (by norm_num)]; linarith
  · show _ ≤ |(1 : ℝ)|; rw [abs_of_pos (by norm_num)]; linarith
  · show _ ≤ (1000 : ℝ); linarith
  · show _ ≤ |(100 : ℝ)|; rw [abs_of_pos (by norm_num)]; linarith
  · exact small'
  · rw [windySpan_weight]; linarith
  · show _ ≤ (1000 : ℝ); linarith
  · linarith
  · exact_mod_cast d 2000 (by norm_num)
  · show _ ≤ (2000 : ℝ); linarith
  · show (2000 : ℝ) ≤ _; linarith
  · rw [windySpan_weight]
    refine m.trans ?_
    show (1010 : ℝ) ≤ 1.999 * (2000 / 1.25)
    norm_num
  · show |(100 : ℝ)| ≤ 0.999 * 1000
    rw [abs_of_pos (by norm_num)]; norm_num

/-- Its sag and the largest tension, with correctly rounded functions. -/
example : |Curve.sag roundedCurveLibrary (Double.Span.updated roundedCurveLibrary windySpan) - windySpan.sag| ≤ 1e-7 ∧
    |Curve.tensionMax roundedTangentLibrary (Double.Span.updated roundedCurveLibrary windySpan) - windySpan.tensionMax| ≤
      1e-8 := by
  have e : windySpan.tensionHorizontal = 2000 := rfl
  have h1 := (C193_sag_partial (L := roundedCurveLibrary) roundedLibrary_rounded windySpan_reachable windySpan_blown).2 (by
    rw [windySpan_weight, e]
    show _ ≤ (1000 : ℝ)
    norm_num)
  have h2 := (C193_tension_partial (L := roundedTangentLibrary) roundedLibrary_rounded windySpan_reachable windySpan_blown).2.1
  rw [windySpan_weight, e] at h1
  rw [e] at h2
  exact ⟨h1.trans (by norm_num), h2.trans (by norm_num)⟩

/-- Its length and the average tension. -/
example : |(Double.Span.updated roundedCurveLibrary windySpan).length - windySpan.length| ≤ 1e-8 ∧
    |Curve.tensionAverage roundedTangentLibrary (Double.Span.updated roundedCurveLibrary windySpan) 0 -
      windySpan.tensionAverage| ≤ 1e-7 := by
  have e : windySpan.tensionHorizontal = 2000 := rfl
  have ex : windySpan.spacing.x = 1000 := rfl
  have h1 := (C193_length_partial (L := roundedCurveLibrary) roundedLibrary_rounded windySpan_reachable windySpan_blown).1
  have h2 := (C193_average_partial (L := roundedTangentLibrary) roundedLibrary_rounded windySpan_reachable windySpan_blown).2 (by
    rw [windySpan_weight, e, ex]
    norm_num)
  rw [windySpan_weight, e] at h1
  rw [windySpan_weight, e, ex] at h2
  exact ⟨h1.trans (by norm_num), h2.trans (by norm_num)⟩

end Verif.Props
