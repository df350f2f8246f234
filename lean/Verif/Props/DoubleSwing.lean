import Verif.DoubleSwing
import Verif.Props.DoubleSpan
import Verif.Props.DoubleAttachment

/-! # Coordinates, tangents and tensions of spans in space in `double` arithmetic (C194) -/

set_option linter.unusedSectionVars false

namespace Verif.Props

open Verif.Double Verif.Double.Curve Inclined

namespace Swing

open Traverse Real

/-- The angle of an exact rotation in radians; rotations by less than 0.00005 degrees are left out. -/
noncomputable def turnExact (r : ℝ) : ℝ := open Classical in if |r| < 0.00005 then 0 else r * π / 180

theorem norm_rot (z : ℂ) (t : ℝ) : ‖z * Complex.exp (t * Complex.I)‖ = ‖z‖ := by
  rw [norm_mul, Complex.norm_exp_ofReal_mul_I, mul_one]

theorem rot_near (z : ℂ) (s t : ℝ) : ‖z * Complex.exp (s * Complex.I) - z * Complex.exp (t * Complex.I)‖ ≤ |s - t| * ‖z‖ := by
  rw [← mul_sub, norm_mul, mul_comm]
  refine mul_le_mul_of_nonneg_right ?_ (norm_nonneg _)
  have e : Complex.exp (s * Complex.I) - Complex.exp (t * Complex.I) =
      Complex.exp (t * Complex.I) * (Complex.exp (Complex.I * ((s - t : ℝ) : ℂ)) - 1) := by
    rw [mul_sub, mul_one, ← Complex.exp_add]
    congr 2
    push_cast
    ring
  rw [e, norm_mul, Complex.norm_exp_ofReal_mul_I, one_mul]
  exact Real.norm_exp_I_mul_ofReal_sub_one_le

/-- The exact rotation, with the value of π the code uses. -/
theorem rotate_exact (v : V2) {r : ℝ} (hr : |r| ≤ 360) :
    ‖toC (v.rotate r) - toC v * Complex.exp (turnExact r * Complex.I)‖ ≤ 4e-14 * ‖toC v‖ := by
  have n0 := norm_nonneg (toC v)
  unfold V2.rotate turnExact
  split
  · simp only [Complex.ofReal_zero, zero_mul, Complex.exp_zero, mul_one, sub_self, norm_zero]
    positivity
  by_cases hv : v.x = 0 ∧ v.y = 0
  · have e : toC v = 0 := by
      apply Complex.ext
      · exact hv.1
      · exact hv.2
    have m : v.magnitude = 0 := by rw [← norm_toC, e, norm_zero]
    rw [e, m]
    simp only [zero_mul, sub_zero, norm_zero, mul_zero]
    refine le_of_eq (norm_eq_zero.mpr ?_)
    apply Complex.ext <;> rfl
  obtain ⟨a0, a1, φ, k, hk0, hk2, hφ, ex, ey⟩ := v.angle_spec hv
  have hv' : toC v = ‖toC v‖ * Complex.exp (φ * Complex.I) := by
    rw [norm_toC]
    apply Complex.ext
    · simp only [toC, Complex.re_ofReal_mul, Complex.exp_ofReal_mul_I_re]; exact ex
    · simp only [toC, Complex.im_ofReal_mul, Complex.exp_ofReal_mul_I_im]; exact ey
  have hm : v.magnitude = ‖toC v‖ := (norm_toC v).symm
  set m := ‖toC v‖ with hmdef
  have g1 : toC v * Complex.exp ((r * π / 180 : ℝ) * Complex.I) = m * Complex.exp ((φ + r * π / 180 : ℝ) * Complex.I) := by
    rw [hv', mul_assoc, ← Complex.exp_add]
    push_cast
    ring_nf
  have g2 : toC ⟨v.magnitude * Real.cos (toRadians (v.angle + r)), v.magnitude * Real.sin (toRadians (v.angle + r))⟩ =
      m * Complex.exp ((toRadians (v.angle + r) : ℝ) * Complex.I) := by
    rw [hm]
    apply Complex.ext
    · simp only [toC, Complex.re_ofReal_mul, Complex.exp_ofReal_mul_I_re]
    · simp only [toC, Complex.im_ofReal_mul, Complex.exp_ofReal_mul_I_im]
  dsimp only
  rw [g1, g2]
  refine (rot_near _ _ _).trans ?_
  rw [Complex.norm_real, Real.norm_eq_abs, abs_of_nonneg n0]
  refine mul_le_mul_of_nonneg_right ?_ n0
  have hpi1 := kPi_lt_pi
  have hpi2 := pi_sub_kPi
  have e1 : toRadians (v.angle + r) - (φ + r * π / 180) = -((k + r / 180) * (π - Units.kPi)) := by
    rw [hφ, Verif.toRadians_eq, Verif.toRadians_eq]; ring
  rw [e1, abs_neg, abs_mul, abs_of_pos (a := π - Units.kPi) (by linarith)]
  have hb : |k + r / 180| ≤ 4 := by
    rw [_root_.abs_le] at hr ⊢; constructor <;> linarith [hr.1, hr.2]
  calc _ ≤ 4 * 4e-15 := mul_le_mul hb hpi2.le (by linarith) (by norm_num)
    _ ≤ _ := by norm_num

/-- Rounded and exact rotations of vectors near each other by angles near each other. -/
theorem rotate_pair (L : SunLibrary) {v w : V2} (hx : IsDouble w.x) (hy : IsDouble w.y) {r s δ : ℝ} (hr : |r| ≤ 360)
    (hs : |s| ≤ 360) (hd : |turn s - turnExact r| ≤ δ) :
    ‖toC (Course.rotate L w s) - toC (v.rotate r)‖ ≤
      1.001 * ‖toC w - toC v‖ + (δ + 2e-13) * ‖toC v‖ + 2 ^ (-290 : ℤ) := by
  obtain ⟨-, -, a⟩ := rotate_abs L hx hy hs
  have b := rotate_exact v hr
  have c := rot_near (toC v) (turn s) (turnExact r)
  have d := mul_le_mul_of_nonneg_right hd (norm_nonneg (toC v))
  have e : ‖toC w * Complex.exp (turn s * Complex.I) - toC v * Complex.exp (turn s * Complex.I)‖ = ‖toC w - toC v‖ := by
    rw [← sub_mul, norm_rot]
  have f : ‖toC w‖ ≤ ‖toC w - toC v‖ + ‖toC v‖ := by
    have := norm_add_le (toC w - toC v) (toC v)
    rwa [sub_add_cancel] at this
  have i : toC (Course.rotate L w s) - toC (v.rotate r) =
      (toC (Course.rotate L w s) - toC w * Complex.exp (turn s * Complex.I)) +
      (toC w * Complex.exp (turn s * Complex.I) - toC v * Complex.exp (turn s * Complex.I)) +
      (toC v * Complex.exp (turn s * Complex.I) - toC v * Complex.exp (turnExact r * Complex.I)) +
      -(toC (v.rotate r) - toC v * Complex.exp (turnExact r * Complex.I)) := by ring
  have n1 := norm_nonneg (toC w - toC v)
  have n2 := norm_nonneg (toC v)
  rw [i]
  refine (norm_add_le _ _).trans ?_
  rw [norm_neg]
  have j := norm_add_le ((toC (Course.rotate L w s) - toC w * Complex.exp (turn s * Complex.I)) +
      (toC w * Complex.exp (turn s * Complex.I) - toC v * Complex.exp (turn s * Complex.I)))
      (toC v * Complex.exp (turn s * Complex.I) - toC v * Complex.exp (turnExact r * Complex.I))
  have k := norm_add_le (toC (Course.rotate L w s) - toC w * Complex.exp (turn s * Complex.I))
      (toC w * Complex.exp (turn s * Complex.I) - toC v * Complex.exp (turn s * Complex.I))
  rw [e] at k
  linarith

/-- An angle that is surely, or surely not, left out by rotations. -/
def Clear (r : ℝ) : Prop := |r| ≤ 0.00004 ∨ 0.00006 ≤ |r|

theorem turn_near {r s : ℝ} (h : |s - r| ≤ 1e-11) :
    |turn s - turnExact r| ≤ 8.8e-7 ∧ (Clear r → |turn s - turnExact r| ≤ 2e-13) := by
  have hu0 := u_pos
  have hu := u_small
  have lim : |rnd 0.00005 - 0.00005| ≤ 1e-15 := by
    have e := rnd_error_le 0.00005
    have ht := tiny_le_u.2
    generalize (2 : ℝ) ^ (-1075 : ℤ) = η at *
    rw [abs_of_pos (by norm_num : (0 : ℝ) < 0.00005)] at e
    linarith
  have hp1 := Real.pi_lt_d4
  have hp2 := Real.pi_gt_three
  have abs1 := abs_sub_abs_le_abs_sub s r
  have abs2 := abs_sub_abs_le_abs_sub r s
  rw [abs_sub_comm r s] at abs2
  have l := _root_.abs_le.mp lim
  have sc : ∀ x b : ℝ, |x| ≤ b → |x * π / 180| ≤ b * 0.01745345 := by
    intro x b hb
    have : |x * π / 180| = |x| * (π / 180) := by
      rw [mul_div_assoc, abs_mul, abs_of_pos (a := π / 180) (by positivity)]
    rw [this]
    have b0 := (abs_nonneg x).trans hb
    calc |x| * (π / 180) ≤ b * (π / 180) := mul_le_mul_of_nonneg_right hb (by positivity)
      _ ≤ _ := mul_le_mul_of_nonneg_left (by linarith) b0
  have both : |s * π / 180 - r * π / 180| ≤ 2e-13 := by
    rw [← sub_div, ← sub_mul]
    exact (sc _ _ h).trans (by norm_num)
  unfold turn turnExact Clear
  split <;> split
  · rw [sub_self, abs_zero]
    exact ⟨by norm_num, fun _ => by norm_num⟩
  · rename_i h1 h2
    refine ⟨?_, ?_⟩
    · rw [zero_sub, abs_neg]
      exact (sc r 0.00005001 (by linarith)).trans (by norm_num)
    · rintro (c | c) <;> exfalso <;> linarith
  · rename_i h1 h2
    refine ⟨?_, ?_⟩
    · rw [sub_zero]
      exact (sc s 0.00005001 (by linarith)).trans (by norm_num)
    · rintro (c | c) <;> exfalso <;> linarith
  · exact ⟨both.trans (by norm_num), fun _ => both⟩

theorem rotate3_eq (L : SunLibrary) (v : V3) {plane : Plane} {w : V2} (h : v.planar plane = some w) (r : ℝ) :
    rotate3 L v plane r = v.setPlanar (Course.rotate L w r) plane := by
  unfold rotate3
  split
  · rename_i hr
    unfold Course.rotate
    rw [if_pos hr]
    obtain ⟨x, y, z⟩ := v
    cases plane <;> simp only [V3.planar, Option.some.injEq, reduceCtorEq] at h <;> subst h <;> rfl
  · rw [h]

theorem rotate3_exact (v : V3) {plane : Plane} {w : V2} (h : v.planar plane = some w) (r : ℝ) :
    v.rotate plane r = v.setPlanar (w.rotate r) plane := by
  unfold V3.rotate
  split
  · rename_i hr
    unfold V2.rotate
    rw [if_pos hr]
    obtain ⟨x, y, z⟩ := v
    cases plane <;> simp only [V3.planar, Option.some.injEq, reduceCtorEq] at h <;> subst h <;> rfl
  · rw [h]

theorem degrees_le {x b : ℝ} (h : |x| ≤ b) : |Verif.toDegrees x| ≤ 57.3 * b := by
  have hk : 0 < 180 / Units.kPi ∧ 180 / Units.kPi ≤ 57.3 := by unfold Units.kPi; constructor <;> norm_num
  rw [Verif.toDegrees_eq, abs_mul, abs_of_pos hk.1, mul_comm]
  exact mul_le_mul hk.2 h (abs_nonneg _) (by norm_num)

theorem degrees_near (a b : ℝ) : |Verif.toDegrees (Real.arctan a) - Verif.toDegrees (Real.arctan b)| ≤ 57.3 * |a - b| := by
  have e : Verif.toDegrees (Real.arctan a) - Verif.toDegrees (Real.arctan b) =
      Verif.toDegrees (Real.arctan a - Real.arctan b) := by
    rw [Verif.toDegrees_eq, Verif.toDegrees_eq, Verif.toDegrees_eq]; ring
  rw [e]
  exact degrees_le (arctan_lipschitz a b)

theorem slope_le {v : V2} (hx : 0 < v.x) (hy : |v.y| ≤ v.x) : |v.y / v.x| ≤ 1 := by
  rw [abs_div, abs_of_pos hx, div_le_one hx]; exact hy

/-- Signed angles of flat vectors. -/
theorem flat_angle (L : Library) {v : V2} (hx : 0 < v.x) (hy : |v.y| ≤ v.x) :
    |Double.angle L v true - v.angle true| ≤ 1e-12 ∧ |v.angle true| ≤ 46 := by
  have slope := slope_le hx hy
  have hv : ¬ (v.x = 0 ∧ v.y = 0) := fun e => hx.ne' e.1
  obtain ⟨-, i, hi, ha⟩ := C178_accuracy L v hv
  obtain ⟨-, r1, r2⟩ := C178_range_partial L v hv
  have ex := V2.angle_true_of_pos v hx
  have at1 := degrees_le (Span.arctan_abs slope)
  have hx90 : |v.angle true| ≤ 46 := by rw [ex]; exact at1.trans (by norm_num)
  have hi0 : i = 0 := by
    rw [_root_.abs_le] at hi ha hx90
    have c1 : i < 1 := by
      by_contra hn
      have : (1 : ℝ) ≤ i := by exact_mod_cast not_lt.mp hn
      linarith
    have c2 : -1 < i := by
      by_contra hn
      have : (i : ℝ) ≤ -1 := by exact_mod_cast not_lt.mp hn
      linarith
    omega
  rw [hi0, Int.cast_zero, mul_zero, sub_zero] at ha
  exact ⟨ha, hx90⟩

theorem small_turn {A B r : ℝ} (h : |A - B - r| ≤ 5e-12) (hr : |r| ≤ 100) : |rnd (A - B) - r| ≤ 1e-11 ∧ |rnd (A - B)| ≤ 101 := by
  have hu0 := u_pos
  have hu := u_small
  have e := rnd_error_le (A - B)
  have ht := tiny_le_u.2
  generalize (2 : ℝ) ^ (-1075 : ℤ) = η at *
  have a : |A - B| ≤ 101 := by
    have := abs_sub_abs_le_abs_sub (A - B) r
    linarith
  have b := mul_le_mul_of_nonneg_left a hu0.le
  have c := abs_sub_le (rnd (A - B)) (A - B) r
  have d := abs_sub_abs_le_abs_sub (rnd (A - B)) r
  have f : |rnd (A - B) - r| ≤ 1e-11 := by linarith
  exact ⟨f, by linarith⟩

variable {L : TangentLibrary} {k : Catenary3d}

theorem updated_spacing (L : TangentLibrary) (k : Catenary3d) :
    (Double.Span.updated L.toCurveLibrary k).spacing = (twin L.toLibrary k).spacing := by
  rw [twin_updated]; rfl

/-- The angle between the chords, computed and exact, by unsigned and by signed angles. -/
theorem inclination_near (hL : L.toLibrary.SquaresRounded) (R : k.Reachable) (h : BlownSpan k) :
    (|Double.Span.inclination L k - (k.spacing.angle .xz - k.spacing2d.angle)| ≤ 1e-11 ∧
      |Double.Span.inclination L k| ≤ 360 ∧ |k.spacing.angle .xz - k.spacing2d.angle| ≤ 360) ∧
    (|rnd (angle3 L.toLibrary k.spacing .xz true -
        Double.angle L.toLibrary (Double.Span.updated L.toCurveLibrary k).spacing true) -
        (k.spacing.angle .xz true - k.spacing2d.angle true)| ≤ 1e-11 ∧
      |rnd (angle3 L.toLibrary k.spacing .xz true -
        Double.angle L.toLibrary (Double.Span.updated L.toCurveLibrary k).spacing true)| ≤ 360 ∧
      |k.spacing.angle .xz true - k.spacing2d.angle true| ≤ 360) := by
  have hu := u_small
  obtain ⟨t, s, -, -, -, -⟩ := Inclined.BlownSpan.twin hL R h
  have x0 : 0 < k.spacing.x := (two_zpow_pos _).trans_le h.span
  have z0 : 0 < k.weightUnit.z := (two_zpow_pos _).trans_le h.load.1
  obtain ⟨p1, -, p3, -⟩ := planar_spacing h.toOrdinarySpan h.flat
  have x2 : 0 < k.spacing2d.x := by linarith
  have w0 : 0 < k.weightUnit.magnitude := by
    apply Real.sqrt_pos.2; positivity
  have b0 : 0 < |k.weightUnit.z| / k.weightUnit.magnitude := div_pos (abs_pos.2 z0.ne') w0
  have x3 := t.positive'.a
  have sl := t.slope_near.1
  rw [R.inner.2.1] at sl
  have sign2 : k.spacing2d.y < 0 ↔ k.spacing.z < 0 := by
    show k.spacing.z * _ < 0 ↔ _
    constructor
    · intro hh
      by_contra hn
      have := mul_nonneg (not_lt.1 hn) b0.le
      linarith
    · exact fun hh => mul_neg_of_neg_of_pos hh b0
  have sign3 : (twin L.toLibrary k).spacing.y < 0 ↔ k.spacing.z < 0 := by
    rw [← sign2]
    show Double.Span.rise L.toLibrary k < 0 ↔ _
    obtain ⟨c, e, c1, -⟩ := rise_close8 (L := L.toLibrary) h.toOrdinarySpan
    have c0 : 0 < c := (pow_pos one_sub_u_pos 8).trans_le c1
    rw [e]
    constructor
    · intro hh
      by_contra hn
      have := mul_nonneg (not_lt.1 hn) c0.le
      linarith
    · intro hh
      have := mul_neg_of_neg_of_pos hh c0
      linarith
  have a1 := C178_accuracy L.toLibrary ⟨k.spacing.x, k.spacing.z⟩ (fun e => x0.ne' e.1)
  have a2 := C178_accuracy L.toLibrary (twin L.toLibrary k).spacing (fun e => x3.ne' e.1)
  have f1 := flat_angle L.toLibrary (v := ⟨k.spacing.x, k.spacing.z⟩) x0 (h.flat.trans (by linarith))
  have f2 := flat_angle L.toLibrary (v := (twin L.toLibrary k).spacing) x3 s.flat
  have f3 := flat_angle L.toLibrary (v := k.spacing2d) x2 (p3.trans (by linarith))
  have dn := degrees_near ((twin L.toLibrary k).spacing.y / (twin L.toLibrary k).spacing.x) (k.spacing2d.y / k.spacing2d.x)
  have e1 : k.spacing.angle .xz = (V2.mk k.spacing.x k.spacing.z).angle := rfl
  have e2 : k.spacing.angle .xz true = (V2.mk k.spacing.x k.spacing.z).angle true := rfl
  have e3 : angle3 L.toLibrary k.spacing .xz = Double.angle L.toLibrary ⟨k.spacing.x, k.spacing.z⟩ := rfl
  have e4 : angle3 L.toLibrary k.spacing .xz true = Double.angle L.toLibrary ⟨k.spacing.x, k.spacing.z⟩ true := rfl
  unfold Double.Span.inclination
  rw [updated_spacing, e1, e2, e3, e4]
  have g1 := V2.angle_of_pos ⟨k.spacing.x, k.spacing.z⟩ x0
  have g2 := V2.angle_of_pos k.spacing2d x2
  have g3 := V2.angle_of_pos (twin L.toLibrary k).spacing x3
  rw [← V2.angle_true_of_pos _ x3, ← V2.angle_true_of_pos _ x2] at dn
  rw [← V2.angle_true_of_pos _ x0] at g1
  rw [← V2.angle_true_of_pos _ x2] at g2
  rw [← V2.angle_true_of_pos _ x3] at g3
  simp only [sign2] at g2
  simp only [sign3] at g3
  have b1 := a1.1
  have b2 := a2.1
  rw [g1] at b1
  rw [g3] at b2
  rw [g1, g2]
  generalize (if k.spacing.z < 0 then (360 : ℝ) else 0) = c at *
  generalize V2.angle ⟨k.spacing.x, k.spacing.z⟩ true = A at *
  generalize k.spacing2d.angle true = B at *
  generalize (twin L.toLibrary k).spacing.angle true = D at *
  generalize Double.angle L.toLibrary ⟨k.spacing.x, k.spacing.z⟩ = A' at *
  generalize Double.angle L.toLibrary (twin L.toLibrary k).spacing = D' at *
  generalize Double.angle L.toLibrary ⟨k.spacing.x, k.spacing.z⟩ true = A'' at *
  generalize Double.angle L.toLibrary (twin L.toLibrary k).spacing true = D'' at *
  have dn' : |D - B| ≤ 2.2e-12 := dn.trans (by nlinarith)
  have k1 := f1.1
  have k2 := f2.1
  have k3 := _root_.abs_le.mp f1.2
  have k4 := _root_.abs_le.mp f3.2
  rw [_root_.abs_le] at dn' b1 b2 k1 k2
  have r1 : |A - B| ≤ 100 := by rw [_root_.abs_le]; constructor <;> linarith
  have r2 : A + c - (B + c) = A - B := by ring
  rw [r2]
  have m1 := small_turn (A := A') (B := D') (r := A - B) (by rw [_root_.abs_le]; constructor <;> linarith) r1
  have m2 := small_turn (A := A'') (B := D'') (r := A - B) (by rw [_root_.abs_le]; constructor <;> linarith) r1
  exact ⟨⟨m1.1, m1.2.trans (by norm_num), r1.trans (by norm_num)⟩, m2.1, m2.2.trans (by norm_num), r1.trans (by norm_num)⟩

/-- The point of the chord, shifted to the left end. -/
theorem chord_computed {L : CurveLibrary} {k : Catenary2d} (h : Inclined.Span k) {p : ℝ} (p0 : 0 ≤ p) (p1 : p ≤ 1) :
    Near (k.tensionHorizontal / k.weightUnit) 953
      (Curve.shifted (Curve.update L k) (Curve.coordinateChord L (Curve.update L k) p)).x
      (k.update.coordinateX p - k.update.left.x) ∧
    Near (k.tensionHorizontal / k.weightUnit) 1550
      (Curve.shifted (Curve.update L k) (Curve.coordinateChord L (Curve.update L k) p)).y
      ((k.update.coordinateX p - k.update.left.x) * (k.spacing.y / k.spacing.x)) ∧
    Near (k.tensionHorizontal / k.weightUnit) 3929
      (Curve.shifted (Curve.update L k) (Curve.coordinate L (Curve.update L k) p)).y
      (k.coordinateY (k.update.coordinateX p) - k.coordinateY k.update.left.x) := by
  have hC0 := (two_zpow_pos _).trans_le h.constant_ge
  have hu := u_pos
  have hx := h.positive.a
  obtain ⟨n, hb⟩ := h.position (L := L) p0 p1
  obtain ⟨l, -⟩ := h.ends (L := L)
  obtain ⟨la, -⟩ := h.ends_abs
  obtain ⟨y1, y2⟩ := h.height (L := L) l la (by norm_num) (by norm_num)
  obtain ⟨y3, y4⟩ := h.height (L := L) n hb (by norm_num) (by norm_num)
  have slope : |k.spacing.y / k.spacing.x| ≤ 1 := by
    rw [abs_div, abs_of_pos hx, div_le_one hx]; exact h.flat
  have slope' : |rnd (k.spacing.y / k.spacing.x)| ≤ 1 := rnd_abs_le isDouble_one slope
  have s1 : Near 1 2 (rnd (k.spacing.y / k.spacing.x)) (k.spacing.y / k.spacing.x) := by
    have z : Near 1 0 (k.spacing.y / k.spacing.x) (k.spacing.y / k.spacing.x) := by unfold Near; simp
    exact (z.rnd one_ok (r := 1) (by linarith) le_rfl (by norm_num)).mono one_pos (by norm_num)
  have d0 : |k.update.coordinateX p - k.update.left.x| ≤ 4 * (k.tensionHorizontal / k.weightUnit) :=
    (abs_sub _ _).trans (by linarith)
  have d := (n.sub l).rnd h.constant_ge d0 (by norm_num) (by norm_num)
  have e : Near (k.tensionHorizontal / k.weightUnit) 961
      (rnd (Curve.coordinateX L (Curve.update L k) p - (Curve.update L k).left.x) * rnd (k.spacing.y / k.spacing.x))
      ((k.update.coordinateX p - k.update.left.x) * (k.spacing.y / k.spacing.x)) := by
    unfold Near at *
    generalize rnd (Curve.coordinateX L (Curve.update L k) p - (Curve.update L k).left.x) = A at *
    generalize k.update.coordinateX p - k.update.left.x = B at *
    generalize rnd (k.spacing.y / k.spacing.x) = S at *
    generalize k.spacing.y / k.spacing.x = T at *
    have i : A * S - B * T = (A - B) * S + B * (S - T) := by ring
    have i1 : |(A - B) * S| ≤ ((893 + 55 + 4 + 1) * u * (k.tensionHorizontal / k.weightUnit)) * 1 := by
      rw [abs_mul]; exact mul_le_mul d slope' (abs_nonneg _) ((abs_nonneg _).trans d)
    have i2 : |B * (S - T)| ≤ (4 * (k.tensionHorizontal / k.weightUnit)) * (2 * u * 1) := by
      rw [abs_mul]; exact mul_le_mul d0 s1 (abs_nonneg _) ((abs_nonneg _).trans d0)
    have := abs_add_le ((A - B) * S) (B * (S - T))
    rw [i]
    nlinarith
  have e0 : |(k.update.coordinateX p - k.update.left.x) * (k.spacing.y / k.spacing.x)| ≤
      4 * (k.tensionHorizontal / k.weightUnit) := by
    rw [abs_mul]
    calc _ ≤ (4 * (k.tensionHorizontal / k.weightUnit)) * 1 := mul_le_mul d0 slope (abs_nonneg _) (by positivity)
      _ = _ := mul_one _
  have f := y1.add (e.rnd h.constant_ge e0 (by norm_num) (by norm_num))
  have f0 : |k.coordinateY k.update.left.x + (k.update.coordinateX p - k.update.left.x) * (k.spacing.y / k.spacing.x)| ≤
      7 * (k.tensionHorizontal / k.weightUnit) := (abs_add_le _ _).trans (by linarith)
  have g := (f.rnd h.constant_ge f0 (by norm_num) (by norm_num)).sub y1
  rw [add_sub_cancel_left] at g
  have c0 : |k.coordinateY (k.update.coordinateX p) - k.coordinateY k.update.left.x| ≤
      6 * (k.tensionHorizontal / k.weightUnit) := (abs_sub _ _).trans (by linarith)
  refine ⟨d.mono hC0 (by norm_num), ?_, ?_⟩
  · exact (g.rnd h.constant_ge e0 (by norm_num) (by norm_num)).mono hC0 (by norm_num)
  · exact ((y3.sub y1).rnd h.constant_ge c0 (by norm_num) (by norm_num)).mono hC0 (by norm_num)

/-- The same for a catenary with parameters changed a little. -/
theorem chord_twin {k k' : Catenary2d} (t : Twin k k') {p : ℝ} (p0 : 0 ≤ p) (p1 : p ≤ 1) :
    |(k'.update.coordinateX p - k'.update.left.x) - (k.update.coordinateX p - k.update.left.x)| ≤
      13294 * u * (k.tensionHorizontal / k.weightUnit) ∧
    |(k'.update.coordinateX p - k'.update.left.x) * (k'.spacing.y / k'.spacing.x) -
      (k.update.coordinateX p - k.update.left.x) * (k.spacing.y / k.spacing.x)| ≤
      14579 * u * (k.tensionHorizontal / k.weightUnit) ∧
    |(k'.coordinateY (k'.update.coordinateX p) - k'.coordinateY k'.update.left.x) -
      (k.coordinateY (k.update.coordinateX p) - k.coordinateY k.update.left.x)| ≤
      52960 * u * (k.tensionHorizontal / k.weightUnit) := by
  have hu0 := u_pos
  have hu := u_small
  have c0 := t.positive.c
  have y := t.height_near p0 p1
  have y0 := t.height_near le_rfl zero_le_one
  obtain ⟨x, xa⟩ := t.position_near p0 p1
  obtain ⟨x0, xa0⟩ := t.position_near le_rfl zero_le_one
  obtain ⟨s, sa⟩ := t.slope_near
  rw [← Catenary2d.coordinateX_zero t.positive, ← Catenary2d.coordinateX_zero t.positive']
  generalize k'.coordinateY (k'.update.coordinateX p) = Y' at *
  generalize k.coordinateY (k.update.coordinateX p) = Y at *
  generalize k'.coordinateY (k'.update.coordinateX 0) = Z' at *
  generalize k.coordinateY (k.update.coordinateX 0) = Z at *
  generalize k'.update.coordinateX p = X' at *
  generalize k.update.coordinateX p = X at *
  generalize k'.update.coordinateX 0 = W' at *
  generalize k.update.coordinateX 0 = W at *
  generalize k'.spacing.y / k'.spacing.x = S' at *
  generalize k.spacing.y / k.spacing.x = S at *
  generalize k.tensionHorizontal / k.weightUnit = C at *
  have d : |(X' - W') - (X - W)| ≤ 13294 * u * C := by
    rw [sub_sub_sub_comm]; exact (abs_sub _ _).trans (by linarith)
  have da : |X - W| ≤ 4 * C := (abs_sub _ _).trans (by linarith)
  generalize X' - W' = D' at *
  generalize X - W = D at *
  refine ⟨d, ?_, ?_⟩
  · have i : D' * S' - D * S = (D' - D) * S + D * (S' - S) + (D' - D) * (S' - S) := by ring
    have i1 : |(D' - D) * S| ≤ 13294 * u * C * 1 := by
      rw [abs_mul]; exact mul_le_mul d sa (abs_nonneg _) (by positivity)
    have i2 : |D * (S' - S)| ≤ 4 * C * (321 * u) := by
      rw [abs_mul]; exact mul_le_mul da s (abs_nonneg _) (by positivity)
    have i3 : |(D' - D) * (S' - S)| ≤ 13294 * u * C * (321 * u) := by
      rw [abs_mul]; exact mul_le_mul d s (abs_nonneg _) (by positivity)
    have uC := mul_pos hu0 c0
    have i4 : 13294 * u * C * (321 * u) ≤ u * C := by
      have : 13294 * 321 * u ≤ 1 := by linarith
      nlinarith
    have t1 := abs_add_three ((D' - D) * S) (D * (S' - S)) ((D' - D) * (S' - S))
    rw [i]
    linarith
  · rw [sub_sub_sub_comm]; exact (abs_sub _ _).trans (by linarith)

/-- Sizes of the exact vectors. -/
theorem chord_size {k : Catenary2d} (P : k.Positive) (short : k.spacing.x ≤ 2 * (k.tensionHorizontal / k.weightUnit))
    (flat : |k.spacing.y| ≤ k.spacing.x) {p : ℝ} (p0 : 0 ≤ p) (p1 : p ≤ 1) :
    ‖toC ⟨k.update.coordinateX p - k.update.left.x,
      (k.update.coordinateX p - k.update.left.x) * (k.spacing.y / k.spacing.x)⟩‖ ≤ k.spacing.magnitude ∧
    |(k.coordinateY (k.update.coordinateX p) - k.coordinateY k.update.left.x) -
      (k.update.coordinateX p - k.update.left.x) * (k.spacing.y / k.spacing.x)| ≤
      3 * (k.tensionHorizontal / k.weightUnit) := by
  have a0 := P.a
  have c0 := P.c
  obtain ⟨m1, m2⟩ := Catenary2d.coordinateX_mem P p0 p1
  have span : k.update.right.x - k.update.left.x = k.spacing.x := Catenary2d.span_eq P
  have rise := Catenary2d.rise_right P
  set D := k.update.coordinateX p - k.update.left.x with hD
  have d0 : 0 ≤ D := by linarith
  have d1 : D ≤ k.spacing.x := by linarith
  obtain ⟨τ, τ0, τ1, e⟩ : ∃ τ : ℝ, 0 ≤ τ ∧ τ ≤ 1 ∧ D = τ * k.spacing.x :=
    ⟨D / k.spacing.x, by positivity, by rw [div_le_one a0]; exact d1, by field_simp⟩
  have e2 : D * (k.spacing.y / k.spacing.x) = τ * k.spacing.y := by
    rw [e]; field_simp
  refine ⟨?_, ?_⟩
  · have : toC ⟨D, D * (k.spacing.y / k.spacing.x)⟩ = (τ : ℂ) * toC k.spacing := by
      rw [e2, e]
      apply Complex.ext
      · simp only [toC, Complex.re_ofReal_mul]
      · simp only [toC, Complex.im_ofReal_mul]
    rw [this, norm_mul, Complex.norm_real, Real.norm_eq_abs, abs_of_nonneg τ0, norm_toC]
    have : 0 ≤ k.spacing.magnitude := Real.sqrt_nonneg _
    nlinarith
  · have hz : k.z ≤ 1 ∧ 0 < k.z := by
      unfold Catenary2d.z
      refine ⟨?_, div_pos (by linarith) c0⟩
      rw [div_le_one c0]; linarith
    have q : ∀ x, k.update.left.x ≤ x → x ≤ k.update.right.x → 0 ≤ k.coordinateY x ∧
        k.coordinateY x ≤ 3 * (k.tensionHorizontal / k.weightUnit) := by
      intro x h1 h2
      have hm : |k.mid| ≤ 1 := by
        unfold Catenary2d.mid
        refine (abs_arsinh_le _).trans ?_
        have hs : k.z ≤ Real.sinh k.z := (Real.self_le_sinh_iff).mpr hz.2.le
        have s0 : 0 < Real.sinh k.z := hz.2.trans_le hs
        rw [abs_div, abs_mul, abs_mul, abs_of_pos a0, abs_of_pos s0, abs_of_pos hz.2, div_le_one (mul_pos a0 s0)]
        exact mul_le_mul flat hs hz.2.le a0.le
      have b1 : -2 ≤ x / (k.tensionHorizontal / k.weightUnit) := by
        have := div_le_div_of_nonneg_right h1 c0.le
        rw [Catenary2d.left_div P] at this
        have := _root_.abs_le.mp hm
        linarith
      have b2 : x / (k.tensionHorizontal / k.weightUnit) ≤ 2 := by
        have := div_le_div_of_nonneg_right h2 c0.le
        rw [Catenary2d.right_div P] at this
        have := _root_.abs_le.mp hm
        linarith
      have b3 := cosh_le_four (x := x / (k.tensionHorizontal / k.weightUnit)) (by rw [_root_.abs_le]; constructor <;> linarith)
      have b4 := Real.one_le_cosh (x / (k.tensionHorizontal / k.weightUnit))
      unfold Catenary2d.coordinateY
      constructor
      · exact mul_nonneg c0.le (by linarith)
      · rw [mul_comm]; exact mul_le_mul_of_nonneg_right (by linarith) c0.le
    obtain ⟨u1, u2⟩ := q _ le_rfl (m1.trans m2)
    obtain ⟨v1, v2⟩ := q _ m1 m2
    obtain ⟨w1, w2⟩ := q _ (m1.trans m2) le_rfl
    have hr : k.spacing.y = k.coordinateY k.update.right.x - k.coordinateY k.update.left.x := rise.symm
    rw [e2, hr]
    generalize k.coordinateY k.update.right.x = B at *
    generalize k.coordinateY k.update.left.x = A at *
    generalize k.coordinateY (k.update.coordinateX p) = Y at *
    have i : Y - A - τ * (B - A) = Y - ((1 - τ) * A + τ * B) := by ring
    have j1 : 0 ≤ (1 - τ) * A + τ * B := add_nonneg (mul_nonneg (by linarith) u1) (mul_nonneg τ0 w1)
    have j2 : (1 - τ) * A + τ * B ≤ 3 * (k.tensionHorizontal / k.weightUnit) := by
      have := mul_le_mul_of_nonneg_left u2 (by linarith : 0 ≤ 1 - τ)
      have := mul_le_mul_of_nonneg_left w2 τ0
      linarith
    rw [i, _root_.abs_le]
    constructor <;> linarith

theorem exact_points {k : Catenary2d} (R : k.Reachable) (p : ℝ) :
    k.coordinateChord p true = ⟨k.update.coordinateX p - k.update.left.x,
      (k.update.coordinateX p - k.update.left.x) * (k.spacing.y / k.spacing.x)⟩ ∧
    k.coordinate p true = ⟨k.update.coordinateX p - k.update.left.x,
      k.coordinateY (k.update.coordinateX p) - k.coordinateY k.update.left.x⟩ := by
  unfold Catenary2d.coordinateChord Catenary2d.coordinate
  rw [R.refresh_eq]
  refine ⟨?_, rfl⟩
  simp only [Catenary2d.coordinateChordBody, Catenary2d.coordinateBody, if_true, Bool.false_eq_true, if_false,
    add_sub_cancel_left]
  rfl

theorem planar_magnitude (h : BlownSpan k) : k.spacing2d.magnitude = k.spacing.magnitude := by
  have z0 : 0 < k.weightUnit.z := (two_zpow_pos _).trans_le h.load.1
  have w0 : 0 < k.weightUnit.magnitude := by
    apply Real.sqrt_pos.2; positivity
  have b0 : 0 ≤ |k.weightUnit.z| / k.weightUnit.magnitude := by positivity
  have b1 : |k.weightUnit.z| / k.weightUnit.magnitude ≤ 1 := by
    rw [div_le_one w0]
    apply Real.le_sqrt_of_sq_le
    rw [sq_abs]
    nlinarith [sq_nonneg k.weightUnit.x, sq_nonneg k.weightUnit.y]
  have r : 0 ≤ k.spacing.magnitude ^ 2 - (k.spacing.z * (|k.weightUnit.z| / k.weightUnit.magnitude)) ^ 2 := by
    rw [V3.magnitude_sq, mul_pow]
    have : (|k.weightUnit.z| / k.weightUnit.magnitude) ^ 2 ≤ 1 := by nlinarith
    nlinarith [sq_nonneg k.spacing.z, sq_nonneg k.spacing.x, sq_nonneg k.spacing.y]
  unfold Catenary3d.spacing2d V2.magnitude
  simp only
  rw [Real.sq_sqrt r, sub_add_cancel, Real.sqrt_sq (V3.magnitude_nonneg _)]

/-- The vectors that are rotated. -/
theorem vectors_near (hL : L.toLibrary.SquaresRounded) (R : k.Reachable) (h : BlownSpan k) {p : ℝ} (p0 : 0 ≤ p) (p1 : p ≤ 1) :
    ‖toC (Curve.shifted (Double.Span.updated L.toCurveLibrary k)
        (Curve.coordinateChord L.toCurveLibrary (Double.Span.updated L.toCurveLibrary k) p)) -
      toC (k.refresh.catenary2d.coordinateChord p true)‖ ≤
      30600 * u * (k.tensionHorizontal / k.weightUnit.magnitude) ∧
    ‖toC (k.refresh.catenary2d.coordinateChord p true)‖ ≤ 2 * (k.tensionHorizontal / k.weightUnit.magnitude) ∧
    |rnd ((Curve.shifted (Double.Span.updated L.toCurveLibrary k)
        (Curve.coordinate L.toCurveLibrary (Double.Span.updated L.toCurveLibrary k) p)).y -
      (Curve.shifted (Double.Span.updated L.toCurveLibrary k)
        (Curve.coordinateChord L.toCurveLibrary (Double.Span.updated L.toCurveLibrary k) p)).y) -
      ((k.refresh.catenary2d.coordinate p true).y - (k.refresh.catenary2d.coordinateChord p true).y)| ≤
      73300 * u * (k.tensionHorizontal / k.weightUnit.magnitude) ∧
    |(k.refresh.catenary2d.coordinate p true).y - (k.refresh.catenary2d.coordinateChord p true).y| ≤
      3 * (k.tensionHorizontal / k.weightUnit.magnitude) ∧
    (2 : ℝ) ^ (-200 : ℤ) ≤ k.tensionHorizontal / k.weightUnit.magnitude := by
  have hu0 := u_pos
  have hu := u_small
  obtain ⟨t, s, ec, cup, -, -⟩ := Inclined.BlownSpan.twin hL R h
  have Ri := R.inner.1
  obtain ⟨a1, a2, a3⟩ := chord_computed (L := L.toCurveLibrary) s p0 p1
  obtain ⟨b1, b2, b3⟩ := chord_twin t p0 p1
  obtain ⟨c1, c2⟩ := chord_size t.positive t.short t.flat p0 p1
  obtain ⟨e1, e2⟩ := exact_points Ri p
  rw [twin_updated, e1, e2]
  dsimp only
  rw [ec] at b1 b2 b3 c2
  have cge : (2 : ℝ) ^ (-200 : ℤ) ≤ k.tensionHorizontal / k.weightUnit.magnitude := by
    have w0 : 0 < k.weightUnit.magnitude := by
      have z0 : 0 < k.weightUnit.z := (two_zpow_pos _).trans_le h.load.1
      apply Real.sqrt_pos.2; positivity
    have := zpow_div_le h.tension.2.1 w0 h.load.2
    exact (two_zpow_le (by norm_num)).trans this
  have size : k.refresh.catenary2d.spacing.magnitude ≤ 2 * (k.tensionHorizontal / k.weightUnit.magnitude) := by
    have q := planar_magnitude h
    rw [R.inner.2.1, q]
    have := h.short
    have := (two_zpow_pos (-200)).trans_le cge
    linarith
  unfold Near at a1 a2 a3
  generalize (Curve.shifted (Curve.update L.toCurveLibrary (twin L.toLibrary k))
    (Curve.coordinate L.toCurveLibrary (Curve.update L.toCurveLibrary (twin L.toLibrary k)) p)).y = cy at *
  generalize Curve.shifted (Curve.update L.toCurveLibrary (twin L.toLibrary k))
    (Curve.coordinateChord L.toCurveLibrary (Curve.update L.toCurveLibrary (twin L.toLibrary k)) p) = ch at *
  generalize (twin L.toLibrary k).coordinateY ((twin L.toLibrary k).update.coordinateX p) -
    (twin L.toLibrary k).coordinateY (twin L.toLibrary k).update.left.x = cy' at *
  generalize ((twin L.toLibrary k).update.coordinateX p - (twin L.toLibrary k).update.left.x) *
    ((twin L.toLibrary k).spacing.y / (twin L.toLibrary k).spacing.x) = ds' at *
  generalize (twin L.toLibrary k).update.coordinateX p - (twin L.toLibrary k).update.left.x = d' at *
  generalize (k.refresh.catenary2d.update.coordinateX p - k.refresh.catenary2d.update.left.x) *
    (k.refresh.catenary2d.spacing.y / k.refresh.catenary2d.spacing.x) = ds at *
  generalize k.refresh.catenary2d.update.coordinateX p - k.refresh.catenary2d.update.left.x = d at *
  generalize k.refresh.catenary2d.coordinateY (k.refresh.catenary2d.update.coordinateX p) -
    k.refresh.catenary2d.coordinateY k.refresh.catenary2d.update.left.x = Y at *
  generalize k.tensionHorizontal / k.weightUnit.magnitude = C at *
  generalize (twin L.toLibrary k).tensionHorizontal / (twin L.toLibrary k).weightUnit = C' at *
  have C0 : 0 < C := (two_zpow_pos _).trans_le cge
  have uC := mul_pos hu0 C0
  have uC' := mul_le_mul_of_nonneg_left cup hu0.le
  have n1 : |ch.x - d| ≤ 14260 * (u * C) := (abs_sub_le _ d' _).trans (by linarith)
  have n2 : |ch.y - ds| ≤ 16200 * (u * C) := (abs_sub_le _ ds' _).trans (by linarith)
  have n3 : |cy - Y| ≤ 56950 * (u * C) := (abs_sub_le _ cy' _).trans (by linarith)
  refine ⟨?_, c1.trans size, ?_, c2, cge⟩
  · refine (norm_le_add _).trans ?_
    show |ch.x - d| + |ch.y - ds| ≤ _
    linarith
  · have n4 : Near C 73150 (cy - ch.y) (Y - ds) := by
      unfold Near
      rw [sub_sub_sub_comm]
      refine (abs_sub _ _).trans ?_
      linarith
    have := n4.rnd cge (r := 3) c2 (by norm_num) (by norm_num)
    exact this.mono C0 (by norm_num)

/-- The chord in space. -/
theorem coordinateChord_near (hL : L.toLibrary.SquaresRounded) (R : k.Reachable) (h : BlownSpan k) {p : ℝ} (p0 : 0 ≤ p)
    (p1 : p ≤ 1) {δ : ℝ}
    (hd : |turn (Double.Span.inclination L k) - turnExact (k.spacing.angle .xz - k.spacing2d.angle)| ≤ δ) :
    |(Double.Span.coordinateChord L k p).x - (k.coordinateChord p).x| ≤
      (30700 * u + 2 * (δ + 2e-13)) * (k.tensionHorizontal / k.weightUnit.magnitude) ∧
    (Double.Span.coordinateChord L k p).y = 0 ∧ (k.coordinateChord p).y = 0 ∧
    |(Double.Span.coordinateChord L k p).z - (k.coordinateChord p).z| ≤
      (30700 * u + 2 * (δ + 2e-13)) * (k.tensionHorizontal / k.weightUnit.magnitude) := by
  have hu0 := u_pos
  have hu := u_small
  obtain ⟨v1, v2, -, -, cge⟩ := vectors_near hL R h p0 p1
  obtain ⟨⟨i1, i2, i3⟩, -⟩ := inclination_near hL R h
  obtain ⟨-, sp1, -, -⟩ := Catenary3d.refresh_params k
  unfold Double.Span.coordinateChord Catenary3d.coordinateChord Catenary3d.coordinateChordBody
  rw [sp1, R.inner.2.1]
  simp only [sub_zero]
  generalize hw : Curve.shifted (Double.Span.updated L.toCurveLibrary k)
    (Curve.coordinateChord L.toCurveLibrary (Double.Span.updated L.toCurveLibrary k) p) = w at *
  have w1 : IsDouble w.x := by rw [← hw]; exact rnd_isDouble _
  have w2 : IsDouble w.y := by rw [← hw]; exact rnd_isDouble _
  rw [rnd_of_isDouble w1, rnd_of_isDouble w2]
  generalize k.refresh.catenary2d.coordinateChord p true = v at *
  rw [rotate3_eq L.toSun _ (plane := .xz) (w := w) rfl, rotate3_exact _ (plane := .xz) (w := v) rfl]
  have a := rotate_pair L.toSun (v := v) w1 w2 i3 i2 hd
  have b1 := (Complex.abs_re_le_norm _).trans a
  have b2 := (Complex.abs_im_le_norm _).trans a
  have δ0 : 0 ≤ δ := (abs_nonneg _).trans hd
  generalize k.tensionHorizontal / k.weightUnit.magnitude = C at *
  have C0 : 0 < C := (two_zpow_pos _).trans_le cge
  have tiny : (2 : ℝ) ^ (-290 : ℤ) ≤ u * C := by
    calc (2 : ℝ) ^ (-290 : ℤ) ≤ 2 ^ (-253 : ℤ) := two_zpow_le (by norm_num)
      _ = 2 ^ (-53 : ℤ) * 2 ^ (-200 : ℤ) := by rw [← zpow_add₀ (by norm_num)]; norm_num
      _ ≤ _ := mul_le_mul_of_nonneg_left cge hu0.le
  have m := mul_le_mul_of_nonneg_left v2 (by linarith : 0 ≤ δ + 2e-13)
  have uC := mul_pos hu0 C0
  have bound : 1.001 * ‖toC w - toC v‖ + (δ + 2e-13) * ‖toC v‖ + 2 ^ (-290 : ℤ) ≤ (30700 * u + 2 * (δ + 2e-13)) * C := by
    linarith
  exact ⟨b1.trans bound, rfl, rfl, b2.trans bound⟩

/-- The angle of the load. -/
theorem load_near (L : Library) (h : BlownSpan k) {neg : Prop} [Decidable neg] :
    |(if neg then angle3 L k.weightUnit .zy * -1 else angle3 L k.weightUnit .zy) -
      (if neg then k.weightUnit.angle .zy * -1 else k.weightUnit.angle .zy)| ≤ 1e-11 ∧
    |(if neg then angle3 L k.weightUnit .zy * -1 else angle3 L k.weightUnit .zy)| ≤ 360 ∧
    |(if neg then k.weightUnit.angle .zy * -1 else k.weightUnit.angle .zy)| ≤ 360 := by
  have z0 : 0 < k.weightUnit.z := (two_zpow_pos _).trans_le h.load.1
  have hv : ¬ ((V2.mk k.weightUnit.z k.weightUnit.y).x = 0 ∧ (V2.mk k.weightUnit.z k.weightUnit.y).y = 0) :=
    fun e => z0.ne' e.1
  have a := (C178_accuracy L _ hv).1
  have b := (C178_range_partial L _ hv).1
  obtain ⟨c0, c1, -⟩ := V2.angle_spec _ hv
  have e1 : k.weightUnit.angle .zy = (V2.mk k.weightUnit.z k.weightUnit.y).angle := rfl
  have e2 : angle3 L k.weightUnit .zy = Double.angle L ⟨k.weightUnit.z, k.weightUnit.y⟩ := rfl
  rw [e1, e2]
  split
  · rw [mul_neg_one, mul_neg_one, neg_sub_neg, abs_sub_comm, abs_neg, abs_neg, abs_of_nonneg b.1, abs_of_nonneg c0]
    exact ⟨a.trans (by norm_num), b.2, c1.le⟩
  · rw [abs_of_nonneg b.1, abs_of_nonneg c0]
    exact ⟨a.trans (by norm_num), b.2, c1.le⟩

/-- Two rotations, in the plane of the span and across. -/
theorem twice_near (L : SunLibrary) {v w : V2} (w1 : IsDouble w.x) (w2 : IsDouble w.y) {r1 s1 r2 s2 δ E M : ℝ}
    (h1 : |r1| ≤ 360) (k1 : |s1| ≤ 360) (d1 : |turn s1 - turnExact r1| ≤ δ)
    (h2 : |r2| ≤ 360) (k2 : |s2| ≤ 360) (d2 : |turn s2 - turnExact r2| ≤ δ)
    (hE : ‖toC w - toC v‖ ≤ E) (hM : ‖toC v‖ ≤ M) :
    let W := rotate3 L (rotate3 L ⟨w.x, 0, w.y⟩ .xz s1) .yz s2
    let V := ((V3.mk v.x 0 v.y).rotate .xz r1).rotate .yz r2
    |W.x - V.x| ≤ 1.003 * E + 2.002 * (δ + 2e-13) * M + 3 * 2 ^ (-290 : ℤ) ∧
    |W.y - V.y| ≤ 1.003 * E + 2.002 * (δ + 2e-13) * M + 3 * 2 ^ (-290 : ℤ) ∧
    |W.z - V.z| ≤ 1.003 * E + 2.002 * (δ + 2e-13) * M + 3 * 2 ^ (-290 : ℤ) ∧
    |V.x| ≤ M ∧ |V.y| ≤ M ∧ |V.z| ≤ M ∧ IsDouble W.x ∧ IsDouble W.y ∧ IsDouble W.z := by
  intro W V
  have δ0 : 0 ≤ δ := (abs_nonneg _).trans d1
  have n0 := norm_nonneg (toC v)
  have E0 : 0 ≤ E := (norm_nonneg _).trans hE
  have a := rotate_pair L (v := v) w1 w2 h1 k1 d1
  obtain ⟨i1, i2, -⟩ := rotate_abs L w1 w2 k1
  have eW : W = ⟨(Course.rotate L w s1).x, (Course.rotate L ⟨0, (Course.rotate L w s1).y⟩ s2).x,
      (Course.rotate L ⟨0, (Course.rotate L w s1).y⟩ s2).y⟩ := by
    show rotate3 L (rotate3 L ⟨w.x, 0, w.y⟩ .xz s1) .yz s2 = _
    rw [rotate3_eq L ⟨w.x, 0, w.y⟩ (plane := .xz) (w := w) rfl]
    rw [rotate3_eq L _ (plane := .yz) (w := ⟨0, (Course.rotate L w s1).y⟩) rfl]
    rfl
  have eV : V = ⟨(v.rotate r1).x, (V2.rotate ⟨0, (v.rotate r1).y⟩ r2).x, (V2.rotate ⟨0, (v.rotate r1).y⟩ r2).y⟩ := by
    show ((V3.mk v.x 0 v.y).rotate .xz r1).rotate .yz r2 = _
    rw [rotate3_exact ⟨v.x, 0, v.y⟩ (plane := .xz) (w := v) rfl]
    rw [rotate3_exact _ (plane := .yz) (w := ⟨0, (v.rotate r1).y⟩) rfl]
    rfl
  have b := rotate_pair L (v := ⟨0, (v.rotate r1).y⟩) (w := ⟨0, (Course.rotate L w s1).y⟩) isDouble_zero i2 h2 k2 d2
  obtain ⟨j1, j2, -⟩ := rotate_abs L (v := ⟨0, (Course.rotate L w s1).y⟩) isDouble_zero i2 k2
  have mag : ‖toC (v.rotate r1)‖ = ‖toC v‖ := by rw [norm_toC, norm_toC, V2.rotate_magnitude]
  have m1 : ‖toC ⟨0, (v.rotate r1).y⟩‖ ≤ M := by
    have e : ‖toC ⟨0, (v.rotate r1).y⟩‖ ≤ |(0 : ℝ)| + |(v.rotate r1).y| := norm_le_add (toC ⟨0, (v.rotate r1).y⟩)
    rw [abs_zero, zero_add] at e
    have f : |(v.rotate r1).y| ≤ ‖toC (v.rotate r1)‖ := Complex.abs_im_le_norm (toC (v.rotate r1))
    exact e.trans ((f.trans_eq mag).trans hM)
  have m2 : ‖toC (V2.rotate ⟨0, (v.rotate r1).y⟩ r2)‖ ≤ M := by
    rw [norm_toC, V2.rotate_magnitude, ← norm_toC]; exact m1
  have diff : ‖toC ⟨0, (Course.rotate L w s1).y⟩ - toC ⟨0, (v.rotate r1).y⟩‖ ≤
      ‖toC (Course.rotate L w s1) - toC (v.rotate r1)‖ := by
    have e := norm_le_add (toC ⟨0, (Course.rotate L w s1).y⟩ - toC ⟨0, (v.rotate r1).y⟩)
    have e' : ‖toC ⟨0, (Course.rotate L w s1).y⟩ - toC ⟨0, (v.rotate r1).y⟩‖ ≤
        |(0 : ℝ) - 0| + |(Course.rotate L w s1).y - (v.rotate r1).y| := e
    rw [sub_self, abs_zero, zero_add] at e'
    exact e'.trans (Complex.abs_im_le_norm (toC (Course.rotate L w s1) - toC (v.rotate r1)))
  have dM := mul_le_mul_of_nonneg_left hM (by linarith : 0 ≤ δ + 2e-13)
  have dM1 := mul_le_mul_of_nonneg_left m1 (by linarith : 0 ≤ δ + 2e-13)
  have M0 : 0 ≤ (δ + 2e-13) * M := mul_nonneg (by linarith) (n0.trans hM)
  have q := two_zpow_pos (-290)
  have c1 := (Complex.abs_re_le_norm _).trans a
  have c2 := (Complex.abs_re_le_norm _).trans b
  have c3 := (Complex.abs_im_le_norm _).trans b
  rw [eW, eV]
  refine ⟨?_, ?_, ?_, ?_, ?_, ?_, i1, j1, j2⟩
  · refine c1.trans ?_
    linarith
  · refine c2.trans ?_
    linarith
  · refine c3.trans ?_
    linarith
  · have f : |(v.rotate r1).x| ≤ ‖toC (v.rotate r1)‖ := Complex.abs_re_le_norm (toC (v.rotate r1))
    exact (f.trans_eq mag).trans hM
  · exact (Complex.abs_re_le_norm (toC (V2.rotate ⟨0, (v.rotate r1).y⟩ r2))).trans m2
  · exact (Complex.abs_im_le_norm (toC (V2.rotate ⟨0, (v.rotate r1).y⟩ r2))).trans m2

/-- The points of the cable in space. -/
theorem coordinate_near (hL : L.toLibrary.SquaresRounded) (R : k.Reachable) (h : BlownSpan k) {p : ℝ} (p0 : 0 ≤ p)
    (p1 : p ≤ 1) {δ : ℝ} (small : δ ≤ 1e-6)
    (hd : ∀ r s, |s - r| ≤ 1e-11 → r = k.spacing.angle .xz - k.spacing2d.angle ∨
      (r = if k.direction = .negative then k.weightUnit.angle .zy * -1 else k.weightUnit.angle .zy) →
      |turn s - turnExact r| ≤ δ) :
    |(Double.Span.coordinate L k p).x - (k.coordinate p).x| ≤
      (110000 * u + 8.1 * (δ + 2e-13)) * (k.tensionHorizontal / k.weightUnit.magnitude) ∧
    |(Double.Span.coordinate L k p).y - (k.coordinate p).y| ≤
      (110000 * u + 8.1 * (δ + 2e-13)) * (k.tensionHorizontal / k.weightUnit.magnitude) ∧
    |(Double.Span.coordinate L k p).z - (k.coordinate p).z| ≤
      (110000 * u + 8.1 * (δ + 2e-13)) * (k.tensionHorizontal / k.weightUnit.magnitude) := by
  have hu0 := u_pos
  have hu := u_small
  obtain ⟨-, -, v3, v4, cge⟩ := vectors_near hL R h p0 p1
  obtain ⟨⟨i1, i2, i3⟩, -⟩ := inclination_near hL R h
  obtain ⟨l1, l2, l3⟩ := load_near L.toLibrary h (neg := k.direction = .negative)
  have d1 := hd _ _ i1 (.inl rfl)
  have d2 := hd _ _ l1 (.inr rfl)
  obtain ⟨c1, c2, c3, c4⟩ := coordinateChord_near hL R h p0 p1 d1
  obtain ⟨dir1, sp1, wt1, -⟩ := Catenary3d.refresh_params k
  have exact_eq : k.coordinate p =
      (let V := ((V3.mk 0 0 ((k.refresh.catenary2d.coordinate p true).y -
          (k.refresh.catenary2d.coordinateChord p true).y)).rotate .xz (k.spacing.angle .xz - k.spacing2d.angle)).rotate .yz
          (if k.direction = .negative then k.weightUnit.angle .zy * -1 else k.weightUnit.angle .zy);
        ⟨(k.coordinateChord p).x + V.x, (k.coordinateChord p).y + V.y, (k.coordinateChord p).z + V.z⟩) := by
    unfold Catenary3d.coordinate Catenary3d.coordinateBody Catenary3d.coordinateChord
    rw [dir1, sp1, wt1, R.inner.2.1]
    obtain ⟨e1, e2⟩ := exact_points R.inner.1 p
    rw [e1, e2]
    simp only [sub_self]
  have double_eq : Double.Span.coordinate L k p =
      (let W := rotate3 L.toSun (rotate3 L.toSun ⟨0, 0, rnd ((Curve.shifted (Double.Span.updated L.toCurveLibrary k)
        (Curve.coordinate L.toCurveLibrary (Double.Span.updated L.toCurveLibrary k) p)).y -
      (Curve.shifted (Double.Span.updated L.toCurveLibrary k)
        (Curve.coordinateChord L.toCurveLibrary (Double.Span.updated L.toCurveLibrary k) p)).y)⟩ .xz
          (Double.Span.inclination L k)) .yz
          (if k.direction = .negative then angle3 L.toLibrary k.weightUnit .zy * -1 else angle3 L.toLibrary k.weightUnit .zy);
        ⟨rnd ((Double.Span.coordinateChord L k p).x + W.x), rnd ((Double.Span.coordinateChord L k p).y + W.y),
          rnd ((Double.Span.coordinateChord L k p).z + W.z)⟩) := by
    unfold Double.Span.coordinate
    have : (Curve.shifted (Double.Span.updated L.toCurveLibrary k)
        (Curve.coordinate L.toCurveLibrary (Double.Span.updated L.toCurveLibrary k) p)).x -
      (Curve.shifted (Double.Span.updated L.toCurveLibrary k)
        (Curve.coordinateChord L.toCurveLibrary (Double.Span.updated L.toCurveLibrary k) p)).x = 0 := sub_self _
    simp only [this, rnd_zero]
  have size : |(k.coordinateChord p).x| ≤ 2 * (k.tensionHorizontal / k.weightUnit.magnitude) ∧
      |(k.coordinateChord p).z| ≤ 2 * (k.tensionHorizontal / k.weightUnit.magnitude) := by
    obtain ⟨-, v2, -⟩ := vectors_near hL R h p0 p1
    unfold Catenary3d.coordinateChord Catenary3d.coordinateChordBody
    simp only [sub_zero]
    generalize k.refresh.catenary2d.coordinateChord p true = v at *
    rw [rotate3_exact _ (plane := .xz) (w := v) rfl]
    have mag : ∀ r, ‖toC (v.rotate r)‖ = ‖toC v‖ := fun r => by rw [norm_toC, norm_toC, V2.rotate_magnitude]
    constructor
    · exact ((Complex.abs_re_le_norm (toC (v.rotate _))).trans_eq (mag _)).trans v2
    · exact ((Complex.abs_im_le_norm (toC (v.rotate _))).trans_eq (mag _)).trans v2
  rw [exact_eq, double_eq]
  generalize hw : rnd ((Curve.shifted (Double.Span.updated L.toCurveLibrary k)
        (Curve.coordinate L.toCurveLibrary (Double.Span.updated L.toCurveLibrary k) p)).y -
      (Curve.shifted (Double.Span.updated L.toCurveLibrary k)
        (Curve.coordinateChord L.toCurveLibrary (Double.Span.updated L.toCurveLibrary k) p)).y) = w at *
  have wd : IsDouble w := hw ▸ rnd_isDouble _
  generalize (k.refresh.catenary2d.coordinate p true).y - (k.refresh.catenary2d.coordinateChord p true).y = v at *
  have E : ‖toC ⟨0, w⟩ - toC ⟨0, v⟩‖ ≤ 73300 * u * (k.tensionHorizontal / k.weightUnit.magnitude) := by
    have e' : ‖toC ⟨0, w⟩ - toC ⟨0, v⟩‖ ≤ |(0 : ℝ) - 0| + |w - v| := norm_le_add (toC ⟨0, w⟩ - toC ⟨0, v⟩)
    rw [sub_self, abs_zero, zero_add] at e'
    exact e'.trans v3
  have M : ‖toC ⟨0, v⟩‖ ≤ 3 * (k.tensionHorizontal / k.weightUnit.magnitude) := by
    have e' : ‖toC ⟨0, v⟩‖ ≤ |(0 : ℝ)| + |v| := norm_le_add (toC ⟨0, v⟩)
    rw [abs_zero, zero_add] at e'
    exact e'.trans v4
  obtain ⟨t1, t2, t3, t4, t5, t6, t7, t8, t9⟩ :=
    twice_near L.toSun (v := ⟨0, v⟩) (w := ⟨0, w⟩) isDouble_zero wd i3 i2 d1 l3 l2 d2 E M
  dsimp only at *
  generalize rotate3 L.toSun (rotate3 L.toSun ⟨0, 0, w⟩ .xz (Double.Span.inclination L k)) .yz
    (if k.direction = .negative then angle3 L.toLibrary k.weightUnit .zy * -1 else angle3 L.toLibrary k.weightUnit .zy) = W at *
  generalize ((V3.mk 0 0 v).rotate .xz (k.spacing.angle .xz - k.spacing2d.angle)).rotate .yz
          (if k.direction = .negative then k.weightUnit.angle .zy * -1 else k.weightUnit.angle .zy) = V at *
  rw [c2, c3, zero_add, zero_add, rnd_of_isDouble t8]
  have δ0 : 0 ≤ δ := (abs_nonneg _).trans d1
  generalize k.tensionHorizontal / k.weightUnit.magnitude = C at *
  have C0 : 0 < C := (two_zpow_pos _).trans_le cge
  have tiny : (2 : ℝ) ^ (-290 : ℤ) ≤ u * C := by
    calc (2 : ℝ) ^ (-290 : ℤ) ≤ 2 ^ (-253 : ℤ) := two_zpow_le (by norm_num)
      _ = 2 ^ (-53 : ℤ) * 2 ^ (-200 : ℤ) := by rw [← zpow_add₀ (by norm_num)]; norm_num
      _ ≤ _ := mul_le_mul_of_nonneg_left cge hu0.le
  have uC := mul_pos hu0 C0
  have dC : 0 ≤ (δ + 2e-13) * C := by positivity
  have sC : (δ + 2e-13) * C ≤ 1.1e-6 * C := mul_le_mul_of_nonneg_right (by linarith) C0.le
  have fC : u * C ≤ 1e-15 * C := mul_le_mul_of_nonneg_right (by linarith) C0.le
  have sum : ∀ a a' b b' : ℝ, |a - a'| ≤ (30700 * u + 2 * (δ + 2e-13)) * C →
      |b - b'| ≤ 1.003 * (73300 * u * C) + 2.002 * (δ + 2e-13) * (3 * C) + 3 * 2 ^ (-290 : ℤ) → |a'| ≤ 2 * C → |b'| ≤ 3 * C →
      |rnd (a + b) - (a' + b')| ≤ (110000 * u + 8.1 * (δ + 2e-13)) * C := by
    intro a a' b b' ha hb ha' hb'
    have e := rnd_error_le (a + b)
    have t := tiny_le' cge
    generalize (2 : ℝ) ^ (-1075 : ℤ) = η at *
    have f : |a + b - (a' + b')| ≤ 104230 * (u * C) + 8.01 * ((δ + 2e-13) * C) := by
      rw [add_sub_add_comm]
      refine (abs_add_le _ _).trans ?_
      linarith
    have g : |a + b| ≤ 6 * C := by
      have := abs_sub_abs_le_abs_sub (a + b) (a' + b')
      have := abs_add_le a' b'
      linarith
    have g' := mul_le_mul_of_nonneg_left g hu0.le
    have := abs_sub_le (rnd (a + b)) (a + b) (a' + b')
    have : u * u * C ≤ u * C := by nlinarith
    linarith
  refine ⟨sum _ _ _ _ c1 t1 size.1 t4, t2.trans ?_, sum _ _ _ _ c4 t3 size.2 t6⟩
  linarith

/-- The angle by which the wind swings the cable. -/
theorem swing_near (L : TangentLibrary) (k : Catenary3d) :
    |Double.Span.swingAngle L k - k.swingAngle| ≤ 1e-12 ∧ |Double.Span.swingAngle L k| ≤ 91 ∧ |k.swingAngle| ≤ 91 := by
  have hu0 := u_pos
  have hu := u_small
  obtain ⟨-, -, wt1, -⟩ := Catenary3d.refresh_params k
  unfold Double.Span.swingAngle Catenary3d.swingAngle Catenary3d.swingAngleBody
  rw [wt1, Verif.toDegrees_eq]
  generalize k.weightUnit.y / k.weightUnit.z = t
  have h1 := (L.atan_faithful _ (rnd_isDouble t)).error_le
  have h2 := arctan_rnd t
  have ht : (2 : ℝ) ^ (-1074 : ℤ) ≤ u := two_zpow_le (by norm_num)
  have pi := Real.pi_lt_d4
  have b : ∀ x, |Real.arctan x| ≤ 1.571 := fun x => by
    rw [_root_.abs_le]
    have := Real.arctan_lt_pi_div_two x
    have := Real.neg_pi_div_two_lt_arctan x
    constructor <;> linarith
  have b1 := b t
  have b2 := b (rnd t)
  generalize (2 : ℝ) ^ (-1074 : ℤ) = η at *
  have n : |L.atan (rnd t) - Real.arctan t| ≤ 8 * u := by
    have := abs_sub_le (L.atan (rnd t)) (Real.arctan (rnd t)) (Real.arctan t)
    nlinarith
  have a : |L.atan (rnd t)| ≤ 1.5711 := by
    have := abs_sub_abs_le_abs_sub (L.atan (rnd t)) (Real.arctan t)
    linarith
  have d := Inclined.toDegrees_near L.toLibrary (a := L.atan (rnd t)) (by linarith)
  have F : 0 ≤ 180 / Units.kPi ∧ 180 / Units.kPi ≤ 57.2958 := by unfold Units.kPi; constructor <;> norm_num
  generalize L.atan (rnd t) = x at *
  generalize Real.arctan t = y at *
  generalize 180 / Units.kPi = f at *
  have e : |x * f - y * f| ≤ 8 * u * 57.2958 := by
    rw [← sub_mul, abs_mul, abs_of_nonneg F.1]
    exact mul_le_mul n F.2 F.1 (by positivity)
  have g : |y * f| ≤ 1.571 * 57.2958 := by
    rw [abs_mul, abs_of_nonneg F.1]
    exact mul_le_mul b1 F.2 F.1 (by norm_num)
  have m : |Double.toDegrees L.toLibrary x - y * f| ≤ 1e-12 := (abs_sub_le _ (x * f) _).trans (by linarith)
  refine ⟨m, ?_, g.trans (by norm_num)⟩
  have := abs_sub_abs_le_abs_sub (Double.toDegrees L.toLibrary x) (y * f)
  linarith

theorem limit_pos : (0 : ℝ) < rnd 0.00005 := by
  refine lt_of_lt_of_le (two_zpow_pos (-20)) (le_rnd (isDouble_two_zpow (by norm_num)) ?_)
  norm_num

theorem turn_zero : turn 0 - turnExact 0 = 0 := by
  have := limit_pos
  unfold turn turnExact
  rw [abs_zero, if_pos this, if_pos (by norm_num), sub_zero]

/-- The tangents in the plane of the span. -/
theorem direction_near (hL : L.toLibrary.SquaresRounded) (R : k.Reachable) (h : BlownSpan k) {p : ℝ} (p0 : 0 ≤ p)
    (p1 : p ≤ 1) {d : Direction} (hd : d ≠ .null) :
    ‖toC (Curve.tangentVector L (Double.Span.updated L.toCurveLibrary k) p d) -
      toC (k.refresh.catenary2d.tangentVector p d)‖ ≤ 61100 * u ∧
    ‖toC (k.refresh.catenary2d.tangentVector p d)‖ ≤ 1 ∧
    IsDouble (Curve.tangentVector L (Double.Span.updated L.toCurveLibrary k) p d).x ∧
    IsDouble (Curve.tangentVector L (Double.Span.updated L.toCurveLibrary k) p d).y := by
  have hu0 := u_pos
  obtain ⟨t, s, -, -, -, -⟩ := Inclined.BlownSpan.twin hL R h
  have Ri := R.inner.1
  have i2 : (2 : ℝ) ^ (-41 : ℤ) = 4096 * u := by unfold u; norm_num
  obtain ⟨-, a1, a2⟩ := C192_tangent_partial (L := L) (twin_reachable L.toLibrary R) s p0 p1 d
  rw [i2] at a1 a2
  obtain ⟨e1, e2⟩ := tangentVector_exact Ri p
  obtain ⟨f1, f2⟩ := tangentVector_exact (twin_reachable L.toLibrary R) p
  have c : |slopeAngle (twin L.toLibrary k) p - slopeAngle k.refresh.catenary2d p| ≤ 26416 * u :=
    (arctan_lipschitz _ _).trans (t.cosh p0 p1).2.1
  have g1 : |Real.cos (slopeAngle (twin L.toLibrary k) p) - Real.cos (slopeAngle k.refresh.catenary2d p)| ≤ 26416 * u :=
    (Real.abs_cos_sub_cos_le _ _).trans c
  have g2 : |Real.sin (slopeAngle (twin L.toLibrary k) p) - Real.sin (slopeAngle k.refresh.catenary2d p)| ≤ 26416 * u :=
    (Real.abs_sin_sub_sin_le _ _).trans c
  have unit : ∀ θ : ℝ, ‖toC ⟨Real.cos θ, Real.sin θ⟩‖ ≤ 1 ∧ ‖toC ⟨-Real.cos θ, -Real.sin θ⟩‖ ≤ 1 := by
    intro θ
    rw [norm_toC, norm_toC]
    unfold V2.magnitude
    simp only [neg_sq, Real.cos_sq_add_sin_sq, Real.sqrt_one, le_refl, and_self]
  have cd : ∀ x, IsDouble (Double.convertAngle L.toLibrary x .degreesToRadians) := fun x => toRadians_double (sunOf L.toLibrary) x
  have cx : ∀ x, IsDouble (L.cos (Double.convertAngle L.toLibrary x .degreesToRadians)) := fun x => (L.cos_faithful _ (cd x)).1
  have cy : ∀ x, IsDouble (L.sin (Double.convertAngle L.toLibrary x .degreesToRadians)) := fun x => (L.sin_faithful _ (cd x)).1
  rw [twin_updated]
  have key : ∀ (w v' v : V2), |w.x - v'.x| ≤ 4096 * u → |w.y - v'.y| ≤ 4096 * u → |v'.x - v.x| ≤ 26416 * u →
      |v'.y - v.y| ≤ 26416 * u → ‖toC w - toC v‖ ≤ 61100 * u := by
    intro w v' v h1 h2 h3 h4
    have e : ‖toC w - toC v‖ ≤ |w.x - v.x| + |w.y - v.y| := norm_le_add (toC w - toC v)
    have := abs_sub_le w.x v'.x v.x
    have := abs_sub_le w.y v'.y v.y
    linarith
  cases d
  case null => exact absurd rfl hd
  case positive =>
    refine ⟨?_, ?_, cx _, cy _⟩
    · refine key _ _ _ a1 a2 ?_ ?_
      · rw [e1, f1]; exact g1
      · rw [e1, f1]; exact g2
    · rw [e1]; exact (unit _).1
  case negative =>
    refine ⟨?_, ?_, (cx _).neg, cy _⟩
    · refine key _ _ _ a1 a2 ?_ ?_
      · rw [e2, f2]; show |-_ - -_| ≤ _; rw [neg_sub_neg, abs_sub_comm]; exact g1
      · rw [e2, f2]; show |-_ - -_| ≤ _; rw [neg_sub_neg, abs_sub_comm]; exact g2
    · rw [e2]; exact (unit _).2

theorem rotate3_zero (L : SunLibrary) (v : V3) (plane : Plane) : rotate3 L v plane 0 = v := by
  have := limit_pos
  unfold rotate3
  rw [abs_zero, if_pos this]

theorem rotate_none (v : V3) (plane : Plane) : v.rotate plane 0 = v := by
  unfold V3.rotate
  rw [abs_zero, if_pos (by norm_num)]

/-- The tangents in space. -/
theorem tangentVector_near (hL : L.toLibrary.SquaresRounded) (R : k.Reachable) (h : BlownSpan k) {p : ℝ} (p0 : 0 ≤ p)
    (p1 : p ≤ 1) {d : Direction} (hd : d ≠ .null) {δ : ℝ}
    (hr : ∀ r s, |s - r| ≤ 1e-11 → r = k.spacing.angle .xz true - k.spacing2d.angle true ∨
      (r = if k.direction = .negative then k.swingAngle * -1 else k.swingAngle) →
      |turn s - turnExact r| ≤ δ) :
    let E := 61300 * u + 2.002 * (δ + 2e-13)
    let V := k.tangentVector p d
    |(Double.Span.tangentVector L k p d).x - V.x| ≤ E ∧ |(Double.Span.tangentVector L k p d).y - V.y| ≤ E ∧
    |(Double.Span.tangentVector L k p d).z - V.z| ≤ E ∧ |V.x| ≤ 1 ∧ |V.y| ≤ 1 ∧ |V.z| ≤ 1 := by
  classical
  intro E V
  have hu0 := u_pos
  obtain ⟨a, b, w1, w2⟩ := direction_near hL R h p0 p1 hd
  obtain ⟨-, i1, i2, i3⟩ := inclination_near hL R h
  obtain ⟨s1, s2, s3⟩ := swing_near L k
  obtain ⟨dir1, sp1, wt1, -⟩ := Catenary3d.refresh_params k
  have sw : k.refresh.swingAngleBody = k.swingAngle := rfl
  have δ0 : 0 ≤ δ := (abs_nonneg _).trans (hr _ _ i1 (.inl rfl))
  have eV : V = ((V3.mk (k.refresh.catenary2d.tangentVector p d).x 0 (k.refresh.catenary2d.tangentVector p d).y).rotate .xz
      (if k.spacing.z ≠ 0 ∧ k.weightUnit.y ≠ 0 then k.spacing.angle .xz true - k.spacing2d.angle true else 0)).rotate .yz
      (if k.weightUnit.y ≠ 0 then (if k.direction = .negative then k.swingAngle * -1 else k.swingAngle) else 0) := by
    show k.tangentVector p d = _
    unfold Catenary3d.tangentVector Catenary3d.tangentVectorBody
    rw [dir1, sp1, wt1, R.inner.2.1, sw]
    by_cases c1 : k.weightUnit.y ≠ 0
    · by_cases c2 : k.spacing.z ≠ 0
      · simp only [c1, c2, and_self, ne_eq, not_false_eq_true, if_true]
      · simp only [c1, c2, false_and, ne_eq, not_false_eq_true, if_true, if_false, rotate_none]
    · simp only [c1, and_false, if_false, rotate_none]
  have eW : Double.Span.tangentVector L k p d = rotate3 L.toSun (rotate3 L.toSun
      ⟨(Curve.tangentVector L (Double.Span.updated L.toCurveLibrary k) p d).x, 0,
        (Curve.tangentVector L (Double.Span.updated L.toCurveLibrary k) p d).y⟩ .xz
      (if k.spacing.z ≠ 0 ∧ k.weightUnit.y ≠ 0 then rnd (angle3 L.toLibrary k.spacing .xz true -
        Double.angle L.toLibrary (Double.Span.updated L.toCurveLibrary k).spacing true) else 0)) .yz
      (if k.weightUnit.y ≠ 0 then (if k.direction = .negative then Double.Span.swingAngle L k * -1
        else Double.Span.swingAngle L k) else 0) := by
    unfold Double.Span.tangentVector
    by_cases c1 : k.weightUnit.y ≠ 0
    · by_cases c2 : k.spacing.z ≠ 0
      · simp only [c1, c2, and_self, ne_eq, not_false_eq_true, if_true]
      · simp only [c1, c2, false_and, ne_eq, not_false_eq_true, if_true, if_false, rotate3_zero]
    · simp only [c1, and_false, if_false, rotate3_zero]
  have z : |turn 0 - turnExact 0| ≤ δ := by rw [turn_zero, abs_zero]; exact δ0
  have z0 : |(0 : ℝ)| ≤ 360 := by norm_num
  have n1 : |(if k.direction = .negative then Double.Span.swingAngle L k * -1 else Double.Span.swingAngle L k) -
      (if k.direction = .negative then k.swingAngle * -1 else k.swingAngle)| ≤ 1e-11 := by
    split
    · rw [mul_neg_one, mul_neg_one, neg_sub_neg, abs_sub_comm]; exact s1.trans (by norm_num)
    · exact s1.trans (by norm_num)
  have n2 : |(if k.direction = .negative then Double.Span.swingAngle L k * -1 else Double.Span.swingAngle L k)| ≤ 360 := by
    split
    · rw [mul_neg_one, abs_neg]; linarith
    · linarith
  have n3 : |(if k.direction = .negative then k.swingAngle * -1 else k.swingAngle)| ≤ 360 := by
    split
    · rw [mul_neg_one, abs_neg]; linarith
    · linarith
  have d1 := hr _ _ i1 (.inl rfl)
  have d2 := hr _ _ n1 (.inr rfl)
  rw [eV, eW]
  have q : ∀ (r1 s1 r2 s2 : ℝ), |r1| ≤ 360 → |s1| ≤ 360 → |turn s1 - turnExact r1| ≤ δ → |r2| ≤ 360 → |s2| ≤ 360 →
      |turn s2 - turnExact r2| ≤ δ → _ :=
    fun r1 s1 r2 s2 h1 k1 d1 h2 k2 d2 => twice_near L.toSun w1 w2 h1 k1 d1 h2 k2 d2 a b
  obtain ⟨t1, t2, t3, t4, t5, t6, -⟩ := q
    (if k.spacing.z ≠ 0 ∧ k.weightUnit.y ≠ 0 then k.spacing.angle .xz true - k.spacing2d.angle true else 0)
    (if k.spacing.z ≠ 0 ∧ k.weightUnit.y ≠ 0 then rnd (angle3 L.toLibrary k.spacing .xz true -
        Double.angle L.toLibrary (Double.Span.updated L.toCurveLibrary k).spacing true) else 0)
    (if k.weightUnit.y ≠ 0 then (if k.direction = .negative then k.swingAngle * -1 else k.swingAngle) else 0)
    (if k.weightUnit.y ≠ 0 then (if k.direction = .negative then Double.Span.swingAngle L k * -1
        else Double.Span.swingAngle L k) else 0)
    (by split <;> assumption) (by split <;> assumption)
    (by split <;> [exact d1; exact z]) (by split <;> [exact n3; exact z0]) (by split <;> [exact n2; exact z0])
    (by split <;> [exact d2; exact z])
  have ti : (2 : ℝ) ^ (-290 : ℤ) ≤ u := two_zpow_le (by norm_num)
  have bound : 1.003 * (61100 * u) + 2.002 * (δ + 2e-13) * 1 + 3 * 2 ^ (-290 : ℤ) ≤ E := by
    show _ ≤ 61300 * u + 2.002 * (δ + 2e-13)
    linarith
  exact ⟨t1.trans bound, t2.trans bound, t3.trans bound, t4, t5, t6⟩

theorem scaled_near {v c t T H e : ℝ} (hH : (2 : ℝ) ^ (-200 : ℤ) ≤ H) (e1 : e ≤ 0.00001) (hv : |v - c| ≤ e) (hc : |c| ≤ 1)
    (ht : |t - T| ≤ 32768 * u * H) (hT : |T| ≤ 4 * H) : |rnd (v * t) - c * T| ≤ (4.001 * e + 33000 * u) * H := by
  have hu0 := u_pos
  have hu := u_small
  have hH0 : 0 < H := (two_zpow_pos _).trans_le hH
  have uH := mul_pos hu0 hH0
  have e0 : 0 ≤ e := (abs_nonneg _).trans hv
  have r := rnd_error_le (v * t)
  have ti := tiny_le' hH
  generalize (2 : ℝ) ^ (-1075 : ℤ) = η at *
  have i : v * t - c * T = (v - c) * T + (v - c) * (t - T) + c * (t - T) := by ring
  have j1 : |(v - c) * T| ≤ e * (4 * H) := by rw [abs_mul]; exact mul_le_mul hv hT (abs_nonneg _) e0
  have j2 : |(v - c) * (t - T)| ≤ 0.00001 * (32768 * u * H) := by
    rw [abs_mul]; exact mul_le_mul (hv.trans e1) ht (abs_nonneg _) (by norm_num)
  have j3 : |c * (t - T)| ≤ 1 * (32768 * u * H) := by rw [abs_mul]; exact mul_le_mul hc ht (abs_nonneg _) (by norm_num)
  have j : |v * t - c * T| ≤ 4 * (e * H) + 32769 * (u * H) := by
    rw [i]
    have := abs_add_le ((v - c) * T + (v - c) * (t - T)) (c * (t - T))
    have := abs_add_le ((v - c) * T) ((v - c) * (t - T))
    linarith
  have k1 : |c * T| ≤ 4 * H := by
    rw [abs_mul]
    have := mul_le_mul hc hT (abs_nonneg _) (by norm_num)
    linarith
  have eH := mul_le_mul_of_nonneg_right e1 hH0.le
  have eH0 := mul_nonneg e0 hH0.le
  have k2 : |v * t| ≤ 5 * H := by
    have := abs_sub_abs_le_abs_sub (v * t) (c * T)
    have : u * H ≤ 1e-6 * H := mul_le_mul_of_nonneg_right (by linarith) hH0.le
    linarith
  have k3 := mul_le_mul_of_nonneg_left k2 hu0.le
  have := abs_sub_le (rnd (v * t)) (v * t) (c * T)
  have : u * u * H ≤ u * H := by nlinarith
  linarith

end Swing

open Swing

variable {L : TangentLibrary} {k : Catenary3d}

/-- **C194** (chord): the computed points of the chord of a span in space are within 2e-6 of H/w of the exact ones, and
within 2^-37 of it when the angle of the chord in the plane of the cable differs from its angle in space by clearly less or
clearly more than the 0.00005 degrees below which rotations are left out; neither leaves the vertical plane of the span.
Missing: spans that are steeper or deeper, and infinite and undefined results. -/
theorem C194_chord_partial (hL : L.toLibrary.SquaresRounded) (R : k.Reachable) (h : BlownSpan k) {p : ℝ} (p0 : 0 ≤ p)
    (p1 : p ≤ 1) :
    let C := k.tensionHorizontal / k.weightUnit.magnitude
    let r := |k.spacing.angle .xz - k.spacing2d.angle|
    let v := Double.Span.coordinateChord L k p
    v.y = 0 ∧ |v.x - (k.coordinateChord p).x| ≤ 2e-6 * C ∧ |v.z - (k.coordinateChord p).z| ≤ 2e-6 * C ∧
    (r ≤ 0.00004 ∨ 0.00006 ≤ r →
      |v.x - (k.coordinateChord p).x| ≤ 2 ^ (-37 : ℤ) * C ∧ |v.z - (k.coordinateChord p).z| ≤ 2 ^ (-37 : ℤ) * C) := by
  intro C r v
  have hu0 := u_pos
  have hu := u_small
  obtain ⟨-, -, -, -, cge⟩ := vectors_near hL R h p0 p1
  have C0 : 0 < C := (two_zpow_pos _).trans_le cge
  obtain ⟨⟨i1, -, -⟩, -⟩ := inclination_near hL R h
  obtain ⟨t1, t2⟩ := turn_near i1
  obtain ⟨a1, a2, -, a4⟩ := coordinateChord_near hL R h p0 p1 t1
  have b : (30700 * u + 2 * (8.8e-7 + 2e-13)) * C ≤ 2e-6 * C := mul_le_mul_of_nonneg_right (by norm_num at hu ⊢; linarith) C0.le
  refine ⟨a2, a1.trans b, a4.trans b, fun hr => ?_⟩
  obtain ⟨b1, -, -, b4⟩ := coordinateChord_near hL R h p0 p1 (t2 hr)
  have c : (30700 * u + 2 * (2e-13 + 2e-13)) * C ≤ 2 ^ (-37 : ℤ) * C :=
    mul_le_mul_of_nonneg_right (by norm_num at hu ⊢; linarith) C0.le
  exact ⟨b1.trans c, b4.trans c⟩

/-- **C194** (coordinates): each computed coordinate of a point of the cable of a span in space is within 1e-5 of H/w of
the exact one, and within 2^-35 of it when the angle between the chords and the angle of the load are clearly less or
clearly more than the 0.00005 degrees below which rotations are left out.  Missing: spans that are steeper or deeper, and
infinite and undefined results. -/
theorem C194_coordinate_partial (hL : L.toLibrary.SquaresRounded) (R : k.Reachable) (h : BlownSpan k) {p : ℝ} (p0 : 0 ≤ p)
    (p1 : p ≤ 1) :
    let C := k.tensionHorizontal / k.weightUnit.magnitude
    let r := |k.spacing.angle .xz - k.spacing2d.angle|
    let w := |k.weightUnit.angle .zy|
    let v := Double.Span.coordinate L k p
    (|v.x - (k.coordinate p).x| ≤ 1e-5 * C ∧ |v.y - (k.coordinate p).y| ≤ 1e-5 * C ∧
      |v.z - (k.coordinate p).z| ≤ 1e-5 * C) ∧
    (r ≤ 0.00004 ∨ 0.00006 ≤ r → w ≤ 0.00004 ∨ 0.00006 ≤ w →
      |v.x - (k.coordinate p).x| ≤ 2 ^ (-35 : ℤ) * C ∧ |v.y - (k.coordinate p).y| ≤ 2 ^ (-35 : ℤ) * C ∧
      |v.z - (k.coordinate p).z| ≤ 2 ^ (-35 : ℤ) * C) := by
  intro C r w v
  have hu0 := u_pos
  have hu := u_small
  obtain ⟨-, -, -, -, cge⟩ := vectors_near hL R h p0 p1
  have C0 : 0 < C := (two_zpow_pos _).trans_le cge
  constructor
  · obtain ⟨a1, a2, a3⟩ := coordinate_near hL R h p0 p1 (δ := 8.8e-7) (by norm_num) (fun r s hs _ => (turn_near hs).1)
    have b : (110000 * u + 8.1 * (8.8e-7 + 2e-13)) * C ≤ 1e-5 * C :=
      mul_le_mul_of_nonneg_right (by norm_num at hu ⊢; linarith) C0.le
    exact ⟨a1.trans b, a2.trans b, a3.trans b⟩
  · intro hr hw
    obtain ⟨a1, a2, a3⟩ := coordinate_near hL R h p0 p1 (δ := 2e-13) (by norm_num) (fun r s hs hc => by
      refine (turn_near hs).2 ?_
      rcases hc with rfl | rfl
      · exact hr
      · unfold Clear
        split
        · rw [mul_neg_one, abs_neg]; exact hw
        · exact hw)
    have b : (110000 * u + 8.1 * (2e-13 + 2e-13)) * C ≤ 2 ^ (-35 : ℤ) * C :=
      mul_le_mul_of_nonneg_right (by norm_num at hu ⊢; linarith) C0.le
    exact ⟨a1.trans b, a2.trans b, a3.trans b⟩

/-- **C194** (swing angle): the computed swing angle is within 1e-12 degrees of the exact one, whatever the load. -/
theorem C194_swing (L : TangentLibrary) (k : Catenary3d) : |Double.Span.swingAngle L k - k.swingAngle| ≤ 1e-12 :=
  (swing_near L k).1

/-- **C194** (tangents): each component of a computed tangent vector of a span in space is within 2e-6 of the exact one,
and within 2^-36 when the angle between the chords and the swing angle are clearly less or clearly more than the 0.00005
degrees below which rotations are left out.  Missing: spans that are steeper or deeper, and infinite and undefined
results. -/
theorem C194_tangent_partial (hL : L.toLibrary.SquaresRounded) (R : k.Reachable) (h : BlownSpan k) {p : ℝ} (p0 : 0 ≤ p)
    (p1 : p ≤ 1) {d : Direction} (hd : d ≠ .null) :
    let r := |k.spacing.angle .xz true - k.spacing2d.angle true|
    let w := |k.swingAngle|
    let v := Double.Span.tangentVector L k p d
    (|v.x - (k.tangentVector p d).x| ≤ 2e-6 ∧ |v.y - (k.tangentVector p d).y| ≤ 2e-6 ∧
      |v.z - (k.tangentVector p d).z| ≤ 2e-6) ∧
    (r ≤ 0.00004 ∨ 0.00006 ≤ r → w ≤ 0.00004 ∨ 0.00006 ≤ w →
      |v.x - (k.tangentVector p d).x| ≤ 2 ^ (-36 : ℤ) ∧ |v.y - (k.tangentVector p d).y| ≤ 2 ^ (-36 : ℤ) ∧
      |v.z - (k.tangentVector p d).z| ≤ 2 ^ (-36 : ℤ)) := by
  intro r w v
  have hu := u_small
  constructor
  · obtain ⟨a1, a2, a3, -⟩ := tangentVector_near hL R h p0 p1 hd (δ := 8.8e-7) (fun r s hs _ => (turn_near hs).1)
    have b : 61300 * u + 2.002 * (8.8e-7 + 2e-13) ≤ 2e-6 := by norm_num at hu ⊢; linarith
    exact ⟨a1.trans b, a2.trans b, a3.trans b⟩
  · intro hr hw
    obtain ⟨a1, a2, a3, -⟩ := tangentVector_near hL R h p0 p1 hd (δ := 2e-13) (fun r s hs hc => by
      refine (turn_near hs).2 ?_
      rcases hc with rfl | rfl
      · exact hr
      · unfold Clear
        split
        · rw [mul_neg_one, abs_neg]; exact hw
        · exact hw)
    have b : 61300 * u + 2.002 * (2e-13 + 2e-13) ≤ 2 ^ (-36 : ℤ) := by norm_num at hu ⊢; linarith
    exact ⟨a1.trans b, a2.trans b, a3.trans b⟩

/-- **C194** (tensions): each component of a computed tension vector of a span in space is within 1e-5 of the horizontal
tension of the exact one, and within 2^-33 of it when the angle between the chords and the swing angle are clearly less or
clearly more than the 0.00005 degrees below which rotations are left out.  Missing: spans that are steeper or deeper, and
infinite and undefined results. -/
theorem C194_tension_partial (hL : L.toLibrary.SquaresRounded) (R : k.Reachable) (h : BlownSpan k) {p : ℝ} (p0 : 0 ≤ p)
    (p1 : p ≤ 1) {d : Direction} (hd : d ≠ .null) :
    let H := k.tensionHorizontal
    let r := |k.spacing.angle .xz true - k.spacing2d.angle true|
    let w := |k.swingAngle|
    let v := Double.Span.tensionVector L k p d
    (|v.x - (k.tensionVector p d).x| ≤ 1e-5 * H ∧ |v.y - (k.tensionVector p d).y| ≤ 1e-5 * H ∧
      |v.z - (k.tensionVector p d).z| ≤ 1e-5 * H) ∧
    (r ≤ 0.00004 ∨ 0.00006 ≤ r → w ≤ 0.00004 ∨ 0.00006 ≤ w →
      |v.x - (k.tensionVector p d).x| ≤ 2 ^ (-33 : ℤ) * H ∧ |v.y - (k.tensionVector p d).y| ≤ 2 ^ (-33 : ℤ) * H ∧
      |v.z - (k.tensionVector p d).z| ≤ 2 ^ (-33 : ℤ) * H) := by
  intro H r w v
  have hu := u_small
  have hu0 := u_pos
  have hh : (2 : ℝ) ^ (-200 : ℤ) ≤ H := (two_zpow_le (by norm_num)).trans h.tension.2.1
  have H0 : 0 < H := (two_zpow_pos _).trans_le hh
  obtain ⟨t, -, -, -, eh, -⟩ := Inclined.BlownSpan.twin hL R h
  have T : |k.tension p| ≤ 4 * H := by
    show |k.refresh.catenary2d.tension p| ≤ 4 * H
    obtain ⟨-, -, b1, b2⟩ := t.cosh p0 p1
    unfold Inclined.place at b1 b2
    rw [tension_exact R.inner.1, abs_mul, abs_of_pos (lt_of_lt_of_le one_pos b1), eh]
    rw [eh] at b2
    rw [abs_of_pos (show 0 < k.tensionHorizontal from H0), mul_comm]
    exact mul_le_mul_of_nonneg_right b2 H0.le
  have n := (C193_tension_partial hL R h).1 p p0 p1
  rw [show (2 : ℝ) ^ (-38 : ℤ) = 32768 * u by unfold u; norm_num] at n
  obtain ⟨⟨c1, c2, c3⟩, f⟩ := C194_tangent_partial hL R h p0 p1 hd
  obtain ⟨-, -, -, m1, m2, m3⟩ := tangentVector_near hL R h p0 p1 hd (δ := 8.8e-7) (fun r s hs _ => (turn_near hs).1)
  have e : ∀ q : ℝ, k.tensionVector p d = ⟨(k.tangentVector p d).x * k.tension p, (k.tangentVector p d).y * k.tension p,
    (k.tangentVector p d).z * k.tension p⟩ := fun _ => rfl
  rw [e 0]
  constructor
  · have b : (4.001 * 2e-6 + 33000 * u) * H ≤ 1e-5 * H := mul_le_mul_of_nonneg_right (by norm_num at hu ⊢; linarith) H0.le
    exact ⟨(scaled_near hh (by norm_num) c1 m1 n T).trans b, (scaled_near hh (by norm_num) c2 m2 n T).trans b,
      (scaled_near hh (by norm_num) c3 m3 n T).trans b⟩
  · intro hr hw
    obtain ⟨c1, c2, c3⟩ := f hr hw
    have b : (4.001 * 2 ^ (-36 : ℤ) + 33000 * u) * H ≤ 2 ^ (-33 : ℤ) * H :=
      mul_le_mul_of_nonneg_right (by norm_num at hu ⊢; linarith) H0.le
    exact ⟨(scaled_near hh (by norm_num) c1 m1 n T).trans b, (scaled_near hh (by norm_num) c2 m2 n T).trans b,
      (scaled_near hh (by norm_num) c3 m3 n T).trans b⟩

/-- A span of 1000 with a rise of 100, blown by a load at 3 in 4 to the vertical: its angles are far from the limit of
rotations. -/
theorem windySpan_clear : 0.00006 ≤ |windySpan.spacing.angle .xz - windySpan.spacing2d.angle| ∧
    0.00006 ≤ |windySpan.spacing.angle .xz true - windySpan.spacing2d.angle true| ∧
    0.00006 ≤ |windySpan.weightUnit.angle .zy| ∧ 0.00006 ≤ |windySpan.swingAngle| := by
  have F : (50 : ℝ) ≤ 180 / Units.kPi := by unfold Units.kPi; norm_num
  have low : ∀ t : ℝ, 0 ≤ t → t ≤ 1 → t / 2 ≤ Real.arctan t := by
    intro t t0 t1
    have a : Real.sin (Real.arctan t) ≤ Real.arctan t := Real.sin_le (Real.arctan_nonneg.2 t0)
    rw [Real.sin_arctan] at a
    refine le_trans ?_ a
    refine div_le_div_of_nonneg_left t0 (by positivity) ?_
    rw [Real.sqrt_le_left (by norm_num)]
    nlinarith
  have sx : 1000 ≤ windySpan.spacing2d.x := by
    have := (planar_spacing windySpan_blown.toOrdinarySpan windySpan_blown.flat).1
    exact this
  have sy : windySpan.spacing2d.y = 80 := by
    show (100 : ℝ) * (|1| / windySpan.weightUnit.magnitude) = 80
    rw [windySpan_weight]; norm_num
  have q : Real.arctan (windySpan.spacing2d.y / windySpan.spacing2d.x) ≤ Real.arctan 0.08 := by
    refine Real.arctan_mono ?_
    rw [sy, div_le_iff₀ (by linarith)]
    linarith
  have d : Real.arctan 0.08 + 0.005 ≤ Real.arctan 0.1 := by
    have e : Real.arctan 0.08 + Real.arctan 0.01 = Real.arctan ((0.08 + 0.01) / (1 - 0.08 * 0.01)) :=
      Real.arctan_add (by norm_num)
    have m : Real.arctan ((0.08 + 0.01) / (1 - 0.08 * 0.01)) ≤ Real.arctan 0.1 := Real.arctan_mono (by norm_num)
    have l := low 0.01 (by norm_num) (by norm_num)
    rw [← e] at m
    linarith
  have e1 : windySpan.spacing.angle .xz true = Real.arctan 0.1 * (180 / Units.kPi) := by
    show V2.angle ⟨1000, 100⟩ true = _
    rw [V2.angle_true_of_pos _ (by norm_num), Verif.toDegrees_eq]
    norm_num
  have e2 : windySpan.spacing2d.angle true = Real.arctan (windySpan.spacing2d.y / windySpan.spacing2d.x) * (180 / Units.kPi) := by
    rw [V2.angle_true_of_pos _ (by linarith), Verif.toDegrees_eq]
  have e3 : windySpan.spacing.angle .xz = windySpan.spacing.angle .xz true := by
    show V2.angle ⟨1000, 100⟩ = V2.angle ⟨1000, 100⟩ true
    rw [V2.angle_true_of_pos _ (by norm_num), V2.angle_of_pos _ (by norm_num), if_neg (by norm_num), add_zero]
  have e4 : windySpan.spacing2d.angle = windySpan.spacing2d.angle true := by
    rw [V2.angle_true_of_pos _ (by linarith), V2.angle_of_pos _ (by linarith), if_neg (by rw [sy]; norm_num), add_zero]
  have main : 0.00006 ≤ |windySpan.spacing.angle .xz true - windySpan.spacing2d.angle true| := by
    rw [e1, e2, ← sub_mul]
    refine le_trans ?_ (le_abs_self _)
    have : 0.005 * 50 ≤ (Real.arctan 0.1 - Real.arctan (windySpan.spacing2d.y / windySpan.spacing2d.x)) * (180 / Units.kPi) :=
      mul_le_mul (by linarith) F (by norm_num) (by linarith)
    linarith
  have w := low 0.75 (by norm_num) (by norm_num)
  have w' : 0.00006 ≤ |Real.arctan 0.75 * (180 / Units.kPi)| := by
    refine le_trans ?_ (le_abs_self _)
    have : (0.75 / 2) * 50 ≤ Real.arctan 0.75 * (180 / Units.kPi) := mul_le_mul w F (by norm_num) (by linarith)
    linarith
  refine ⟨?_, main, ?_, ?_⟩
  · rw [e3, e4]; exact main
  · show _ ≤ |V2.angle ⟨1, 0.75⟩|
    rw [V2.angle_of_pos _ (by norm_num), if_neg (by norm_num), add_zero, Verif.toDegrees_eq, div_one]
    exact w'
  · obtain ⟨-, -, wt1, -⟩ := Catenary3d.refresh_params windySpan
    unfold Catenary3d.swingAngle Catenary3d.swingAngleBody
    rw [wt1, Verif.toDegrees_eq]
    show _ ≤ |Real.arctan (0.75 / 1) * _|
    rw [div_one]
    exact w'

/-- Its middle, and the tension there, with correctly rounded functions. -/
example : |(Double.Span.coordinate roundedTangentLibrary windySpan 0.5).y - (windySpan.coordinate 0.5).y| ≤ 1e-7 ∧
    |(Double.Span.tensionVector roundedTangentLibrary windySpan 0.5 .negative).z -
      (windySpan.tensionVector 0.5 .negative).z| ≤ 1e-6 := by
  obtain ⟨c1, c2, c3, c4⟩ := windySpan_clear
  have a := ((C194_coordinate_partial (L := roundedTangentLibrary) roundedLibrary_rounded windySpan_reachable windySpan_blown
    (p := 0.5) (by norm_num) (by norm_num)).2 (.inr c1) (.inr c3)).2.1
  have b := ((C194_tension_partial (L := roundedTangentLibrary) roundedLibrary_rounded windySpan_reachable windySpan_blown
    (p := 0.5) (by norm_num) (by norm_num) (d := .negative) (by simp)).2 (.inr c2) (.inr c4)).2.2
  rw [windySpan_weight] at a
  refine ⟨a.trans ?_, b.trans ?_⟩
  · show (2 : ℝ) ^ (-35 : ℤ) * (2000 / 1.25) ≤ 1e-7
    norm_num
  · show (2 : ℝ) ^ (-33 : ℤ) * 2000 ≤ 1e-6
    norm_num

/-- Its chord at a quarter of the cable, the swing angle and the tangent at its left end. -/
example : |(Double.Span.coordinateChord roundedTangentLibrary windySpan 0.25).x - (windySpan.coordinateChord 0.25).x| ≤ 1e-7 ∧
    |Double.Span.swingAngle roundedTangentLibrary windySpan - windySpan.swingAngle| ≤ 1e-12 ∧
    |(Double.Span.tangentVector roundedTangentLibrary windySpan 0 .positive).y - (windySpan.tangentVector 0 .positive).y| ≤
      1e-9 := by
  obtain ⟨c1, c2, c3, c4⟩ := windySpan_clear
  have a := ((C194_chord_partial (L := roundedTangentLibrary) roundedLibrary_rounded windySpan_reachable windySpan_blown
    (p := 0.25) (by norm_num) (by norm_num)).2.2.2 (.inr c1)).1
  have b := ((C194_tangent_partial (L := roundedTangentLibrary) roundedLibrary_rounded windySpan_reachable windySpan_blown
    (p := 0) le_rfl zero_le_one (d := .positive) (by simp)).2 (.inr c2) (.inr c4)).2.1
  rw [windySpan_weight] at a
  refine ⟨a.trans ?_, C194_swing _ _, b.trans (by norm_num)⟩
  show (2 : ℝ) ^ (-37 : ℤ) * (2000 / 1.25) ≤ 1e-7
  norm_num

end Verif.Props
