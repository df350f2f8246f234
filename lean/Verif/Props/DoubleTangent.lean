import Verif.DoubleTangent
import Verif.Props.DoubleInclined

/-! # Tangents and tensions of catenaries in `double` arithmetic (C192) -/

set_option linter.unusedSectionVars false

namespace Verif.Props

open Verif.Double Verif.Double.Curve Inclined

variable {L : TangentLibrary} {k : Catenary2d}

namespace Inclined

theorem toDegrees_near (L : Library) {a : ℝ} (ha : |a| ≤ 1.6) :
    |Double.toDegrees L a - a * (180 / Units.kPi)| ≤ 160 * u := by
  have hu0 := u_pos
  have hu := u_small
  rw [toDegrees_rnd]
  have h := rnd_error_le (a * ((8063664102031872 : ℤ) * (2 : ℝ) ^ (-47 : ℤ)))
  have ht := tiny_le_u.2
  generalize (2 : ℝ) ^ (-1075 : ℤ) = η at *
  have e : |((8063664102031872 : ℤ) : ℝ) * (2 : ℝ) ^ (-47 : ℤ) - 180 / Units.kPi| ≤ 33 * u := by
    unfold Units.kPi u
    rw [abs_le]; constructor <;> norm_num
  have e1 : |((8063664102031872 : ℤ) : ℝ) * (2 : ℝ) ^ (-47 : ℤ)| ≤ 57.3 := by
    rw [abs_le]; constructor <;> norm_num
  generalize ((8063664102031872 : ℤ) : ℝ) * (2 : ℝ) ^ (-47 : ℤ) = c at *
  have h1 : |a * c - a * (180 / Units.kPi)| ≤ 1.6 * (33 * u) := by
    rw [← mul_sub, abs_mul]; exact mul_le_mul ha e (abs_nonneg _) (by norm_num)
  have h2 : |a * c| ≤ 1.6 * 57.3 := by
    rw [abs_mul]; exact mul_le_mul ha e1 (abs_nonneg _) (by norm_num)
  have h3 : u * |a * c| ≤ u * (1.6 * 57.3) := mul_le_mul_of_nonneg_left h2 hu0.le
  rw [abs_le] at *
  constructor <;> linarith

/-- The slope angle of the curve, in radians. -/
noncomputable def slopeAngle (k : Catenary2d) (p : ℝ) : ℝ :=
  Real.arctan (Real.sinh (k.update.coordinateX p / (k.tensionHorizontal / k.weightUnit)))

theorem Span.angle (h : Span k) {p : ℝ} (p0 : 0 ≤ p) (p1 : p ≤ 1) :
    |Curve.tangentAngle L (Curve.update L.toCurveLibrary k) p .positive - slopeAngle k p * (180 / Units.kPi)| ≤
      208000 * u ∧
    |Curve.tangentAngle L (Curve.update L.toCurveLibrary k) p .positive| ≤ 91 := by
  have hu0 := u_pos
  have hu := u_small
  obtain ⟨x, xa⟩ := h.position (L := L.toCurveLibrary) p0 p1
  obtain ⟨d1, d2⟩ := h.arg x xa (by norm_num) (by norm_num)
  have s := lib_sinh_near L.toCurveLibrary d1 (rnd_isDouble _) d2 (by norm_num) (by norm_num)
  have sd := (L.sinh_faithful _ (rnd_isDouble (Curve.coordinateX L.toCurveLibrary (Curve.update L.toCurveLibrary k) p /
    Curve.constant k))).1
  show |Double.toDegrees L.toLibrary (L.atan (L.sinh (rnd (Curve.coordinateX L.toCurveLibrary
    (Curve.update L.toCurveLibrary k) p / Curve.constant k)))) - _| ≤ _ ∧ |Double.toDegrees L.toLibrary (L.atan (L.sinh
    (rnd (Curve.coordinateX L.toCurveLibrary (Curve.update L.toCurveLibrary k) p / Curve.constant k))))| ≤ _
  generalize L.sinh (rnd (Curve.coordinateX L.toCurveLibrary (Curve.update L.toCurveLibrary k) p / Curve.constant k)) = t at *
  unfold slopeAngle
  generalize Real.sinh (k.update.coordinateX p / (k.tensionHorizontal / k.weightUnit)) = q at *
  have a1 := (L.atan_faithful t sd).error_le
  have a2 := arctan_lipschitz t q
  have pi2 := Real.pi_lt_d4
  have a3 : |Real.arctan t| ≤ 1.58 := by
    rw [abs_le]; constructor <;> linarith [Real.arctan_lt_pi_div_two t, Real.neg_pi_div_two_lt_arctan t]
  have a5 : |Real.arctan q| ≤ 1.58 := by
    rw [abs_le]; constructor <;> linarith [Real.arctan_lt_pi_div_two q, Real.neg_pi_div_two_lt_arctan q]
  have ht := tiny_le_u.1
  unfold Near at s
  generalize (2 : ℝ) ^ (-1074 : ℤ) = η at *
  have a4 : |L.atan t - Real.arctan t| ≤ 5 * u := by nlinarith
  have a6 : |L.atan t| ≤ 1.6 := by
    have := abs_sub_abs_le_abs_sub (L.atan t) (Real.arctan t)
    linarith
  have a7 : |L.atan t - Real.arctan q| ≤ 3627 * u := by
    have := abs_sub_le (L.atan t) (Real.arctan t) (Real.arctan q)
    linarith
  have b := toDegrees_near L.toLibrary a6
  have kp : 57 ≤ 180 / Units.kPi ∧ 180 / Units.kPi ≤ 57.296 := by unfold Units.kPi; constructor <;> norm_num
  have b1 : |L.atan t * (180 / Units.kPi) - Real.arctan q * (180 / Units.kPi)| ≤ (3627 * u) * 57.296 := by
    rw [← sub_mul, abs_mul, abs_of_pos (by linarith [kp.1] : 0 < 180 / Units.kPi)]
    exact mul_le_mul a7 kp.2 (by linarith [kp.1]) (by positivity)
  have b2 : |Double.toDegrees L.toLibrary (L.atan t) - Real.arctan q * (180 / Units.kPi)| ≤ 208000 * u := by
    have := abs_sub_le (Double.toDegrees L.toLibrary (L.atan t)) (L.atan t * (180 / Units.kPi))
      (Real.arctan q * (180 / Units.kPi))
    linarith
  refine ⟨b2, ?_⟩
  have b3 : |Real.arctan q * (180 / Units.kPi)| ≤ 1.58 * 57.296 := by
    rw [abs_mul, abs_of_pos (by linarith [kp.1] : 0 < 180 / Units.kPi)]
    exact mul_le_mul a5 kp.2 (by linarith [kp.1]) (by norm_num)
  have := abs_sub_abs_le_abs_sub (Double.toDegrees L.toLibrary (L.atan t)) (Real.arctan q * (180 / Units.kPi))
  linarith

/-- Sine and cosine of an angle that went through degrees. -/
theorem lib_direction {a θ : ℝ} (ha : |a| ≤ 91) (h : |a - θ * (180 / Units.kPi)| ≤ 208000 * u) :
    |L.cos (Double.convertAngle L.toLibrary a .degreesToRadians) - Real.cos θ| ≤ 3700 * u ∧
    |L.sin (Double.convertAngle L.toLibrary a .degreesToRadians) - Real.sin θ| ≤ 3700 * u := by
  have hu0 := u_pos
  have hu := u_small
  have r : |Double.convertAngle L.toLibrary a .degreesToRadians - a * (Units.kPi / 180)| ≤ 60 * u :=
    Traverse.toRadians_near (sunOf L.toLibrary) (ha.trans (by norm_num))
  have rd : IsDouble (Double.convertAngle L.toLibrary a .degreesToRadians) := toRadians_double (sunOf L.toLibrary) a
  generalize Double.convertAngle L.toLibrary a .degreesToRadians = t at *
  have kp : 0 < Units.kPi / 180 ∧ Units.kPi / 180 ≤ 0.017454 := by unfold Units.kPi; constructor <;> norm_num
  have e : θ * (180 / Units.kPi) * (Units.kPi / 180) = θ := by
    have : Units.kPi ≠ 0 := by unfold Units.kPi; norm_num
    field_simp
  have h1 : |a * (Units.kPi / 180) - θ| ≤ 208000 * u * 0.017454 := by
    rw [← e, ← sub_mul, abs_mul, abs_of_pos kp.1]
    exact mul_le_mul h kp.2 kp.1.le (by positivity)
  have h2 : |t - θ| ≤ 3692 * u := by
    have := abs_sub_le t (a * (Units.kPi / 180)) θ
    linarith
  have ht := tiny_le_u.1
  have c1 := (L.cos_faithful t rd).error_le
  have s1 := (L.sin_faithful t rd).error_le
  generalize (2 : ℝ) ^ (-1074 : ℤ) = η at *
  have c2 := mul_le_mul_of_nonneg_left (Real.abs_cos_le_one t) hu0.le
  have s2 := mul_le_mul_of_nonneg_left (Real.abs_sin_le_one t) hu0.le
  have c3 : |Real.cos t - Real.cos θ| ≤ |t - θ| := Real.abs_cos_sub_cos_le t θ
  have s3 : |Real.sin t - Real.sin θ| ≤ |t - θ| := Real.abs_sin_sub_sin_le t θ
  have c4 := abs_sub_le (L.cos t) (Real.cos t) (Real.cos θ)
  have s4 := abs_sub_le (L.sin t) (Real.sin t) (Real.sin θ)
  constructor <;> linarith

/-- The exact tangent angle, in degrees. -/
theorem tangentAngle_exact (R : k.Reachable) (p : ℝ) (d : Direction) :
    k.tangentAngle p d = if d = .negative then -(slopeAngle k p * (180 / Units.kPi)) else slopeAngle k p * (180 / Units.kPi) := by
  unfold Catenary2d.tangentAngle
  rw [R.refresh_eq]
  unfold Catenary2d.tangentAngleBody slopeAngle
  simp only [Verif.toDegrees_eq]
  split
  · rw [mul_neg_one]; rfl
  · rfl

theorem tangentVector_exact (R : k.Reachable) (p : ℝ) :
    k.tangentVector p .positive = ⟨Real.cos (slopeAngle k p), Real.sin (slopeAngle k p)⟩ ∧
    k.tangentVector p .negative = ⟨-Real.cos (slopeAngle k p), -Real.sin (slopeAngle k p)⟩ := by
  unfold Catenary2d.tangentVector
  rw [R.refresh_eq]
  simp only [Catenary2d.tangentVectorBody, Catenary2d.tangentAngleBody, reduceCtorEq, if_false, if_true, one_mul]
  have e : ∀ r, toRadians (toDegrees r * -1) = -r := by
    intro r
    rw [Verif.toDegrees_eq, Verif.toRadians_eq]
    have : Units.kPi ≠ 0 := by unfold Units.kPi; norm_num
    field_simp
  rw [toRadians_toDegrees, e, Real.cos_neg, Real.sin_neg]
  exact ⟨rfl, rfl⟩

theorem Span.vector (h : Span k) {p : ℝ} (p0 : 0 ≤ p) (p1 : p ≤ 1) :
    (|(Curve.tangentVector L (Curve.update L.toCurveLibrary k) p .positive).x - Real.cos (slopeAngle k p)| ≤ 3700 * u ∧
    |(Curve.tangentVector L (Curve.update L.toCurveLibrary k) p .positive).y - Real.sin (slopeAngle k p)| ≤ 3700 * u) ∧
    |(Curve.tangentVector L (Curve.update L.toCurveLibrary k) p .negative).x + Real.cos (slopeAngle k p)| ≤ 3700 * u ∧
    |(Curve.tangentVector L (Curve.update L.toCurveLibrary k) p .negative).y + Real.sin (slopeAngle k p)| ≤ 3700 * u := by
  obtain ⟨h1, h2⟩ := h.angle (L := L) p0 p1
  refine ⟨lib_direction h2 h1, ?_⟩
  have e : Curve.tangentAngle L (Curve.update L.toCurveLibrary k) p .negative =
    -Curve.tangentAngle L (Curve.update L.toCurveLibrary k) p .positive := by simp [Curve.tangentAngle]
  have n := lib_direction (L := L) (a := Curve.tangentAngle L (Curve.update L.toCurveLibrary k) p .negative)
    (θ := -slopeAngle k p) (by rw [e, abs_neg]; exact h2) (by
      rw [e, neg_mul, neg_sub_neg, abs_sub_comm]; exact h1)
  rw [Real.cos_neg, Real.sin_neg, sub_neg_eq_add] at n
  refine ⟨?_, n.2⟩
  have := n.1
  rw [abs_sub_comm] at this
  show |-L.cos _ + _| ≤ _
  rw [neg_add_eq_sub]
  exact this

/-- Scaling a component of a unit vector by a tension. -/
theorem scale_near {v c t T H : ℝ} (hH : (2 : ℝ) ^ (-200 : ℤ) ≤ H) (hv : |v - c| ≤ 3700 * u) (hc : |c| ≤ 1)
    (ht : |t - T| ≤ 4096 * u * H) (hT : |T| ≤ 4 * H) : |rnd (v * t) - c * T| ≤ 32768 * u * H := by
  have hu0 := u_pos
  have hu := u_small
  have hH0 : 0 < H := (two_zpow_pos _).trans_le hH
  have e := rnd_error_le (v * t)
  have ti := tiny_le' hH
  generalize (2 : ℝ) ^ (-1075 : ℤ) = η at *
  have uH : 0 < u * H := mul_pos hu0 hH0
  have i : v * t - c * T = (v - c) * T + (v - c) * (t - T) + c * (t - T) := by ring
  have i1 : |(v - c) * T| ≤ 3700 * u * (4 * H) := by
    rw [abs_mul]; exact mul_le_mul hv hT (abs_nonneg _) (by positivity)
  have i2 : |(v - c) * (t - T)| ≤ 3700 * u * (4096 * u * H) := by
    rw [abs_mul]; exact mul_le_mul hv ht (abs_nonneg _) (by positivity)
  have i3 : |c * (t - T)| ≤ 1 * (4096 * u * H) := by
    rw [abs_mul]; exact mul_le_mul hc ht (abs_nonneg _) (by norm_num)
  have uu : u * u * H ≤ 1e-15 * (u * H) := by nlinarith
  have i4 : |v * t - c * T| ≤ 19000 * (u * H) := by
    rw [i]
    have := abs_add_three ((v - c) * T) ((v - c) * (t - T)) (c * (t - T))
    nlinarith
  have i5 : |c * T| ≤ 1 * (4 * H) := by
    rw [abs_mul]; exact mul_le_mul hc hT (abs_nonneg _) (by norm_num)
  have i6 : |v * t| ≤ 5 * H := by
    have := abs_sub_abs_le_abs_sub (v * t) (c * T)
    nlinarith
  have i7 : u * |v * t| ≤ u * (5 * H) := mul_le_mul_of_nonneg_left i6 hu0.le
  have := abs_sub_le (rnd (v * t)) (v * t) (c * T)
  linarith

theorem slopeAngle_cos (k : Catenary2d) (p : ℝ) : Real.cos (slopeAngle k p) *
    Real.cosh (k.update.coordinateX p / (k.tensionHorizontal / k.weightUnit)) = 1 := by
  unfold slopeAngle
  rw [Real.cos_arctan, ← Real.cosh_sq', Real.sqrt_sq (Real.cosh_pos _).le]
  exact one_div_mul_cancel (Real.cosh_pos _).ne'

theorem tension_exact (R : k.Reachable) (p : ℝ) : k.tension p = k.tensionHorizontal *
    Real.cosh (k.update.coordinateX p / (k.tensionHorizontal / k.weightUnit)) := by
  unfold Catenary2d.tension
  rw [R.refresh_eq]
  rfl

theorem Span.tension_le (h : Span k) (R : k.Reachable) {p : ℝ} (p0 : 0 ≤ p) (p1 : p ≤ 1) :
    |k.tension p| ≤ 4 * k.tensionHorizontal ∧ 0 < k.tension p := by
  have P := h.positive.h
  obtain ⟨x, xa⟩ := h.position (L := roundedCurveLibrary) p0 p1
  obtain ⟨d1, d2⟩ := h.arg x xa (by norm_num) (by norm_num)
  rw [tension_exact R]
  have := cosh_le_four (d2.trans (by norm_num))
  have c := Real.cosh_pos (k.update.coordinateX p / (k.tensionHorizontal / k.weightUnit))
  rw [abs_of_pos (mul_pos P c)]
  exact ⟨by nlinarith, mul_pos P c⟩

/-- The sum of the tensions of the points. -/
theorem sum_near {f g : ℕ → ℝ} {e H : ℝ} {N : ℕ} (hH : (2 : ℝ) ^ (-200 : ℤ) ≤ H) (hg : ∀ i < N, |g i| ≤ 4 * H)
    (hf : ∀ i < N, |f i - g i| ≤ e) (he : e + 5 * N * (u * H) ≤ H / 2) :
    ∀ (j i : ℕ) (s : ℝ), i + j = N → |s - ((List.range i).map g).sum| ≤ i * (e + 5 * N * (u * H)) →
      |((List.range i).map g).sum| ≤ i * (4 * H) →
      |Curve.sumLoop f i j s - ((List.range N).map g).sum| ≤ N * (e + 5 * N * (u * H)) := by
  have hu0 := u_pos
  have hu := u_small
  have hH0 : 0 < H := (two_zpow_pos _).trans_le hH
  have uH : 0 < u * H := mul_pos hu0 hH0
  have ti := tiny_le' hH
  generalize (2 : ℝ) ^ (-1075 : ℤ) = η at ti
  intro j
  induction j with
  | zero =>
    intro i s hi h1 _
    rw [Nat.add_zero] at hi
    subst hi
    exact h1
  | succ j ih =>
    intro i s hi h1 h2
    have iN : i < N := by omega
    have g1 := hg i iN
    have f1 := hf i iN
    have es : ((List.range (i + 1)).map g).sum = ((List.range i).map g).sum + g i := by
      rw [List.range_succ, List.map_append, List.sum_append]; simp
    refine ih (i + 1) _ (by omega) ?_ ?_
    · rw [es]
      generalize ((List.range i).map g).sum = S at *
      have i0 : (0 : ℝ) ≤ i := i.cast_nonneg
      have iN' : (i : ℝ) + 1 ≤ N := by exact_mod_cast iN
      have e0 : 0 ≤ e := (abs_nonneg _).trans f1
      have a1 : |s + f i - (S + g i)| ≤ i * (e + 5 * N * (u * H)) + e := by
        have := abs_add_le (s - S) (f i - g i)
        rw [show s + f i - (S + g i) = s - S + (f i - g i) by ring]
        linarith
      have a2 : |s + f i| ≤ (i + 1) * (4.5 * H) := by
        have b1 := abs_sub_abs_le_abs_sub (s + f i) (S + g i)
        have b2 := abs_add_le S (g i)
        have b3 : i * (e + 5 * N * (u * H)) ≤ i * (H / 2) := mul_le_mul_of_nonneg_left he i0
        have b4 : 0 ≤ 5 * (N : ℝ) * (u * H) := by positivity
        nlinarith
      have r := rnd_error_le (s + f i)
      have r' : |rnd (s + f i) - (s + f i)| ≤ u * ((i + 1) * (4.5 * H)) + u * u * H := by
        refine r.trans (add_le_add (mul_le_mul_of_nonneg_left a2 hu0.le) (tiny_le' hH))
      have uu : u * u * H ≤ 0.5 * (u * H) := by nlinarith
      have a3 : u * ((i + 1) * (4.5 * H)) ≤ 4.5 * N * (u * H) := by
        have := mul_le_mul_of_nonneg_right iN' uH.le
        linarith
      have N1 : (1 : ℝ) ≤ N := by linarith
      have a4 : 0.5 * (u * H) ≤ 0.5 * N * (u * H) := by nlinarith
      have := abs_sub_le (rnd (s + f i)) (s + f i) (S + g i)
      push_cast
      linarith
    · rw [es]
      have := abs_add_le ((List.range i).map g).sum (g i)
      push_cast
      linarith

/-- The tension does not change much between close points. -/
theorem Span.tension_close (h : Span k) (R : k.Reachable) {p q : ℝ} (p0 : 0 ≤ p) (p1 : p ≤ 1) (q0 : 0 ≤ q) (q1 : q ≤ 1) :
    |k.tension p - k.tension q| ≤ 32 * k.tensionHorizontal * |p - q| := by
  have hC0 := (two_zpow_pos _).trans_le h.constant_ge
  have P := h.positive.h
  obtain ⟨x, xa⟩ := h.position (L := roundedCurveLibrary) p0 p1
  obtain ⟨d1, d2⟩ := h.arg x xa (by norm_num) (by norm_num)
  obtain ⟨y, ya⟩ := h.position (L := roundedCurveLibrary) q0 q1
  obtain ⟨c1, c2⟩ := h.arg y ya (by norm_num) (by norm_num)
  obtain ⟨l, n, a1, a2, a3⟩ := h.lengths (L := roundedCurveLibrary)
  rw [tension_exact R, tension_exact R, ← mul_sub, abs_mul, abs_of_pos P]
  have e1 := cosh_near (d2.trans (by norm_num)) (c2.trans (by norm_num) : _ ≤ (2.02 : ℝ))
  have e2 : |k.update.coordinateX p / (k.tensionHorizontal / k.weightUnit) -
      k.update.coordinateX q / (k.tensionHorizontal / k.weightUnit)| ≤ 8 * |p - q| := by
    have t : ∀ p, k.update.coordinateX p / (k.tensionHorizontal / k.weightUnit) =
        Real.arsinh ((p * k.update.length + k.update.lengthLeft) / (k.tensionHorizontal / k.weightUnit)) := fun p =>
      mul_div_cancel_left₀ _ hC0.ne'
    rw [t, t]
    refine (arsinh_near _ _).trans ?_
    rw [← sub_div, abs_div, abs_of_pos hC0, div_le_iff₀ hC0,
      show p * k.update.length + k.update.lengthLeft - (q * k.update.length + k.update.lengthLeft) =
        (p - q) * k.update.length by ring, abs_mul]
    have := mul_le_mul_of_nonneg_left a3 (abs_nonneg (p - q))
    linarith
  have := mul_le_mul_of_nonneg_left (e1.trans (mul_le_mul_of_nonneg_left e2 (by norm_num))) P.le
  linarith

/-- The product of the hyperbolic functions. -/
theorem product_near {s c S C : ℝ} (hs : Near 1 270 s S) (hc : Near 1 270 c C) (hS : |S| ≤ 4) (hC : |C| ≤ 4) :
    Near 1 2180 (rnd (s * c)) (S * C) := by
  have hu0 := u_pos
  have hu := u_small
  have p : Near 1 2160.01 (s * c) (S * C) := by
    unfold Near at *
    have i : s * c - S * C = (s - S) * C + (s - S) * (c - C) + S * (c - C) := by ring
    have i1 : |(s - S) * C| ≤ 270 * u * 1 * 4 := by
      rw [abs_mul]; exact mul_le_mul hs hC (abs_nonneg _) (by positivity)
    have i2 : |(s - S) * (c - C)| ≤ 270 * u * 1 * (270 * u * 1) := by
      rw [abs_mul]; exact mul_le_mul hs hc (abs_nonneg _) (by positivity)
    have i3 : |S * (c - C)| ≤ 4 * (270 * u * 1) := by
      rw [abs_mul]; exact mul_le_mul hS hc (abs_nonneg _) (by norm_num)
    rw [i]
    have := abs_add_three ((s - S) * C) ((s - S) * (c - C)) (S * (c - C))
    nlinarith
  refine (p.rnd one_ok (r := 16) ?_ (by norm_num) (by norm_num)).mono one_pos (by norm_num)
  rw [abs_mul]
  calc _ ≤ (4 : ℝ) * 4 := mul_le_mul hS hC (abs_nonneg _) (by norm_num)
    _ = _ := by norm_num

/-- The bracket of the closed form. -/
theorem Span.bracket (h : Span k) :
    Near 1 4600 (rnd (rnd (
      rnd (L.sinh (rnd ((Curve.update L.toCurveLibrary k).right.x / Curve.constant k)) *
        L.cosh (rnd ((Curve.update L.toCurveLibrary k).right.x / Curve.constant k))) -
      rnd (L.sinh (rnd ((Curve.update L.toCurveLibrary k).left.x / Curve.constant k)) *
        L.cosh (rnd ((Curve.update L.toCurveLibrary k).left.x / Curve.constant k)))) +
      rnd (rnd ((Curve.update L.toCurveLibrary k).right.x - (Curve.update L.toCurveLibrary k).left.x) / Curve.constant k)))
      (Real.sinh (k.update.right.x / (k.tensionHorizontal / k.weightUnit)) *
        Real.cosh (k.update.right.x / (k.tensionHorizontal / k.weightUnit)) -
      Real.sinh (k.update.left.x / (k.tensionHorizontal / k.weightUnit)) *
        Real.cosh (k.update.left.x / (k.tensionHorizontal / k.weightUnit)) +
      (k.update.right.x - k.update.left.x) / (k.tensionHorizontal / k.weightUnit)) := by
  have hC0 := (two_zpow_pos _).trans_le h.constant_ge
  obtain ⟨l, r⟩ := h.ends (L := L.toCurveLibrary)
  obtain ⟨la, ra⟩ := h.ends_abs
  obtain ⟨l1, l2⟩ := h.arg l la (by norm_num) (by norm_num)
  obtain ⟨r1, r2⟩ := h.arg r ra (by norm_num) (by norm_num)
  have sl := (lib_sinh_near L.toCurveLibrary l1 (rnd_isDouble _) l2 (by norm_num) (by norm_num)).mono one_pos
    (by norm_num : _ ≤ (270 : ℝ))
  have cl := (lib_cosh_near L.toCurveLibrary l1 (rnd_isDouble _) l2 (by norm_num) (by norm_num)).mono one_pos
    (by norm_num : _ ≤ (270 : ℝ))
  have sr := (lib_sinh_near L.toCurveLibrary r1 (rnd_isDouble _) r2 (by norm_num) (by norm_num)).mono one_pos
    (by norm_num : _ ≤ (270 : ℝ))
  have cr := (lib_cosh_near L.toCurveLibrary r1 (rnd_isDouble _) r2 (by norm_num) (by norm_num)).mono one_pos
    (by norm_num : _ ≤ (270 : ℝ))
  have ch : ∀ x : ℝ, |x| ≤ 2 → |Real.cosh x| ≤ 4 ∧ |Real.sinh x| ≤ 4 := by
    intro x hx
    have a := cosh_le_four (hx.trans (by norm_num))
    have b := Real.sinh_lt_cosh x
    have c := Real.sinh_lt_cosh (-x)
    rw [Real.sinh_neg, Real.cosh_neg] at c
    have d := Real.cosh_pos x
    constructor <;> rw [_root_.abs_le] <;> constructor <;> linarith
  have pl := product_near sl cl (ch _ l2).2 (ch _ l2).1
  have pr := product_near sr cr (ch _ r2).2 (ch _ r2).1
  have pb : ∀ x : ℝ, |x| ≤ 2 → |Real.sinh x * Real.cosh x| ≤ 16 := by
    intro x hx
    rw [abs_mul]
    calc _ ≤ (4 : ℝ) * 4 := mul_le_mul (ch x hx).2 (ch x hx).1 (abs_nonneg _) (by norm_num)
      _ = _ := by norm_num
  have dx : |k.update.right.x - k.update.left.x| ≤ 4 * (k.tensionHorizontal / k.weightUnit) := (abs_sub _ _).trans (by linarith)
  have d := ((r.sub l).rnd h.constant_ge dx (by norm_num) (by norm_num)).div h.constant_ge h.constant dx (by norm_num)
    (by norm_num)
  have dd : |(k.update.right.x - k.update.left.x) / (k.tensionHorizontal / k.weightUnit)| ≤ 4 := by
    rw [abs_div, abs_of_pos hC0, div_le_iff₀ hC0]; exact dx
  have b1 := pb _ r2
  have b2 := pb _ l2
  have s1 := (pr.sub pl).rnd one_ok (r := 32) ((abs_sub _ _).trans (by linarith)) (by norm_num) (by norm_num)
  have s2 := (s1.add d).rnd one_ok (r := 36) ((abs_add_le _ _).trans
    (by have := abs_sub (Real.sinh (k.update.right.x / (k.tensionHorizontal / k.weightUnit)) *
          Real.cosh (k.update.right.x / (k.tensionHorizontal / k.weightUnit)))
          (Real.sinh (k.update.left.x / (k.tensionHorizontal / k.weightUnit)) *
        Real.cosh (k.update.left.x / (k.tensionHorizontal / k.weightUnit)))
        linarith)) (by norm_num) (by norm_num)
  exact s2.mono one_pos (by norm_num)

theorem Span.length_ge (h : Span k) : k.spacing.x ≤ k.update.length := by
  have hC0 := (two_zpow_pos _).trans_le h.constant_ge
  rw [Catenary2d.length_eq h.positive]
  obtain ⟨z0, -, -⟩ := h.z_pos
  have i1 := Real.self_le_sinh_iff.mpr z0.le
  have i2 := Real.one_le_cosh k.mid
  have i3 : k.spacing.x = k.tensionHorizontal / k.weightUnit * (2 * 1 * k.z) := by
    unfold Catenary2d.z; field_simp [h.positive.h.ne', h.positive.w.ne']
  rw [i3]
  refine mul_le_mul_of_nonneg_left ?_ hC0.le
  exact mul_le_mul (by linarith) i1 z0.le (by linarith)

/-- Replacing the length and the bracket. -/
theorem average_near {H C l m a B S A : ℝ} (hH : 0 < H) (hC : 0 < C) (ha : 0 < a) (hl : a ≤ l) (hm : |m - l| ≤ 569 * u * C)
    (taut : 569 * u * C ≤ 0.1 * a) (hS : |S - B| ≤ 4600 * u) (hA : H * C / (2 * l) * B = A) (hA4 : |A| ≤ 4 * H) :
    |H * C / (2 * m) * S - A| ≤ 5200 * u * (H * C / a) := by
  have hu0 := u_pos
  have m1 : 0.9 * l ≤ m := by
    have := (_root_.abs_le.mp hm).1
    linarith
  have m0 : 0 < m := by linarith
  have l0 : 0 < l := by linarith
  have e : H * C / (2 * m) * S - A = H * C / (2 * m) * (S - B) + A * ((l - m) / m) := by
    rw [← hA]; field_simp; ring
  have e1 : |H * C / (2 * m) * (S - B)| ≤ H * C / (1.8 * a) * (4600 * u) := by
    rw [abs_mul]
    refine mul_le_mul ?_ hS (abs_nonneg _) (by positivity)
    rw [abs_of_pos (by positivity)]
    exact div_le_div_of_nonneg_left (by positivity) (by positivity) (by linarith)
  have e2 : |A * ((l - m) / m)| ≤ 4 * H * (569 * u * C / (0.9 * a)) := by
    rw [abs_mul]
    refine mul_le_mul hA4 ?_ (abs_nonneg _) (by positivity)
    rw [abs_div, abs_of_pos m0, abs_sub_comm]
    exact div_le_div₀ (by positivity) hm (by positivity) (by linarith)
  have e3 : H * C / (1.8 * a) * (4600 * u) + 4 * H * (569 * u * C / (0.9 * a)) =
      (4600 / 1.8 + 4 * 569 / 0.9) * (u * (H * C / a)) := by field_simp
  rw [e]
  have := abs_add_le (H * C / (2 * m) * (S - B)) (A * ((l - m) / m))
  have p : 0 < u * (H * C / a) := by positivity
  have q : (4600 / 1.8 + 4 * 569 / 0.9 : ℝ) ≤ 5200 := by norm_num
  nlinarith

end Inclined

/-- **C192** (tangents): at every position along the curve the computed angle of the tangent is within 2^-35 degrees of
the exact one, and each component of the computed unit vector within 2^-41. -/
theorem C192_tangent_partial (R : k.Reachable) (h : Span k) {p : ℝ} (p0 : 0 ≤ p) (p1 : p ≤ 1) (d : Direction) :
    |Curve.tangentAngle L (Curve.update L.toCurveLibrary k) p d - k.tangentAngle p d| ≤ 2 ^ (-35 : ℤ) ∧
    |(Curve.tangentVector L (Curve.update L.toCurveLibrary k) p d).x - (k.tangentVector p d).x| ≤ 2 ^ (-41 : ℤ) ∧
    |(Curve.tangentVector L (Curve.update L.toCurveLibrary k) p d).y - (k.tangentVector p d).y| ≤ 2 ^ (-41 : ℤ) := by
  have hu := u_pos
  have i1 : (2 : ℝ) ^ (-35 : ℤ) = 262144 * u := by unfold u; norm_num
  have i2 : (2 : ℝ) ^ (-41 : ℤ) = 4096 * u := by unfold u; norm_num
  rw [i1, i2]
  obtain ⟨a, -⟩ := h.angle (L := L) p0 p1
  obtain ⟨⟨v1, v2⟩, v3, v4⟩ := h.vector (L := L) p0 p1
  obtain ⟨t1, t2⟩ := tangentVector_exact R p
  rw [tangentAngle_exact R]
  cases d
  case null =>
    refine ⟨?_, ?_, ?_⟩
    · exact le_trans a (by linarith)
    all_goals
      show |(-999999 : ℝ) - -999999| ≤ _
      rw [sub_self, abs_zero]; positivity
  case negative =>
    rw [t2]
    refine ⟨?_, ?_, ?_⟩
    · have e : Curve.tangentAngle L (Curve.update L.toCurveLibrary k) p .negative =
        -Curve.tangentAngle L (Curve.update L.toCurveLibrary k) p .positive := by simp [Curve.tangentAngle]
      rw [e, if_pos rfl, neg_sub_neg, abs_sub_comm]
      exact le_trans a (by linarith)
    · show |_ - -_| ≤ _
      rw [sub_neg_eq_add]; linarith
    · show |_ - -_| ≤ _
      rw [sub_neg_eq_add]; linarith
  case positive =>
    rw [t1]
    refine ⟨le_trans a (by linarith), le_trans v1 (by linarith), le_trans v2 (by linarith)⟩

/-- **C192** (tension vectors): each component of the computed tension vector is within 2^-38 of the horizontal tension
of the exact one; its horizontal component is within 2^-38 of the horizontal tension itself. -/
theorem C192_vector_partial (R : k.Reachable) (h : Span k) {p : ℝ} (p0 : 0 ≤ p) (p1 : p ≤ 1) :
    (∀ d, d ≠ .null →
      |(Curve.tensionVector L (Curve.update L.toCurveLibrary k) p d).x - (k.tensionVector p d).x| ≤
        2 ^ (-38 : ℤ) * k.tensionHorizontal ∧
      |(Curve.tensionVector L (Curve.update L.toCurveLibrary k) p d).y - (k.tensionVector p d).y| ≤
        2 ^ (-38 : ℤ) * k.tensionHorizontal) ∧
    |(Curve.tensionVector L (Curve.update L.toCurveLibrary k) p .positive).x - k.tensionHorizontal| ≤
      2 ^ (-38 : ℤ) * k.tensionHorizontal ∧
    |(Curve.tensionVector L (Curve.update L.toCurveLibrary k) p .negative).x + k.tensionHorizontal| ≤
      2 ^ (-38 : ℤ) * k.tensionHorizontal := by
  have hu := u_pos
  have hh : (2 : ℝ) ^ (-200 : ℤ) ≤ k.tensionHorizontal := (two_zpow_le (by norm_num)).trans h.tension.1
  have i1 : (2 : ℝ) ^ (-38 : ℤ) = 32768 * u := by unfold u; norm_num
  have i2 : (2 : ℝ) ^ (-41 : ℤ) = 4096 * u := by unfold u; norm_num
  obtain ⟨⟨v1, v2⟩, v3, v4⟩ := h.vector (L := L) p0 p1
  obtain ⟨t1, t2⟩ := tangentVector_exact R p
  have t := (C191_position_partial (L := L.toCurveLibrary) R h p0 p1).2.2.2
  obtain ⟨T, -⟩ := h.tension_le R p0 p1
  rw [i2] at t
  rw [i1]
  have ex : ∀ d, k.tensionVector p d = ⟨(k.tangentVector p d).x * k.tension p, (k.tangentVector p d).y * k.tension p⟩ :=
    fun d => rfl
  have c : Real.cos (slopeAngle k p) * k.tension p = k.tensionHorizontal := by
    rw [tension_exact R]
    have := slopeAngle_cos k p
    calc _ = k.tensionHorizontal * (Real.cos (slopeAngle k p) *
        Real.cosh (k.update.coordinateX p / (k.tensionHorizontal / k.weightUnit))) := by ring
      _ = _ := by rw [this, mul_one]
  have px := scale_near hh v1 (Real.abs_cos_le_one _) t T
  have py := scale_near hh v2 (Real.abs_sin_le_one _) t T
  have nx := scale_near hh (c := -Real.cos (slopeAngle k p)) (by rw [sub_neg_eq_add]; exact v3)
    (by rw [abs_neg]; exact Real.abs_cos_le_one _) t T
  have ny := scale_near hh (c := -Real.sin (slopeAngle k p)) (by rw [sub_neg_eq_add]; exact v4)
    (by rw [abs_neg]; exact Real.abs_sin_le_one _) t T
  refine ⟨?_, ?_, ?_⟩
  · intro d hd
    rw [ex]
    cases d
    case null => exact absurd rfl hd
    case negative => rw [t2]; exact ⟨nx, ny⟩
    case positive => rw [t1]; exact ⟨px, py⟩
  · rw [c] at px; exact px
  · rw [neg_mul, c, sub_neg_eq_add] at nx; exact nx

/-- **C192** (largest tension): the computed largest tension is within 2^-41 of the horizontal tension of the exact one,
and no computed tension along the curve exceeds it by more than 2^-40 of the horizontal tension. -/
theorem C192_max_partial (R : k.Reachable) (h : Span k) :
    |Curve.tensionMax L (Curve.update L.toCurveLibrary k) - k.tensionMax| ≤ 2 ^ (-41 : ℤ) * k.tensionHorizontal ∧
    ∀ p, 0 ≤ p → p ≤ 1 → Curve.tension L.toCurveLibrary (Curve.update L.toCurveLibrary k) p ≤
      Curve.tensionMax L (Curve.update L.toCurveLibrary k) + 2 ^ (-40 : ℤ) * k.tensionHorizontal := by
  have hu := u_pos
  have P := h.positive
  have i1 : (2 : ℝ) ^ (-40 : ℤ) = 8192 * u := by unfold u; norm_num
  have i2 : (2 : ℝ) ^ (-41 : ℤ) = 4096 * u := by unfold u; norm_num
  have t := fun p (p0 : 0 ≤ p) (p1 : p ≤ 1) => (C191_position_partial (L := L.toCurveLibrary) R h p0 p1).2.2.2
  have e : |Curve.tensionMax L (Curve.update L.toCurveLibrary k) - k.tensionMax| ≤ 2 ^ (-41 : ℤ) * k.tensionHorizontal := by
    have ex : k.tensionMax = if k.spacing.y ≤ 0 then k.tension 0 else k.tension 1 := by
      unfold Catenary2d.tensionMax Catenary2d.tension
      rw [R.refresh_eq]
      rfl
    rw [ex]
    unfold Curve.tensionMax
    show |(if k.spacing.y ≤ 0 then _ else _) - _| ≤ _
    split
    · exact t 0 le_rfl (by norm_num)
    · exact t 1 (by norm_num) le_rfl
  refine ⟨e, fun p p0 p1 => ?_⟩
  have a := abs_le.mp e
  have b := abs_le.mp (t p p0 p1)
  have c := C45_tension_le_max R P p0 p1
  rw [i2] at a b
  rw [i1]
  linarith

/-- **C192** (average over points): for every number of points of an `int` but the largest, the computed average is
within 2^-40 of the horizontal tension, and 2^-50 of it for each point, of the exact one. -/
theorem C192_points_partial (R : k.Reachable) (h : Span k) {n : ℤ} (n0 : 0 < n) (n1 : n < 2 ^ 31 - 1) :
    |Curve.tensionAverage L (Curve.update L.toCurveLibrary k) n - k.tensionAverage n| ≤
      (2 ^ (-40 : ℤ) + 2 ^ (-50 : ℤ) * n) * k.tensionHorizontal := by
  have hu0 := u_pos
  have hu := u_small
  have H0 := h.positive.h
  have uH : 0 < u * k.tensionHorizontal := mul_pos hu0 H0
  have hh : (2 : ℝ) ^ (-200 : ℤ) ≤ k.tensionHorizontal := (two_zpow_le (by norm_num)).trans h.tension.1
  have i0 : (2 : ℝ) ^ (-50 : ℤ) = 8 * u := by unfold u; norm_num
  have i1 : (2 : ℝ) ^ (-40 : ℤ) = 8192 * u := by unfold u; norm_num
  have i2 : (2 : ℝ) ^ (-41 : ℤ) = 4096 * u := by unfold u; norm_num
  obtain ⟨N, rfl⟩ : ∃ N : ℕ, n = N := ⟨n.toNat, (Int.toNat_of_nonneg n0.le).symm⟩
  have N0 : (1 : ℝ) ≤ N := by exact_mod_cast n0
  have N1 : (N : ℝ) ≤ 2147483648 := by exact_mod_cast (by omega : N ≤ 2147483648)
  have N2 : ¬ (N : ℤ) = 0 := by omega
  -- every point
  have point : ∀ i < N + 1, |Curve.tension L.toCurveLibrary (Curve.update L.toCurveLibrary k) (rnd ((i : ℝ) / (N : ℝ))) -
      k.tension ((i : ℝ) / (N : ℝ))| ≤ 4200 * (u * k.tensionHorizontal) := by
    intro i hi
    have q0 : 0 ≤ (i : ℝ) / (N : ℝ) := by positivity
    have q1 : (i : ℝ) / (N : ℝ) ≤ 1 := by
      rw [div_le_one (by linarith)]; exact_mod_cast (by omega : i ≤ N)
    have r0 := rnd_nonneg q0
    have r1 := rnd_le isDouble_one q1
    have a := (C191_position_partial (L := L.toCurveLibrary) R h r0 r1).2.2.2
    have b := h.tension_close R r0 r1 q0 q1
    have c := rnd_error_le ((i : ℝ) / (N : ℝ))
    have ti := tiny_le_u.2
    have c' : |rnd ((i : ℝ) / (N : ℝ)) - (i : ℝ) / (N : ℝ)| ≤ 2 * u := by
      rw [abs_of_nonneg q0] at c
      refine c.trans ?_
      nlinarith
    rw [i2] at a
    have d := mul_le_mul_of_nonneg_left c' (by linarith : 0 ≤ 32 * k.tensionHorizontal)
    have := abs_sub_le (Curve.tension L.toCurveLibrary (Curve.update L.toCurveLibrary k) (rnd ((i : ℝ) / (N : ℝ))))
      (k.tension (rnd ((i : ℝ) / (N : ℝ)))) (k.tension ((i : ℝ) / (N : ℝ)))
    linarith
  have bound : ∀ i < N + 1, |k.tension ((i : ℝ) / (N : ℝ))| ≤ 4 * k.tensionHorizontal := by
    intro i hi
    refine (h.tension_le R (by positivity) ?_).1
    rw [div_le_one (by linarith)]; exact_mod_cast (by omega : i ≤ N)
  have un : u * (N + 1) ≤ 0.001 := by
    have : (N : ℝ) + 1 ≤ 2147483649 := by linarith
    nlinarith
  have small : 4200 * (u * k.tensionHorizontal) + 5 * ((N + 1 : ℕ) : ℝ) * (u * k.tensionHorizontal) ≤
      k.tensionHorizontal / 2 := by
    push_cast
    have : 4200 * u + 5 * (u * (N + 1)) ≤ 1 / 2 := by linarith
    nlinarith
  have s := sum_near hh bound point small (N + 1) 0 0 (by omega) (by simp) (by simp)
  have ex : k.tensionAverage (N : ℤ) =
      ((List.range (N + 1)).map fun i : ℕ => k.tension ((i : ℝ) / (N : ℝ))).sum / ((N : ℝ) + 1) := by
    unfold Catenary2d.tensionAverage Catenary2d.tension
    rw [R.refresh_eq]
    unfold Catenary2d.tensionAverageBody
    rw [if_neg N2, if_pos n0]
    simp
  have em : Curve.tensionAverage L (Curve.update L.toCurveLibrary k) (N : ℤ) =
      rnd (Curve.sumLoop (fun i => Curve.tension L.toCurveLibrary (Curve.update L.toCurveLibrary k)
        (rnd ((i : ℝ) / (N : ℝ)))) 0 (N + 1) 0 / ((N : ℝ) + 1)) := by
    unfold Curve.tensionAverage
    rw [if_neg N2, if_pos n0]
    have : rnd (((N : ℤ) : ℝ) + 1) = (N : ℝ) + 1 := by
      have := rnd_of_isDouble (isDouble_nat (N + 1) (by omega))
      push_cast at this ⊢
      exact this
    rw [this]
    simp
  have total : |((List.range (N + 1)).map fun i : ℕ => k.tension ((i : ℝ) / (N : ℝ))).sum| ≤
      ((N : ℝ) + 1) * (4 * k.tensionHorizontal) := by
    have : ∀ m ≤ N + 1, |((List.range m).map fun i : ℕ => k.tension ((i : ℝ) / (N : ℝ))).sum| ≤
        (m : ℝ) * (4 * k.tensionHorizontal) := by
      intro m
      induction m with
      | zero => simp
      | succ m ih =>
        intro hm
        rw [List.range_succ, List.map_append, List.sum_append, List.map_singleton, List.sum_singleton]
        refine (abs_add_le _ _).trans ?_
        have := ih (by omega)
        have := bound m (by omega)
        push_cast
        linarith
    have := this (N + 1) le_rfl
    push_cast at this
    exact this
  rw [ex, em, i0, i1]
  push_cast at s ⊢
  generalize Curve.sumLoop _ 0 (N + 1) 0 = A at *
  generalize ((List.range (N + 1)).map fun i : ℕ => k.tension ((i : ℝ) / (N : ℝ))).sum = B at *
  have M : (0 : ℝ) < (N : ℝ) + 1 := by linarith
  generalize k.tensionHorizontal = H at *
  have a1 : |A / ((N : ℝ) + 1) - B / ((N : ℝ) + 1)| ≤ 4200 * (u * H) + 5 * ((N : ℝ) + 1) * (u * H) := by
    rw [← sub_div, abs_div, abs_of_pos M, div_le_iff₀ M]
    linarith
  have a2 : |B / ((N : ℝ) + 1)| ≤ 4 * H := by
    rw [abs_div, abs_of_pos M, div_le_iff₀ M]; linarith
  have a3 : |A / ((N : ℝ) + 1)| ≤ 5 * H := by
    have := abs_sub_abs_le_abs_sub (A / ((N : ℝ) + 1)) (B / ((N : ℝ) + 1))
    push_cast at small
    linarith
  have r := rnd_error_le (A / ((N : ℝ) + 1))
  have ti := tiny_le' hh
  have uu : u * u * H ≤ 0.5 * (u * H) := by nlinarith
  generalize (2 : ℝ) ^ (-1075 : ℤ) = η at *
  have r2 := mul_le_mul_of_nonneg_left a3 hu0.le
  have := abs_sub_le (rnd (A / ((N : ℝ) + 1))) (A / ((N : ℝ) + 1)) (B / ((N : ℝ) + 1))
  have uN : 0 ≤ u * H * N := by positivity
  nlinarith

/-- **C192** (average of the curve): the computed average tension is within 2^-40 of the horizontal tension, times the
ratio of H/w and the length of the span, of the exact one, unless the span is shorter than 2^-40 times H/w. -/
theorem C192_average_partial (R : k.Reachable) (h : Span k)
    (taut : 2 ^ (-40 : ℤ) * (k.tensionHorizontal / k.weightUnit) ≤ k.spacing.x) :
    |Curve.tensionAverage L (Curve.update L.toCurveLibrary k) 0 - k.tensionAverage| ≤
      2 ^ (-40 : ℤ) * (k.tensionHorizontal * (k.tensionHorizontal / k.weightUnit) / k.spacing.x) := by
  have hu0 := u_pos
  have hu := u_small
  have P := h.positive
  have H0 := P.h
  have W0 := P.w
  have a0 := P.a
  have hC0 := (two_zpow_pos _).trans_le h.constant_ge
  have i1 : (2 : ℝ) ^ (-40 : ℤ) = 8192 * u := by unfold u; norm_num
  obtain ⟨-, n, -, -, len⟩ := h.lengths (L := L.toCurveLibrary)
  have lge := h.length_ge
  have b := h.bracket (L := L)
  have ex : k.tensionAverage = k.tensionHorizontal * (k.tensionHorizontal / k.weightUnit) / (2 * k.update.length) *
      (Real.sinh (k.update.right.x / (k.tensionHorizontal / k.weightUnit)) *
        Real.cosh (k.update.right.x / (k.tensionHorizontal / k.weightUnit)) -
      Real.sinh (k.update.left.x / (k.tensionHorizontal / k.weightUnit)) *
        Real.cosh (k.update.left.x / (k.tensionHorizontal / k.weightUnit)) +
      (k.update.right.x - k.update.left.x) / (k.tensionHorizontal / k.weightUnit)) := by
    unfold Catenary2d.tensionAverage
    rw [R.refresh_eq]
    unfold Catenary2d.tensionAverageBody
    rw [if_pos rfl]
    show k.tensionHorizontal ^ 2 / (2 * k.weightUnit * k.update.length) * _ = _
    congr 1
    field_simp
  have A4 : |k.tensionAverage| ≤ 4 * k.tensionHorizontal := by
    obtain ⟨b1, b2⟩ := C46_average_bounds R P
    rw [abs_of_pos (by linarith)]
    refine b2.trans ?_
    rcases C45_max_attained R with e | e <;> rw [e]
    · exact (le_abs_self _).trans (h.tension_le R le_rfl (by norm_num)).1
    · exact (le_abs_self _).trans (h.tension_le R (by norm_num) le_rfl).1
  have taut' : 569 * u * (k.tensionHorizontal / k.weightUnit) ≤ 0.1 * k.spacing.x := by
    have : 569 * u ≤ 0.1 * (2 : ℝ) ^ (-40 : ℤ) := by unfold u; norm_num
    calc _ ≤ 0.1 * (2 : ℝ) ^ (-40 : ℤ) * (k.tensionHorizontal / k.weightUnit) := mul_le_mul_of_nonneg_right this hC0.le
      _ ≤ _ := by linarith
  unfold Near at b
  rw [mul_one] at b
  have main := average_near H0 hC0 a0 lge n taut' b ex.symm A4
  have m1 : 0.9 * k.spacing.x ≤ (Curve.update L.toCurveLibrary k).length := by
    have := (abs_le.mp n).1
    linarith
  have m0 : 0 < (Curve.update L.toCurveLibrary k).length := by linarith
  have mup : (Curve.update L.toCurveLibrary k).length ≤ 2 ^ (300 : ℤ) := by
    have u1 := (le_abs_self _).trans (n.abs_le hC0 len (by norm_num) (by norm_num))
    have u2 : k.tensionHorizontal / k.weightUnit ≤ 2 ^ (200 : ℤ) := by
      rw [div_le_iff₀ W0]
      calc k.tensionHorizontal ≤ 2 ^ (100 : ℤ) := h.tension.2
        _ = 2 ^ (200 : ℤ) * 2 ^ (-100 : ℤ) := by rw [← zpow_add₀ (by norm_num)]; norm_num
        _ ≤ _ := mul_le_mul_of_nonneg_left h.weight.1 (two_zpow_pos _).le
    rw [show (300 : ℤ) = 100 + 200 by norm_num, zpow_add₀ (by norm_num)]
    refine u1.trans (mul_le_mul (by norm_num) u2 hC0.le (two_zpow_pos _).le)
  -- the first factor
  have m2 : (2 : ℝ) ^ (-101 : ℤ) ≤ (Curve.update L.toCurveLibrary k).length := by
    refine le_trans ?_ m1
    have := h.spacing.1
    rw [show (-101 : ℤ) = -1 + -100 by norm_num, zpow_add₀ (by norm_num)]
    have e : (2 : ℝ) ^ (-1 : ℤ) ≤ 0.9 := by norm_num
    exact mul_le_mul e this (two_zpow_pos _).le (by norm_num)
  have w2 : Close 1 (rnd (2 * k.weightUnit)) (2 * k.weightUnit) := by
    refine (Close.refl _).rnd (not_tiny (e := -100) ?_ (by norm_num))
    linarith [h.weight.1]
  have w3 : (2 : ℝ) ^ (-100 : ℤ) ≤ 2 * k.weightUnit := by linarith [h.weight.1]
  have wl := zpow_mul_le w3 m2
  have c1 : Close 1 (rnd (2 * k.weightUnit) * (Curve.update L.toCurveLibrary k).length)
      (2 * k.weightUnit * (Curve.update L.toCurveLibrary k).length) := w2.mul (Close.refl _)
  have c2 := c1.rnd (not_tiny_close c1 (by norm_num) wl (by norm_num))
  have hh : (2 : ℝ) ^ (-200 : ℤ) ≤ k.tensionHorizontal ^ (2 : ℤ) := by
    have := zpow_mul_le h.tension.1 h.tension.1
    rw [zpow_two]; exact this
  have c3 := (L.pow_faithful k.tensionHorizontal 2 h.doubles.1 (.inr (by norm_num))).close (not_tiny hh (by norm_num))
  have c4 := c3.div c2
  have lower : (2 : ℝ) ^ (-602 : ℤ) ≤ k.tensionHorizontal ^ (2 : ℤ) /
      (2 * k.weightUnit * (Curve.update L.toCurveLibrary k).length) := by
    have up : 2 * k.weightUnit * (Curve.update L.toCurveLibrary k).length ≤ 2 ^ (402 : ℤ) := by
      have : 2 * k.weightUnit ≤ 2 ^ (102 : ℤ) := by
        have := h.weight.2
        rw [show (102 : ℤ) = 2 + 100 by norm_num, zpow_add₀ (by norm_num)]
        have e : (2 : ℝ) ≤ 2 ^ (2 : ℤ) := by norm_num
        exact mul_le_mul e this W0.le (by norm_num)
      rw [show (402 : ℤ) = 102 + 300 by norm_num, zpow_add₀ (by norm_num)]
      exact mul_le_mul this mup m0.le (two_zpow_pos _).le
    have := zpow_div_le hh (by positivity) up
    exact this
  have c5 := c4.rnd (not_tiny_close c4 (by norm_num) lower (by norm_num))
  have first : k.tensionHorizontal ^ (2 : ℤ) / (2 * k.weightUnit * (Curve.update L.toCurveLibrary k).length) =
      k.tensionHorizontal * (k.tensionHorizontal / k.weightUnit) / (2 * (Curve.update L.toCurveLibrary k).length) := by
    rw [zpow_two]; field_simp
  rw [first] at c5
  rw [i1]
  show |rnd (rnd (L.pow k.tensionHorizontal 2 / rnd (rnd (2 * k.weightUnit) * (Curve.update L.toCurveLibrary k).length)) *
    rnd (rnd (
      rnd (L.sinh (rnd ((Curve.update L.toCurveLibrary k).right.x / Curve.constant k)) *
        L.cosh (rnd ((Curve.update L.toCurveLibrary k).right.x / Curve.constant k))) -
      rnd (L.sinh (rnd ((Curve.update L.toCurveLibrary k).left.x / Curve.constant k)) *
        L.cosh (rnd ((Curve.update L.toCurveLibrary k).left.x / Curve.constant k)))) +
      rnd (rnd ((Curve.update L.toCurveLibrary k).right.x - (Curve.update L.toCurveLibrary k).left.x) / Curve.constant k)))
    - _| ≤ _
  clear b ex
  generalize rnd (rnd (
      rnd (L.sinh (rnd ((Curve.update L.toCurveLibrary k).right.x / Curve.constant k)) *
        L.cosh (rnd ((Curve.update L.toCurveLibrary k).right.x / Curve.constant k))) -
      rnd (L.sinh (rnd ((Curve.update L.toCurveLibrary k).left.x / Curve.constant k)) *
        L.cosh (rnd ((Curve.update L.toCurveLibrary k).left.x / Curve.constant k)))) +
      rnd (rnd ((Curve.update L.toCurveLibrary k).right.x - (Curve.update L.toCurveLibrary k).left.x) / Curve.constant k)) = S at *
  have c6 := (c5.mul (Close.refl S)).error (by norm_num)
  have ratio : k.tensionHorizontal ≤ 2 * (k.tensionHorizontal * (k.tensionHorizontal / k.weightUnit) / k.spacing.x) := by
    rw [mul_div_assoc, ← mul_assoc, mul_comm (2 : ℝ), mul_assoc]
    refine le_mul_of_one_le_right H0.le ?_
    rw [← mul_div_assoc, one_le_div a0]
    have := h.short
    linarith
  have hhH : (2 : ℝ) ^ (-200 : ℤ) ≤ k.tensionHorizontal := (two_zpow_le (by norm_num)).trans h.tension.1
  have ti := tiny_le' hhH
  generalize k.tensionHorizontal * (k.tensionHorizontal / k.weightUnit) / (2 * (Curve.update L.toCurveLibrary k).length) * S
    = V at *
  generalize rnd (L.pow k.tensionHorizontal 2 / rnd (rnd (2 * k.weightUnit) * (Curve.update L.toCurveLibrary k).length)) * S
    = U at *
  have Q0 : 0 < k.tensionHorizontal * (k.tensionHorizontal / k.weightUnit) / k.spacing.x := by positivity
  generalize k.tensionHorizontal * (k.tensionHorizontal / k.weightUnit) / k.spacing.x = Q at *
  generalize k.tensionAverage = A at *
  generalize k.tensionHorizontal = H at *
  have r := rnd_error_le U
  generalize (2 : ℝ) ^ (-1075 : ℤ) = η at *
  have uQ : u * Q ≤ 1e-15 * Q := by nlinarith
  have V1 : |V| ≤ 9 * Q := by
    have := abs_sub_abs_le_abs_sub V A
    linarith
  have V2 : |U - V| ≤ 12 * u * (9 * Q) := by
    refine c6.trans ?_
    push_cast
    have := mul_le_mul_of_nonneg_left V1 (by positivity : 0 ≤ 12 * u)
    linarith
  have U1 : |U| ≤ 10 * Q := by
    have := abs_sub_abs_le_abs_sub U V
    linarith
  have U2 := mul_le_mul_of_nonneg_left U1 hu0.le
  have uuH : u * u * H ≤ u * (2 * Q) := by
    have : u * H ≤ 2 * Q := by nlinarith
    nlinarith
  have t1 := abs_sub_le (rnd U) U V
  have t2 := abs_sub_le (rnd U) V A
  have uQ0 : 0 < u * Q := mul_pos hu0 Q0
  linarith

/-- A library with correctly rounded functions. -/
noncomputable def roundedTangentLibrary : TangentLibrary where
  toCurveLibrary := roundedCurveLibrary
  sin x := rnd (Real.sin x)
  cos x := rnd (Real.cos x)
  sin_faithful _ _ := rnd_faithful _
  cos_faithful _ _ := rnd_faithful _

/-- A span of 1000 with a rise of 100, H of 2000 and H/w of 2000: the tangent at a quarter of the cable. -/
example : |Curve.tangentAngle roundedTangentLibrary (Curve.update roundedCurveLibrary usualSpan) 0.25 .negative -
      usualSpan.tangentAngle 0.25 .negative| ≤ 1e-10 ∧
    |(Curve.tensionVector roundedTangentLibrary (Curve.update roundedCurveLibrary usualSpan) 0.25 .positive).x - 2000| ≤
      1e-8 := by
  have e : usualSpan.tensionHorizontal = 2000 := by
    simp [usualSpan, Catenary2d.setSpacing, Catenary2d.setTension, Catenary2d.setWeight]
  have h1 := (C192_tangent_partial (L := roundedTangentLibrary) usualSpan_reachable usualSpan_inclined (p := 0.25)
    (by norm_num) (by norm_num) .negative).1
  have h2 := (C192_vector_partial (L := roundedTangentLibrary) usualSpan_reachable usualSpan_inclined (p := 0.25)
    (by norm_num) (by norm_num)).2.1
  rw [e] at h2
  exact ⟨h1.trans (by norm_num), h2.trans (by norm_num)⟩

/-- The largest tension and the averages of the same span. -/
example : |Curve.tensionMax roundedTangentLibrary (Curve.update roundedCurveLibrary usualSpan) - usualSpan.tensionMax| ≤
      1e-9 ∧
    |Curve.tensionAverage roundedTangentLibrary (Curve.update roundedCurveLibrary usualSpan) 100 -
      usualSpan.tensionAverage 100| ≤ 1e-8 ∧
    |Curve.tensionAverage roundedTangentLibrary (Curve.update roundedCurveLibrary usualSpan) 0 -
      usualSpan.tensionAverage| ≤ 1e-8 := by
  have e : usualSpan.tensionHorizontal = 2000 := by
    simp [usualSpan, Catenary2d.setSpacing, Catenary2d.setTension, Catenary2d.setWeight]
  have e1 : usualSpan.tensionHorizontal / usualSpan.weightUnit = 2000 := by
    simp [usualSpan, Catenary2d.setSpacing, Catenary2d.setTension, Catenary2d.setWeight]
  have e2 : usualSpan.spacing.x = 1000 := by
    simp [usualSpan, Catenary2d.setSpacing, Catenary2d.setTension, Catenary2d.setWeight]
  have h1 := (C192_max_partial (L := roundedTangentLibrary) usualSpan_reachable usualSpan_inclined).1
  have h2 := C192_points_partial (L := roundedTangentLibrary) usualSpan_reachable usualSpan_inclined (n := 100)
    (by norm_num) (by norm_num)
  have h3 := C192_average_partial (L := roundedTangentLibrary) usualSpan_reachable usualSpan_inclined (by
    rw [e1, e2]
    norm_num)
  rw [e] at h1 h2
  rw [e1, e2, e] at h3
  exact ⟨h1.trans (by norm_num), h2.trans (by norm_num), h3.trans (by norm_num)⟩

end Verif.Props
