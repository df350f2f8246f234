import Verif.DoubleAngle
import Verif.Props.DoubleSwing
import Verif.Props.Catenary3d

/-! # Tangent angles of spans in space in `double` arithmetic (C194) -/

set_option linter.unusedSectionVars false

namespace Verif.Props

open Verif.Double Verif.Double.Curve Inclined

namespace Swing

open Traverse Real

/-- Polar angles in the right half plane. -/
theorem arg_near {z w : ℂ} (hz : 0 ≤ z.re) (hw : 0 ≤ w.re) : |z.arg - w.arg| * ‖w‖ ≤ π * ‖z - w‖ := by
  set a := z.arg
  set b := w.arg
  have ha : |a| ≤ π / 2 := Complex.abs_arg_le_pi_div_two_iff.2 hz
  have hb : |b| ≤ π / 2 := Complex.abs_arg_le_pi_div_two_iff.2 hw
  have hd : |a - b| ≤ π := (abs_sub a b).trans (by linarith)
  have e1 : ‖Complex.exp (a * Complex.I) - Complex.exp (b * Complex.I)‖ = ‖2 * Real.sin ((a - b) / 2)‖ := by
    rw [← Complex.norm_exp_I_mul_ofReal_sub_one]
    have : Complex.exp (a * Complex.I) - Complex.exp (b * Complex.I) =
        Complex.exp (b * Complex.I) * (Complex.exp (Complex.I * ((a - b : ℝ) : ℂ)) - 1) := by
      rw [mul_sub, mul_one, ← Complex.exp_add]
      congr 2
      push_cast; ring
    rw [this, norm_mul, Complex.norm_exp_ofReal_mul_I, one_mul]
  have e2 : 2 / π * |a - b| ≤ ‖2 * Real.sin ((a - b) / 2)‖ := by
    have s := Real.mul_le_sin (x := |a - b| / 2) (by positivity) (by linarith)
    have t : |Real.sin ((a - b) / 2)| = Real.sin (|a - b| / 2) := by
      rcases le_total 0 (a - b) with h | h
      · rw [abs_of_nonneg h] at *
        exact abs_of_nonneg (le_trans (by positivity) s)
      · rw [abs_of_nonpos h] at *
        rw [show -(a - b) / 2 = -((a - b) / 2) by ring, Real.sin_neg] at *
        have : 0 ≤ -Real.sin ((a - b) / 2) := le_trans (by have := Real.pi_pos; apply mul_nonneg <;> first | positivity | linarith) s
        exact abs_of_nonpos (by linarith)
    rw [Real.norm_eq_abs, abs_mul, t, abs_of_pos (by norm_num : (0 : ℝ) < 2)]
    linarith
  have e3 : ‖w‖ * ‖Complex.exp (a * Complex.I) - Complex.exp (b * Complex.I)‖ ≤ 2 * ‖z - w‖ := by
    have hz' : (‖z‖ : ℂ) * Complex.exp (a * Complex.I) = z := Complex.norm_mul_exp_arg_mul_I z
    have hw' : (‖w‖ : ℂ) * Complex.exp (b * Complex.I) = w := Complex.norm_mul_exp_arg_mul_I w
    have q : (‖w‖ : ℂ) * (Complex.exp (a * Complex.I) - Complex.exp (b * Complex.I)) =
        ((‖w‖ - ‖z‖ : ℝ) : ℂ) * Complex.exp (a * Complex.I) + (z - w) := by
      push_cast
      linear_combination hz' - hw'
    have n : ‖w‖ * ‖Complex.exp (a * Complex.I) - Complex.exp (b * Complex.I)‖ =
        ‖(‖w‖ : ℂ) * (Complex.exp (a * Complex.I) - Complex.exp (b * Complex.I))‖ := by
      rw [norm_mul, Complex.norm_real, norm_norm]
    rw [n, q]
    refine (norm_add_le _ _).trans ?_
    rw [norm_mul, Complex.norm_exp_ofReal_mul_I, mul_one, Complex.norm_real, Real.norm_eq_abs]
    have := abs_norm_sub_norm_le w z
    rw [norm_sub_rev] at this
    linarith
  rw [e1] at e3
  have m := mul_le_mul_of_nonneg_left e2 (norm_nonneg w)
  have p0 := Real.pi_pos
  have : ‖w‖ * (2 / π * |a - b|) ≤ 2 * ‖z - w‖ := m.trans e3
  have h2 := mul_le_mul_of_nonneg_left this p0.le
  rw [show π * (‖w‖ * (2 / π * |a - b|)) = 2 * (|a - b| * ‖w‖) by field_simp] at h2
  linarith

/-- The signed angle of a vector in the right half plane is its polar angle. -/
theorem angle_polar {v : V2} (hx : 0 ≤ v.x) (hv : ¬ (v.x = 0 ∧ v.y = 0)) :
    |v.angle true - Verif.toDegrees (Complex.arg ⟨v.x, v.y⟩)| ≤ 1e-12 ∧ |v.angle true| ≤ 91 := by
  have pk := pi_sub_kPi
  have kp := kPi_lt_pi
  rcases hx.lt_or_eq with h | h
  · rw [V2.angle_true_of_pos v h]
    have e : Complex.arg ⟨v.x, v.y⟩ = Real.arctan (v.y / v.x) := by
      have l := Complex.abs_arg_lt_pi_div_two_iff.2 (.inl h : 0 < (⟨v.x, v.y⟩ : ℂ).re ∨ (⟨v.x, v.y⟩ : ℂ) = 0)
      rw [abs_lt] at l
      have t := Complex.tan_arg ⟨v.x, v.y⟩
      rw [← Real.arctan_tan l.1 l.2, t]
    rw [e, sub_self, abs_zero]
    refine ⟨by norm_num, (degrees_le (abs_le.2 ⟨?_, ?_⟩)).trans (by norm_num : 57.3 * (1.58 : ℝ) ≤ 91)⟩
    · linarith [Real.neg_pi_div_two_lt_arctan (v.y / v.x), Real.pi_lt_d2]
    · linarith [Real.arctan_lt_pi_div_two (v.y / v.x), Real.pi_lt_d2]
  · have y0 : v.y ≠ 0 := fun e => hv ⟨h.symm, e⟩
    have d90 : |Verif.toDegrees (π / 2) - 90| ≤ 1e-12 := by
      rw [← toDegrees_kPi_half]
      have : Verif.toDegrees (π / 2) - Verif.toDegrees (Units.kPi / 2) = Verif.toDegrees ((π - Units.kPi) / 2) := by
        rw [Verif.toDegrees_eq, Verif.toDegrees_eq, Verif.toDegrees_eq]; ring
      rw [this]
      exact (degrees_le (b := 2e-15) (by rw [abs_of_pos (by linarith)]; linarith)).trans (by norm_num)
    have d270 : Verif.toDegrees (3 * (Units.kPi / 2)) = 270 := by
      rw [Verif.toDegrees_eq]; have := kPi_pos.ne'; field_simp; norm_num
    unfold V2.angle
    rw [if_neg hv]
    simp only [← h, true_or, if_true]
    by_cases hy : 0 < v.y
    · have e : Complex.arg ⟨0, v.y⟩ = π / 2 := by
        rw [show (⟨0, v.y⟩ : ℂ) = v.y * Complex.I by apply Complex.ext <;> simp]
        exact Complex.arg_real_mul Complex.I hy |>.trans Complex.arg_I
      rw [if_pos hy, toDegrees_kPi_half, if_neg (by norm_num), e, abs_sub_comm]
      exact ⟨d90, by norm_num⟩
    · have hy' : 0 < -v.y := by have := lt_of_le_of_ne (not_lt.1 hy) y0; linarith
      have e : Complex.arg ⟨0, v.y⟩ = -(π / 2) := by
        rw [show (⟨0, v.y⟩ : ℂ) = ((-v.y : ℝ) : ℂ) * -Complex.I by apply Complex.ext <;> simp]
        exact Complex.arg_real_mul (-Complex.I) hy' |>.trans Complex.arg_neg_I
      rw [if_neg hy, d270, if_pos ⟨by norm_num, trivial⟩, e,
        show (270 - 360 : ℝ) - Verif.toDegrees (-(π / 2)) = Verif.toDegrees (π / 2) - 90 by
          rw [Verif.toDegrees_eq, Verif.toDegrees_eq]; ring]
      exact ⟨d90, by norm_num⟩

/-- Signed angles of vectors in the right half plane, of which one is computed. -/
theorem half_angle (L : Library) {v w : V2} (hv : 0 ≤ v.x) (hw : 0 ≤ w.x) {e s : ℝ} (e0 : 0 < e) (hs : s = √(w.x ^ 2 + w.y ^ 2))
    (h1 : |v.x - w.x| ≤ e) (h2 : |v.y - w.y| ≤ e) (big : 2 * e ≤ s) :
    |Double.angle L v true - w.angle true| ≤ 256 * e / s + 3e-12 := by
  have s0 : 0 < s := by linarith
  set z : ℂ := ⟨v.x, v.y⟩
  set q : ℂ := ⟨w.x, w.y⟩
  have nq : ‖q‖ = s := by
    rw [hs, Complex.norm_def, Complex.normSq_mk]; congr 1; ring
  have nd : ‖z - q‖ ≤ 1.4143 * e := by
    have c : 0 ≤ 1.4143 * e := by positivity
    rw [Complex.norm_def, Complex.normSq_apply]
    apply Real.sqrt_le_iff.2 ⟨c, ?_⟩
    change (v.x - w.x) * (v.x - w.x) + (v.y - w.y) * (v.y - w.y) ≤ _
    have a1 := mul_self_le_mul_self (abs_nonneg _) h1
    have a2 := mul_self_le_mul_self (abs_nonneg _) h2
    rw [abs_mul_abs_self] at a1 a2
    nlinarith [mul_pos e0 e0]
  have z0 : z ≠ 0 := by
    intro h
    rw [h, zero_sub, norm_neg, nq] at nd
    linarith
  have hv0 : ¬ (v.x = 0 ∧ v.y = 0) := fun h => z0 (Complex.ext h.1 h.2)
  have hw0 : ¬ (w.x = 0 ∧ w.y = 0) := by
    intro h
    rw [hs, h.1, h.2] at s0
    simp at s0
  obtain ⟨p1, p2⟩ := angle_polar hv hv0
  obtain ⟨q1, -⟩ := angle_polar hw hw0
  obtain ⟨-, i, hi, ha⟩ := C178_accuracy L v hv0
  obtain ⟨-, r1, r2⟩ := C178_range_partial L v hv0
  have hi0 : i = 0 := by
    rw [_root_.abs_le] at hi ha p2
    have c1 : i < 1 := by
      by_contra hn
      have : (1 : ℝ) ≤ i := by exact_mod_cast not_lt.mp hn
      linarith
    have c2 : -1 < i := by
      by_contra hn
      have : (i : ℝ) ≤ -1 := by exact_mod_cast not_lt.mp hn
      linarith
    omega
  rw [hi0, Int.cast_zero, mul_zero, sub_zero] at ha
  have g := arg_near (z := z) (w := q) hv hw
  rw [nq] at g
  have g1 : |z.arg - q.arg| ≤ 4.4432 * e / s := by
    rw [le_div_iff₀ s0]
    have : π * ‖z - q‖ ≤ 3.1416 * (1.4143 * e) := mul_le_mul (by linarith [Real.pi_lt_d4]) nd (norm_nonneg _) (by norm_num)
    linarith
  have g2 := degrees_le g1
  have g3 : Verif.toDegrees (z.arg - q.arg) = Verif.toDegrees z.arg - Verif.toDegrees q.arg := by
    rw [Verif.toDegrees_eq, Verif.toDegrees_eq, Verif.toDegrees_eq]; ring
  rw [g3] at g2
  have g4 : 57.3 * (4.4432 * e / s) ≤ 256 * e / s := by
    rw [show 57.3 * (4.4432 * e / s) = 57.3 * 4.4432 * e / s by ring]
    gcongr
    norm_num
  have t1 := abs_sub_le (Double.angle L v true) (v.angle true) (w.angle true)
  have t2 := abs_sub_le (v.angle true) (Verif.toDegrees z.arg) (w.angle true)
  have t3 := abs_sub_le (Verif.toDegrees z.arg) (Verif.toDegrees q.arg) (w.angle true)
  rw [abs_sub_comm (Verif.toDegrees q.arg)] at t3
  linarith

variable {L : TangentLibrary} {k : Catenary3d}

/-- Both angles of a tangent whose components are known up to `e`. -/
theorem angles_near {p : ℝ} {d : Direction} {e b : ℝ} (e0 : 0 < e) (e1 : e ≤ 0.00001) (he : 256 * e + 5e-12 ≤ b)
    (h1 : |(Double.Span.tangentVector L k p d).x - (k.tangentVector p d).x| ≤ e)
    (h2 : |(Double.Span.tangentVector L k p d).y - (k.tangentVector p d).y| ≤ e)
    (h3 : |(Double.Span.tangentVector L k p d).z - (k.tangentVector p d).z| ≤ e)
    (b1 : |(k.tangentVector p d).x| ≤ 1) (b2 : |(k.tangentVector p d).y| ≤ 1) (b3 : |(k.tangentVector p d).z| ≤ 1) :
    let V := k.tangentVector p d
    let t := √(V.y ^ 2 + V.z ^ 2)
    let s := √(V.x ^ 2 + V.z ^ 2)
    (0.0001 ≤ t → |Double.Span.tangentAngleTransverse L k p d - k.tangentAngleTransverse p d| ≤ b / t) ∧
    (0.0001 ≤ s → |Double.Span.tangentAngleVertical L k p d - k.tangentAngleVertical p d| ≤ b / s) := by
  intro V t s
  have fin : ∀ r : ℝ, 0 < r → r ≤ 1.5 → 256 * e / r + 3e-12 ≤ b / r := by
    intro r r0 r1
    have : (3e-12 : ℝ) ≤ 5e-12 / r := by rw [le_div_iff₀ r0]; linarith
    have q : (256 * e + 5e-12) / r ≤ b / r := by gcongr
    rw [add_div] at q
    linarith
  have size : ∀ a c : ℝ, |a| ≤ 1 → |c| ≤ 1 → √(a ^ 2 + c ^ 2) ≤ 1.5 := by
    intro a c ha hc
    apply Real.sqrt_le_iff.2 ⟨by norm_num, ?_⟩
    have x1 := sq_le_one_iff_abs_le_one a |>.2 ha
    have x2 := sq_le_one_iff_abs_le_one c |>.2 hc
    linarith
  constructor
  · intro ht
    have g := half_angle L.toLibrary (v := ⟨|(Double.Span.tangentVector L k p d).z|, |(Double.Span.tangentVector L k p d).y|⟩)
      (w := ⟨|V.z|, |V.y|⟩) (abs_nonneg _) (abs_nonneg _) e0 (s := t)
      (by show t = √(|V.z| ^ 2 + |V.y| ^ 2); rw [sq_abs, sq_abs, add_comm])
      ((abs_abs_sub_abs_le _ _).trans h3) ((abs_abs_sub_abs_le _ _).trans h2) (by linarith)
    exact g.trans (fin t (by linarith) (size _ _ b2 b3))
  · intro hs
    have g := half_angle L.toLibrary (v := ⟨|(Double.Span.tangentVector L k p d).x|, (Double.Span.tangentVector L k p d).z⟩)
      (w := ⟨|V.x|, V.z⟩) (abs_nonneg _) (abs_nonneg _) e0 (s := s)
      (by show s = √(|V.x| ^ 2 + V.z ^ 2); rw [sq_abs])
      ((abs_abs_sub_abs_le _ _).trans h1) h3 (by linarith)
    exact g.trans (fin s (by linarith) (size _ _ b1 b3))

end Swing

open Swing Traverse Real

variable {L : TangentLibrary} {k : Catenary3d}

/-- **C194** (tangent angles): the computed transverse and vertical tangent angles of a span in space are within 0.0006
degrees, divided by the size of the part of the exact tangent in the plane of the angle, of the exact ones; within 4e-9
degrees divided by that size when the angle between the chords and the swing angle are clearly less or clearly more than the
0.00005 degrees below which rotations are left out.  Missing: tangents whose part in the plane is smaller than 0.0001, for
which the angle is not well defined, spans that are steeper or deeper, and infinite and undefined results. -/
theorem C194_angles_partial (hL : L.toLibrary.SquaresRounded) (R : k.Reachable) (h : BlownSpan k) {p : ℝ} (p0 : 0 ≤ p)
    (p1 : p ≤ 1) {d : Direction} (hd : d ≠ .null) :
    let r := |k.spacing.angle .xz true - k.spacing2d.angle true|
    let w := |k.swingAngle|
    let V := k.tangentVector p d
    let t := √(V.y ^ 2 + V.z ^ 2)
    let s := √(V.x ^ 2 + V.z ^ 2)
    let T := |Double.Span.tangentAngleTransverse L k p d - k.tangentAngleTransverse p d|
    let S := |Double.Span.tangentAngleVertical L k p d - k.tangentAngleVertical p d|
    (0.0001 ≤ t → T ≤ 0.0006 / t) ∧ (0.0001 ≤ s → S ≤ 0.0006 / s) ∧
    (r ≤ 0.00004 ∨ 0.00006 ≤ r → w ≤ 0.00004 ∨ 0.00006 ≤ w →
      (0.0001 ≤ t → T ≤ 4e-9 / t) ∧ (0.0001 ≤ s → S ≤ 4e-9 / s)) := by
  intro r w V t s T S
  obtain ⟨⟨a1, a2, a3⟩, fine⟩ := C194_tangent_partial hL R h p0 p1 hd
  obtain ⟨-, -, -, b1, b2, b3⟩ := tangentVector_near hL R h p0 p1 hd (δ := 8.8e-7) (fun r s hs _ => (turn_near hs).1)
  obtain ⟨g1, g2⟩ := angles_near (b := 0.0006) (by norm_num) (by norm_num) (by norm_num) a1 a2 a3 b1 b2 b3
  refine ⟨g1, g2, fun hr hw => ?_⟩
  obtain ⟨f1, f2, f3⟩ := fine hr hw
  exact angles_near (b := 4e-9) (by norm_num) (by norm_num) (by norm_num) f1 f2 f3 b1 b2 b3

/-- Everywhere on a span that is blown by wind, at least one of the two angles is computed up to 1e-8 degrees. -/
example {p : ℝ} (p0 : 0 ≤ p) (p1 : p ≤ 1) :
    |Double.Span.tangentAngleTransverse roundedTangentLibrary windySpan p .positive -
      windySpan.tangentAngleTransverse p .positive| ≤ 1e-8 ∨
    |Double.Span.tangentAngleVertical roundedTangentLibrary windySpan p .positive -
      windySpan.tangentAngleVertical p .positive| ≤ 1e-8 := by
  obtain ⟨-, c2, -, c4⟩ := windySpan_clear
  obtain ⟨a, b⟩ := (C194_angles_partial (L := roundedTangentLibrary) roundedLibrary_rounded windySpan_reachable windySpan_blown
    p0 p1 (d := .positive) (by simp)).2.2 (.inr c2) (.inr c4)
  have m : (windySpan.tangentVector p .positive).magnitude = 1 := C53_tangent_unit windySpan_reachable p .positive (by simp)
  have e := V3.magnitude_sq (windySpan.tangentVector p .positive)
  rw [m] at e
  generalize windySpan.tangentVector p .positive = V at *
  have fin : ∀ t : ℝ, 0.5 ≤ t → 4e-9 / t ≤ (1e-8 : ℝ) := by
    intro t ht
    rw [div_le_iff₀ (by linarith)]
    linarith
  rcases le_total (V.x ^ 2) (V.y ^ 2) with h | h
  · have t : 0.5 ≤ √(V.y ^ 2 + V.z ^ 2) := Real.le_sqrt_of_sq_le (by nlinarith [sq_nonneg V.z])
    exact .inl ((a (by linarith)).trans (fin _ t))
  · have t : 0.5 ≤ √(V.x ^ 2 + V.z ^ 2) := Real.le_sqrt_of_sq_le (by nlinarith [sq_nonneg V.z])
    exact .inr ((b (by linarith)).trans (fin _ t))

end Verif.Props
