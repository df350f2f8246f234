import Verif.CatenarySolverLemmas

/-!
# Support tension of a span as a function of the horizontal tension

The support tensions are `(w/2)(√((Y coth z)² + (2c cosh z)²) ± Y)` with `c = H/w` and `z = a/(2c)`: an
increasing convex function of `H`.
-/

set_option linter.unusedSectionVars false

namespace Verif

/-- `coth (α/c)` lies above its tangents as a function of `c`. -/
theorem coth_support {α x y : ℝ} (hα : 0 < α) (hx : 0 < x) (hy : 0 < y) :
    Real.cosh (α / x) / Real.sinh (α / x) + (α / x / Real.sinh (α / x)) ^ 2 / α * (y - x) ≤
      Real.cosh (α / y) / Real.sinh (α / y) := by
  set u := α / x with hu
  set v := α / y with hv
  have u0 : 0 < u := div_pos hα hx
  have v0 : 0 < v := div_pos hα hy
  have su := Real.sinh_pos_iff.2 u0
  have sv := Real.sinh_pos_iff.2 v0
  have ex : x = α / u := by rw [hu, div_div_cancel₀ hα.ne']
  have ey : y = α / v := by rw [hv, div_div_cancel₀ hα.ne']
  have e1 : (u / Real.sinh u) ^ 2 / α * (y - x) = u * (u - v) / (v * Real.sinh u ^ 2) := by
    rw [ex, ey]; field_simp
  have e2 : Real.cosh v / Real.sinh v - Real.cosh u / Real.sinh u =
      Real.sinh (u - v) / (Real.sinh u * Real.sinh v) := by
    rw [Real.sinh_sub, div_sub_div _ _ sv.ne' su.ne']
    congr 1 <;> ring
  rw [e1]
  have key : u * (u - v) / (v * Real.sinh u ^ 2) ≤ Real.sinh (u - v) / (Real.sinh u * Real.sinh v) := by
    have hcoth : ∀ t : ℝ, 0 ≤ t → Real.sinh t ≤ t * Real.cosh t := by
      intro t ht
      have := sinh_tangent ht (le_refl (0:ℝ))
      rw [Real.sinh_zero] at this
      linarith
    rw [div_le_div_iff₀ (by positivity) (by positivity)]
    have goal : u * (u - v) * Real.sinh v ≤ Real.sinh (u - v) * v * Real.sinh u := by
      rcases le_total v u with h | h
      · have d0 : 0 ≤ u - v := by linarith
        have h1 : u - v ≤ Real.sinh (u - v) := Real.self_le_sinh_iff.2 d0
        have h2 : u * Real.sinh v ≤ v * Real.sinh u := by
          rcases h.eq_or_lt with h | h
          · rw [h]
          · have := sinh_tangent v0.le u0.le
            have hc := hcoth v v0.le
            -- sinh u ≥ sinh v + cosh v (u - v)
            nlinarith
        have h3 : 0 ≤ v * Real.sinh u := by positivity
        nlinarith
      · set d := v - u with hd
        have d0 : 0 ≤ d := by linarith
        have e3 : u - v = -d := by ring
        have e4 : v = u + d := by ring
        rw [e3, Real.sinh_neg, e4, Real.sinh_add]
        have h1 := hcoth d d0
        have h2 := hcoth u u0.le
        have sd : 0 ≤ Real.sinh d := Real.sinh_nonneg_iff.2 d0
        -- u + d ≤ u d coth d + d u coth u
        have p1 : u * Real.sinh u * Real.sinh d ≤ u * Real.sinh u * (d * Real.cosh d) :=
          mul_le_mul_of_nonneg_left h1 (by positivity)
        have p2 : d * Real.sinh d * Real.sinh u ≤ d * Real.sinh d * (u * Real.cosh u) :=
          mul_le_mul_of_nonneg_left h2 (by positivity)
        nlinarith
    nlinarith [mul_le_mul_of_nonneg_right goal su.le]
  linarith

/-- A Euclidean norm of two functions above lines lies above a line. -/
theorem norm_support {P Q P' Q' p q d : ℝ} (hP : 0 ≤ P) (hQ : 0 < Q) (hp : P + P' * d ≤ p) (hq : Q + Q' * d ≤ q) :
    √(P ^ 2 + Q ^ 2) + (P * P' + Q * Q') / √(P ^ 2 + Q ^ 2) * d ≤ √(p ^ 2 + q ^ 2) := by
  have f0 : 0 < √(P ^ 2 + Q ^ 2) := Real.sqrt_pos.2 (by positivity)
  have fs : √(P ^ 2 + Q ^ 2) ^ 2 = P ^ 2 + Q ^ 2 := Real.sq_sqrt (by positivity)
  have gs : √(p ^ 2 + q ^ 2) ^ 2 = p ^ 2 + q ^ 2 := Real.sq_sqrt (by positivity)
  have g0 : 0 ≤ √(p ^ 2 + q ^ 2) := Real.sqrt_nonneg _
  set f := √(P ^ 2 + Q ^ 2)
  set g := √(p ^ 2 + q ^ 2)
  have cs : P * p + Q * q ≤ f * g := by
    apply le_of_sq_le_sq _ (by positivity)
    rw [mul_pow, fs, gs]
    nlinarith [sq_nonneg (P * q - Q * p)]
  have : f + (P * P' + Q * Q') / f * d = (f ^ 2 + (P * P' + Q * Q') * d) / f := by
    field_simp
  rw [this, div_le_iff₀ f0, fs]
  nlinarith [mul_le_mul_of_nonneg_left hp hP, mul_le_mul_of_nonneg_left hq hQ.le]

theorem norm_strict {P Q P' Q' p q d : ℝ} (hP : 0 ≤ P) (hQ : 0 < Q) (hp : P + P' * d ≤ p) (hq : Q + Q' * d < q) :
    √(P ^ 2 + Q ^ 2) + (P * P' + Q * Q') / √(P ^ 2 + Q ^ 2) * d < √(p ^ 2 + q ^ 2) := by
  have f0 : 0 < √(P ^ 2 + Q ^ 2) := Real.sqrt_pos.2 (by positivity)
  have fs : √(P ^ 2 + Q ^ 2) ^ 2 = P ^ 2 + Q ^ 2 := Real.sq_sqrt (by positivity)
  have gs : √(p ^ 2 + q ^ 2) ^ 2 = p ^ 2 + q ^ 2 := Real.sq_sqrt (by positivity)
  have g0 : 0 ≤ √(p ^ 2 + q ^ 2) := Real.sqrt_nonneg _
  set f := √(P ^ 2 + Q ^ 2)
  set g := √(p ^ 2 + q ^ 2)
  have cs : P * p + Q * q ≤ f * g := by
    apply le_of_sq_le_sq _ (by positivity)
    rw [mul_pow, fs, gs]
    nlinarith [sq_nonneg (P * q - Q * p)]
  have : f + (P * P' + Q * Q') / f * d = (f ^ 2 + (P * P' + Q * Q') * d) / f := by
    field_simp
  rw [this, div_lt_iff₀ f0, fs]
  nlinarith [mul_le_mul_of_nonneg_left hp hP, mul_lt_mul_of_pos_left hq hQ]

/-- The slope of a Euclidean norm. -/
theorem norm_slope {P Q P' Q' A B : ℝ} (hP : 0 ≤ P) (hQ : 0 < Q) (h1 : 0 ≤ P') (h2 : 0 < Q') (h3 : P' ≤ A)
    (h4 : Q' ≤ B) :
    0 < (P * P' + Q * Q') / √(P ^ 2 + Q ^ 2) ∧ (P * P' + Q * Q') / √(P ^ 2 + Q ^ 2) ≤ √(A ^ 2 + B ^ 2) := by
  have f0 : 0 < √(P ^ 2 + Q ^ 2) := Real.sqrt_pos.2 (by positivity)
  have fs : √(P ^ 2 + Q ^ 2) ^ 2 = P ^ 2 + Q ^ 2 := Real.sq_sqrt (by positivity)
  have gs : √(A ^ 2 + B ^ 2) ^ 2 = A ^ 2 + B ^ 2 := Real.sq_sqrt (by positivity)
  have g0 : 0 ≤ √(A ^ 2 + B ^ 2) := Real.sqrt_nonneg _
  refine ⟨div_pos (by positivity) f0, ?_⟩
  rw [div_le_iff₀ f0]
  set f := √(P ^ 2 + Q ^ 2)
  set g := √(A ^ 2 + B ^ 2)
  have : P * A + Q * B ≤ g * f := by
    apply le_of_sq_le_sq _ (by positivity)
    rw [mul_pow, fs, gs]
    nlinarith [sq_nonneg (P * B - Q * A)]
  nlinarith [mul_le_mul_of_nonneg_left h3 hP, mul_le_mul_of_nonneg_left h4 hQ.le]

namespace Catenary3d

/-- Mean of the support tensions. -/
noncomputable def tensionMean (k0 : Catenary3d) (h : ℝ) : ℝ :=
  let c := h / k0.weightUnit.magnitude
  let z := k0.spacing2d.x / 2 / c
  k0.weightUnit.magnitude / 2 *
    √((|k0.spacing2d.y| * (Real.cosh z / Real.sinh z)) ^ 2 + (2 * (c * Real.cosh z)) ^ 2)

/-- Its slope. -/
noncomputable def meanSlope (k0 : Catenary3d) (h : ℝ) : ℝ :=
  let c := h / k0.weightUnit.magnitude
  let z := k0.spacing2d.x / 2 / c
  let P := |k0.spacing2d.y| * (Real.cosh z / Real.sinh z)
  let Q := 2 * (c * Real.cosh z)
  (P * (|k0.spacing2d.y| * ((z / Real.sinh z) ^ 2 / (k0.spacing2d.x / 2))) +
    Q * (2 * (Real.cosh z - z * Real.sinh z))) / √(P ^ 2 + Q ^ 2) / 2

section
variable {k0 : Catenary3d} (S : k0.Span)
include S

theorem mean_supported :
    Supported k0.tensionMean k0.meanSlope (k0.spacing.magnitude / 2 * k0.weightUnit.magnitude) := by
  intro x y hx hy
  obtain ⟨_, cx, zx, _⟩ := S.ratio hx
  obtain ⟨_, cy, zy, _⟩ := S.ratio hy
  have hw := S.w_pos
  have ha : 0 < k0.spacing2d.x / 2 := by linarith [S.s2_pos]
  have hp := perspective_support (φ := Real.cosh) (φ' := Real.sinh)
    (fun u v _ _ => cosh_tangent u v) (α := k0.spacing2d.x / 2) ha cx cy
  have hc := coth_support ha cx cy
  unfold tensionMean meanSlope
  simp only
  set w := k0.weightUnit.magnitude
  set u := k0.spacing2d.x / 2 / (x / w)
  set v := k0.spacing2d.x / 2 / (y / w)
  have su := Real.sinh_pos_iff.2 zx
  have cu := Real.cosh_pos u
  have h := norm_support (P := |k0.spacing2d.y| * (Real.cosh u / Real.sinh u)) (Q := 2 * (x / w * Real.cosh u))
    (P' := |k0.spacing2d.y| * ((u / Real.sinh u) ^ 2 / (k0.spacing2d.x / 2)))
    (Q' := 2 * (Real.cosh u - u * Real.sinh u)) (d := y / w - x / w)
    (p := |k0.spacing2d.y| * (Real.cosh v / Real.sinh v)) (q := 2 * (y / w * Real.cosh v)) (by positivity)
    (by positivity) (by nlinarith [mul_le_mul_of_nonneg_left hc (abs_nonneg k0.spacing2d.y)]) (by linarith)
  have h' := mul_le_mul_of_nonneg_left h (by positivity : 0 ≤ w / 2)
  refine le_trans (le_of_eq ?_) h'
  have : y / w - x / w = (y - x) / w := by ring
  rw [this]
  field_simp

theorem mean_strict (x y : ℝ) (hx : k0.spacing.magnitude / 2 * k0.weightUnit.magnitude ≤ x)
    (hy : k0.spacing.magnitude / 2 * k0.weightUnit.magnitude ≤ y) (hne : x ≠ y) :
    k0.tensionMean x + k0.meanSlope x * (y - x) < k0.tensionMean y := by
  obtain ⟨_, cx, zx, _⟩ := S.ratio hx
  obtain ⟨_, cy, zy, _⟩ := S.ratio hy
  have hw := S.w_pos
  have ha : 0 < k0.spacing2d.x / 2 := by linarith [S.s2_pos]
  have hp := perspective_strict (φ := Real.cosh) (φ' := Real.sinh)
    (fun u v _ _ h => cosh_tangent_strict h) (α := k0.spacing2d.x / 2) ha cx cy (by
      intro h; apply hne; rwa [div_left_inj' hw.ne'] at h)
  have hc := coth_support ha cx cy
  unfold tensionMean meanSlope
  simp only
  set w := k0.weightUnit.magnitude
  set u := k0.spacing2d.x / 2 / (x / w)
  set v := k0.spacing2d.x / 2 / (y / w)
  have su := Real.sinh_pos_iff.2 zx
  have cu := Real.cosh_pos u
  have h := norm_strict (P := |k0.spacing2d.y| * (Real.cosh u / Real.sinh u)) (Q := 2 * (x / w * Real.cosh u))
    (P' := |k0.spacing2d.y| * ((u / Real.sinh u) ^ 2 / (k0.spacing2d.x / 2)))
    (Q' := 2 * (Real.cosh u - u * Real.sinh u)) (d := y / w - x / w)
    (p := |k0.spacing2d.y| * (Real.cosh v / Real.sinh v)) (q := 2 * (y / w * Real.cosh v)) (by positivity)
    (by positivity) (by nlinarith [mul_le_mul_of_nonneg_left hc (abs_nonneg k0.spacing2d.y)]) (by linarith)
  have h' := mul_lt_mul_of_pos_left h (by positivity : 0 < w / 2)
  refine lt_of_le_of_lt (le_of_eq ?_) h'
  have : y / w - x / w = (y - x) / w := by ring
  rw [this]
  field_simp

/-- The slope stays above a fixed part of its bound. -/
theorem mean_slope_lower {h : ℝ} (hh : k0.spacing.magnitude / 2 * k0.weightUnit.magnitude ≤ h) :
    0.305 * (k0.spacing2d.magnitude / k0.spacing2d.x) ≤ k0.meanSlope h := by
  obtain ⟨_, c0, z0, z1⟩ := S.ratio hh
  have q0 := tension_slope_lower S hh
  have ha := S.s2_pos
  unfold tensionSlope at q0
  unfold meanSlope
  simp only at q0 ⊢
  have hw := S.w_pos
  set w := k0.weightUnit.magnitude
  set c := h / w with hc
  set z := k0.spacing2d.x / 2 / c with hz
  have sz := Real.sinh_pos_iff.2 z0
  have cz := Real.cosh_pos z
  have ecz : c * z = k0.spacing2d.x / 2 := by rw [hz]; field_simp
  set a := k0.spacing2d.x
  set Y := |k0.spacing2d.y| with hY
  have Y0 : 0 ≤ Y := abs_nonneg _
  -- r = sinh z / z
  set r := Real.sinh z / z with hr
  have r1 : 1 ≤ r := (one_le_div z0).2 (Real.self_le_sinh_iff.2 z0.le)
  have r2 : r ≤ 1.18 := by
    rw [hr, div_le_iff₀ z0]; exact sinh_le_mul z0 z1
  have rinv : (z / Real.sinh z) ^ 2 = 1 / r ^ 2 := by rw [hr]; field_simp
  have g : 0.36 ≤ (z / Real.sinh z) ^ 2 := by
    rw [rinv, le_div_iff₀ (by positivity)]; nlinarith
  have hm : k0.spacing2d.magnitude ^ 2 = a ^ 2 + Y ^ 2 := by
    unfold V2.magnitude
    rw [Real.sq_sqrt (by positivity), hY, sq_abs]
  have m0 : 0 < k0.spacing2d.magnitude := by rw [S.chord]; exact S.s_pos
  set m := k0.spacing2d.magnitude
  -- (P, Q) is a multiple of (Y, r a)
  set κ := Real.cosh z / Real.sinh z with hκ
  have κ0 : 0 < κ := by positivity
  have eQ : 2 * (c * Real.cosh z) = κ * (r * a) := by
    rw [hκ, hr]
    have : a = 2 * (c * z) := by linarith
    rw [this]; field_simp
  rw [eQ, show Y * κ = κ * Y by ring]
  have ef : √((κ * Y) ^ 2 + (κ * (r * a)) ^ 2) = κ * √(Y ^ 2 + (r * a) ^ 2) := by
    rw [← Real.sqrt_sq (by positivity : 0 ≤ κ * √(Y ^ 2 + (r * a) ^ 2)), mul_pow κ (√_),
      Real.sq_sqrt (by positivity)]
    congr 1; ring
  rw [ef]
  have f1 : √(Y ^ 2 + (r * a) ^ 2) ≤ r * m := by
    apply Real.sqrt_le_iff.2
    refine ⟨by positivity, ?_⟩
    rw [mul_pow, mul_pow, hm]
    have : Y ^ 2 ≤ r ^ 2 * Y ^ 2 := le_mul_of_one_le_left (sq_nonneg Y) (one_le_pow₀ r1)
    linarith
  have f0 : 0 < √(Y ^ 2 + (r * a) ^ 2) := Real.sqrt_pos.2 (by positivity)
  rw [div_div, le_div_iff₀ (by positivity)]
  have p1 : Y * (0.36 / (a / 2)) ≤ Y * ((z / Real.sinh z) ^ 2 / (a / 2)) :=
    mul_le_mul_of_nonneg_left (div_le_div_of_nonneg_right g (by positivity)) Y0
  have p2 := mul_le_mul_of_nonneg_left p1 (by positivity : 0 ≤ κ * Y)
  have p3 := mul_le_mul_of_nonneg_left q0 (by positivity : 0 ≤ κ * (r * a) * 2)
  have p4 : 0.305 * (m / a) * (κ * √(Y ^ 2 + (r * a) ^ 2) * 2) ≤ 0.305 * (m / a) * (κ * (1.18 * m) * 2) := by
    apply mul_le_mul_of_nonneg_left _ (by positivity)
    nlinarith [mul_le_mul_of_nonneg_left (le_trans f1 (mul_le_mul_of_nonneg_right r2 m0.le)) κ0.le]
  have p5 : 0.305 * (m / a) * (κ * (1.18 * m) * 2) = 0.7198 * κ * (m ^ 2 / a) := by field_simp; ring
  have p6 : 0.7198 * κ * (m ^ 2 / a) ≤ 0.72 * κ * (Y ^ 2 / a + r * a) := by
    rw [hm]
    have e : (a ^ 2 + Y ^ 2) / a = Y ^ 2 / a + a := by field_simp; ring
    rw [e]
    have h1 : Y ^ 2 / a + a ≤ Y ^ 2 / a + r * a := by
      have := le_mul_of_one_le_left ha.le r1
      linarith
    have h0 : 0 ≤ κ * (Y ^ 2 / a + a) := by positivity
    have h2 := mul_le_mul_of_nonneg_left h1 κ0.le
    rw [mul_assoc, mul_assoc 0.72]
    linarith
  have e1 : κ * Y * (Y * (0.36 / (a / 2))) = 0.72 * κ * (Y ^ 2 / a) := by field_simp; ring
  rw [e1] at p2
  rw [mul_add] at p6
  clear_value κ r z c a Y m
  linarith

theorem mean_ge {h : ℝ} (hh : k0.spacing.magnitude / 2 * k0.weightUnit.magnitude ≤ h) : h < k0.tensionMean h := by
  obtain ⟨h0, c0, z0, z1⟩ := S.ratio hh
  have hw := S.w_pos
  unfold tensionMean
  simp only
  set w := k0.weightUnit.magnitude
  set z := k0.spacing2d.x / 2 / (h / w)
  have hc : 1 < Real.cosh z := Real.one_lt_cosh.2 z0.ne'
  have h1 : 2 * (h / w * Real.cosh z) ≤
      √((|k0.spacing2d.y| * (Real.cosh z / Real.sinh z)) ^ 2 + (2 * (h / w * Real.cosh z)) ^ 2) := by
    apply Real.le_sqrt_of_sq_le
    have := sq_nonneg (|k0.spacing2d.y| * (Real.cosh z / Real.sinh z))
    linarith
  have h2 := mul_le_mul_of_nonneg_left h1 (by positivity : 0 ≤ w / 2)
  have e : w / 2 * (2 * (h / w * Real.cosh z)) = h * Real.cosh z := by field_simp
  rw [e] at h2
  nlinarith

theorem mean_continuous {x y : ℝ} (hx : k0.spacing.magnitude / 2 * k0.weightUnit.magnitude ≤ x) :
    ContinuousOn k0.tensionMean (Set.Icc x y) := by
  unfold tensionMean
  simp only
  have hz : ContinuousOn (fun h => k0.spacing2d.x / 2 / (h / k0.weightUnit.magnitude)) (Set.Icc x y) := by
    apply continuousOn_const.div (continuousOn_id.div_const _)
    intro t ht
    exact (S.ratio (hx.trans ht.1)).2.1.ne'
  have hcosh := Real.continuous_cosh.comp_continuousOn hz
  have hsinh := Real.continuous_sinh.comp_continuousOn hz
  refine continuousOn_const.mul (ContinuousOn.sqrt (ContinuousOn.add ?_ ?_))
  · refine (continuousOn_const.mul (hcosh.div hsinh ?_)).pow 2
    intro t ht
    exact (Real.sinh_pos_iff.2 (S.ratio (hx.trans ht.1)).2.2.1).ne'
  · exact (continuousOn_const.mul ((continuousOn_id.div_const _).mul hcosh)).pow 2

theorem mean_slope {h : ℝ} (hh : k0.spacing.magnitude / 2 * k0.weightUnit.magnitude ≤ h) :
    0 < k0.meanSlope h ∧ k0.meanSlope h ≤ k0.spacing2d.magnitude / k0.spacing2d.x := by
  obtain ⟨_, c0, z0, z1⟩ := S.ratio hh
  obtain ⟨s0, s1⟩ := cosh_slope z0 z1
  have ha := S.s2_pos
  unfold meanSlope
  simp only
  set w := k0.weightUnit.magnitude
  set c := h / w
  set z := k0.spacing2d.x / 2 / c
  have sz := Real.sinh_pos_iff.2 z0
  have cz := Real.cosh_pos z
  have r1 : (z / Real.sinh z) ^ 2 ≤ 1 := by
    have h1 : z / Real.sinh z ≤ 1 := (div_le_one sz).2 (Real.self_le_sinh_iff.2 z0.le)
    have h0 : 0 ≤ z / Real.sinh z := by positivity
    nlinarith
  have r2 : |k0.spacing2d.y| * ((z / Real.sinh z) ^ 2 / (k0.spacing2d.x / 2)) ≤
      |k0.spacing2d.y| * (1 / (k0.spacing2d.x / 2)) :=
    mul_le_mul_of_nonneg_left (div_le_div_of_nonneg_right r1 (by positivity)) (abs_nonneg _)
  obtain ⟨n0, n1⟩ := norm_slope (P := |k0.spacing2d.y| * (Real.cosh z / Real.sinh z)) (Q := 2 * (c * Real.cosh z))
    (P' := |k0.spacing2d.y| * ((z / Real.sinh z) ^ 2 / (k0.spacing2d.x / 2)))
    (Q' := 2 * (Real.cosh z - z * Real.sinh z)) (by positivity) (by positivity) (by positivity) (by linarith)
    r2 (by linarith : _ ≤ (2:ℝ))
  refine ⟨by positivity, ?_⟩
  have e : √((|k0.spacing2d.y| * (1 / (k0.spacing2d.x / 2))) ^ 2 + 2 ^ 2) =
      2 * (k0.spacing2d.magnitude / k0.spacing2d.x) := by
    have hm : k0.spacing2d.magnitude ^ 2 = k0.spacing2d.x ^ 2 + k0.spacing2d.y ^ 2 := by
      unfold V2.magnitude
      rw [Real.sq_sqrt (by positivity)]
    rw [← Real.sqrt_sq (show 0 ≤ 2 * (k0.spacing2d.magnitude / k0.spacing2d.x) by
      have : 0 ≤ k0.spacing2d.magnitude := Real.sqrt_nonneg _
      positivity)]
    congr 1
    rw [mul_pow, mul_pow, sq_abs, div_pow _ k0.spacing2d.x, hm]
    field_simp
    ring
  rw [e] at n1
  linarith

end

section
variable {k0 k : Catenary3d} (S : k0.Span) (F : Fam k0 k) {h : ℝ} (hh : 0 < h)
include S F hh

theorem inner_facts :
    let c := (k.setTension h).refresh.catenary2d
    c.Reachable ∧ c.Positive ∧ c.spacing = k0.spacing2d ∧ c.tensionHorizontal = h ∧
      c.weightUnit = k0.weightUnit.magnitude ∧
      c.z = k0.spacing2d.x / 2 / (h / k0.weightUnit.magnitude) := by
  have P := F.physical S hh
  have F' := F.step h
  obtain ⟨r1, s1, w1⟩ := F'.1.inner
  have P2 := P.inner_positive F'.1
  have ht : (k.setTension h).refresh.catenary2d.tensionHorizontal = h := (refresh_params _).2.2.2
  refine ⟨r1, P2, ?_, ht, ?_, ?_⟩
  · rw [s1, F'.spacing2d]
  · rw [w1, F'.2.2]
  · unfold Catenary2d.z
    rw [ht, s1, w1, F'.spacing2d, F'.2.2]

/-- The two support tensions. -/
theorem support_fam :
    (k.setTension h).tension 0 = k0.tensionMean h - k0.weightUnit.magnitude * k0.spacing2d.y / 2 ∧
    (k.setTension h).tension 1 = k0.tensionMean h + k0.weightUnit.magnitude * k0.spacing2d.y / 2 := by
  obtain ⟨r, P2, hs, ht, hw, hz⟩ := inner_facts S F hh
  set c := (k.setTension h).refresh.catenary2d with hc
  have t0 : (k.setTension h).tension 0 = h * Real.cosh (c.mid - c.z) := by
    show c.tension 0 = _
    unfold Catenary2d.tension
    rw [r.refresh_eq, Catenary2d.tensionBody_update P2, Catenary2d.coordinateX_zero P2, Catenary2d.left_div P2, ht]
  have t1 : (k.setTension h).tension 1 = h * Real.cosh (c.mid + c.z) := by
    show c.tension 1 = _
    unfold Catenary2d.tension
    rw [r.refresh_eq, Catenary2d.tensionBody_update P2, Catenary2d.coordinateX_one P2, Catenary2d.right_div P2, ht]
  have hw0 := S.w_pos
  have ha := S.s2_pos
  have z0 : 0 < c.z := Catenary2d.z_pos P2
  have sz := Real.sinh_pos_iff.2 z0
  have cz := Real.cosh_pos c.z
  have hmid : Real.sinh c.mid = k0.spacing2d.y * c.z / (k0.spacing2d.x * Real.sinh c.z) := by
    unfold Catenary2d.mid
    rw [Real.sinh_arsinh, hs]
  set w := k0.weightUnit.magnitude
  have hcz : h / w * c.z = k0.spacing2d.x / 2 := by
    rw [hz]; field_simp
  have hhz : h * c.z = w * (k0.spacing2d.x / 2) := by
    rw [← hcz]; field_simp
  have e1 : h * (Real.sinh c.mid * Real.sinh c.z) = w * k0.spacing2d.y / 2 := by
    rw [hmid]
    have : h * (k0.spacing2d.y * c.z / (k0.spacing2d.x * Real.sinh c.z) * Real.sinh c.z) =
        k0.spacing2d.y * (h * c.z) / k0.spacing2d.x := by field_simp
    rw [this, hhz]; field_simp
  have e2 : h * (Real.cosh c.mid * Real.cosh c.z) = k0.tensionMean h := by
    have hm0 := Real.cosh_pos c.mid
    unfold tensionMean
    simp only
    rw [← hz]
    have hsq : (w / 2 * √((|k0.spacing2d.y| * (Real.cosh c.z / Real.sinh c.z)) ^ 2 +
        (2 * (h / w * Real.cosh c.z)) ^ 2)) ^ 2 = (h * (Real.cosh c.mid * Real.cosh c.z)) ^ 2 := by
      rw [mul_pow, Real.sq_sqrt (by positivity), mul_pow, sq_abs, mul_pow, mul_pow, mul_pow, mul_pow (Real.cosh c.mid), Real.cosh_sq c.mid, hmid]
      have hh2 : h = w * (k0.spacing2d.x / 2) / c.z := by rw [← hhz]; field_simp
      rw [hh2]
      field_simp
    exact ((sq_eq_sq₀ (by positivity) (by positivity)).1 hsq).symm
  rw [t0, t1, Real.cosh_sub, Real.cosh_add, mul_sub, mul_add, e1, e2]
  exact ⟨rfl, rfl⟩

open Classical in
/-- The largest tension is at the higher support. -/
theorem max_fam : (k.setTension h).tensionMax =
    k0.tensionMean h + k0.weightUnit.magnitude * |k0.spacing2d.y| / 2 := by
  obtain ⟨r, P2, hs, ht, hw, hz⟩ := inner_facts S F hh
  obtain ⟨h0, h1⟩ := support_fam S F hh
  have e : (k.setTension h).tensionMax = (if k0.spacing2d.y ≤ 0 then (k.setTension h).tension 0
      else (k.setTension h).tension 1) := by
    show (k.setTension h).refresh.catenary2d.tensionMax = (if _ then (k.setTension h).refresh.catenary2d.tension 0
      else (k.setTension h).refresh.catenary2d.tension 1)
    unfold Catenary2d.tensionMax Catenary2d.tension
    unfold Catenary2d.tensionMaxBody
    rw [r.refresh_eq, Catenary2d.update_sp, hs]
  rw [e]
  split_ifs with hy
  · rw [h0, abs_of_nonpos hy]; ring
  · rw [h1, abs_of_pos (not_le.1 hy)]

end

end Catenary3d
end Verif
