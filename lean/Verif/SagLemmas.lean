import Verif.TensionLemmas
import Verif.Props.Catenary2d
import Mathlib.Analysis.SpecialFunctions.Arsinh
import Mathlib.Analysis.Calculus.Deriv.MeanValue
import Mathlib.Analysis.Complex.ExponentialBounds

/-!
# Sag of a span as a function of the horizontal tension

With `c = H/w`, `z = a/(2c)` and `s` the slope of the chord, the sag is
`M(c) + c (s arsinh s - √(1+s²)) - s c arsinh (s z / sinh z)`, where `M` is the mean support tension over `w`: a
decreasing convex function of `H`.
-/

set_option linter.unusedSectionVars false

namespace Verif

/-- `z / sinh z`. -/
noncomputable def sinhRatio (z : ℝ) : ℝ := z / Real.sinh z

/-- Its derivative. -/
noncomputable def sinhRatio' (z : ℝ) : ℝ := (Real.sinh z - z * Real.cosh z) / Real.sinh z ^ 2

theorem cosh_half_le : Real.cosh (1 / 2) ≤ 1.15 := by
  have h1 : Real.cosh 1 = 2 * Real.cosh (1 / 2) ^ 2 - 1 := by
    have := Real.cosh_sq (1 / 2)
    have h := Real.cosh_two_mul (1 / 2)
    rw [show (2:ℝ) * (1 / 2) = 1 by norm_num] at h
    linarith
  have h2 : Real.cosh 1 ≤ 1.6 := by
    rw [Real.cosh_eq]
    have e1 := Real.exp_one_lt_d9
    have e2 : Real.exp (-1) ≤ 0.37 := by
      rw [Real.exp_neg, inv_le_comm₀ (Real.exp_pos _) (by norm_num)]
      have := Real.exp_one_gt_d9
      norm_num at this ⊢
      linarith
    linarith
  have := Real.cosh_pos (1 / 2)
  nlinarith

/-- `2 z cosh z ≤ 3 sinh z` up to 1. -/
theorem cosh_le_sinh {z : ℝ} (h0 : 0 ≤ z) (h1 : z ≤ 1) : 2 * z * Real.cosh z ≤ 3 * Real.sinh z := by
  set C := Real.cosh (z / 2) with hC
  have C1 : 1 ≤ C := Real.one_le_cosh _
  have C2 : C ≤ 1.15 := by
    refine le_trans ?_ cosh_half_le
    rw [hC, Real.cosh_le_cosh, abs_of_nonneg (by linarith), abs_of_nonneg (by norm_num)]
    linarith
  have e1 : Real.cosh z = 2 * C ^ 2 - 1 := by
    have := Real.cosh_sq (z / 2)
    have h := Real.cosh_two_mul (z / 2)
    rw [show 2 * (z / 2) = z by ring] at h
    rw [hC]; linarith
  have e2 : z * C ≤ Real.sinh z := by
    have h := Real.sinh_two_mul (z / 2)
    rw [show 2 * (z / 2) = z by ring] at h
    have : z / 2 ≤ Real.sinh (z / 2) := Real.self_le_sinh_iff.2 (by linarith)
    rw [h]
    have := mul_le_mul_of_nonneg_right this (by linarith : 0 ≤ C)
    linarith
  rw [e1]
  have : 0 ≤ 3 * C - 4 * C ^ 2 + 2 := by nlinarith
  nlinarith [mul_nonneg h0 this]

/-- `z (sinh² z + 2) ≤ 2 sinh z cosh z` up to 1. -/
theorem ratio_second {z : ℝ} (h0 : 0 ≤ z) (h1 : z ≤ 1) :
    z * (Real.sinh z ^ 2 + 2) ≤ 2 * Real.sinh z * Real.cosh z := by
  let q : ℝ → ℝ := fun z => 2 * Real.sinh z * Real.cosh z - z * (Real.sinh z ^ 2 + 2)
  let q' : ℝ → ℝ := fun z => Real.sinh z * (3 * Real.sinh z - 2 * z * Real.cosh z)
  have hd : ∀ t, HasDerivAt q (q' t) t := by
    intro t
    have a := ((Real.hasDerivAt_sinh t).const_mul 2).mul (Real.hasDerivAt_cosh t)
    have b := (hasDerivAt_id t).mul (((Real.hasDerivAt_sinh t).pow 2).add_const 2)
    have := a.sub b
    refine this.congr_deriv ?_
    simp only [q', id, Pi.pow_apply]
    have := Real.cosh_sq t
    norm_num
    linear_combination 2 * this
  have mono : MonotoneOn q (Set.Icc 0 1) := by
    apply monotoneOn_of_deriv_nonneg (convex_Icc 0 1)
    · exact fun t _ => (hd t).continuousAt.continuousWithinAt
    · exact fun t _ => (hd t).differentiableAt.differentiableWithinAt
    · intro t ht
      rw [interior_Icc] at ht
      rw [(hd t).deriv]
      have := cosh_le_sinh ht.1.le ht.2.le
      exact mul_nonneg (Real.sinh_nonneg_iff.2 ht.1.le) (by linarith)
  have := mono (Set.left_mem_Icc.2 zero_le_one) ⟨h0, h1⟩ h0
  simp only [q, Real.sinh_zero] at this
  linarith

theorem sinhRatio_deriv {t : ℝ} (ht : 0 < t) : HasDerivAt sinhRatio (sinhRatio' t) t := by
  have hs := (Real.sinh_pos_iff.2 ht).ne'
  have := (hasDerivAt_id t).div (Real.hasDerivAt_sinh t) hs
  refine this.congr_deriv ?_
  unfold sinhRatio'
  simp

/-- The slope decreases up to 1. -/
theorem sinhRatio'_anti : AntitoneOn sinhRatio' (Set.Ioc 0 1) := by
  have hd : ∀ t ∈ Set.Ioc (0:ℝ) 1, HasDerivAt sinhRatio'
      ((t * (Real.sinh t ^ 2 + 2) - 2 * Real.sinh t * Real.cosh t) / Real.sinh t ^ 3) t := by
    intro t ht
    have hs := Real.sinh_pos_iff.2 ht.1
    have a := (Real.hasDerivAt_sinh t).sub ((hasDerivAt_id t).mul (Real.hasDerivAt_cosh t))
    have b := (Real.hasDerivAt_sinh t).pow 2
    have := a.div b (by rw [Pi.pow_apply]; positivity)
    refine this.congr_deriv ?_
    simp only [id, Pi.sub_apply, Pi.mul_apply, Pi.pow_apply]
    have hc := Real.cosh_sq t
    rw [div_eq_div_iff (by positivity) (by positivity)]
    push_cast
    have : Real.cosh t ^ 2 = Real.sinh t ^ 2 + 1 := hc
    generalize Real.sinh t = S at *
    generalize Real.cosh t = C at *
    ring_nf
    have h3 : C ^ 2 = S ^ 2 + 1 := this
    rw [h3]
    ring
  apply antitoneOn_of_deriv_nonpos (convex_Ioc 0 1)
  · exact fun t ht => (hd t ht).continuousAt.continuousWithinAt
  · exact fun t ht => (hd t (interior_subset ht)).differentiableAt.differentiableWithinAt
  · intro t ht
    have ht' := interior_subset ht
    rw [(hd t ht').deriv]
    have := ratio_second ht'.1.le ht'.2
    exact div_nonpos_of_nonpos_of_nonneg (by linarith) (pow_nonneg (Real.sinh_pos_iff.2 ht'.1).le 3)

/-- `z / sinh z` lies below its tangents up to 1. -/
theorem sinhRatio_tangent {u v : ℝ} (hu : 0 < u) (hu1 : u ≤ 1) (hv : 0 < v) (hv1 : v ≤ 1) :
    sinhRatio v ≤ sinhRatio u + sinhRatio' u * (v - u) := by
  rcases lt_trichotomy u v with h | h | h
  · obtain ⟨ξ, hξ, e⟩ := exists_hasDerivAt_eq_slope sinhRatio sinhRatio' h
      (fun t ht => (sinhRatio_deriv (hu.trans_le ht.1)).continuousAt.continuousWithinAt)
      (fun t ht => sinhRatio_deriv (hu.trans ht.1))
    have := sinhRatio'_anti ⟨hu, hu1⟩ ⟨hu.trans hξ.1, hξ.2.le.trans hv1⟩ hξ.1.le
    rw [e, div_le_iff₀ (by linarith)] at this
    linarith
  · rw [h]; simp
  · obtain ⟨ξ, hξ, e⟩ := exists_hasDerivAt_eq_slope sinhRatio sinhRatio' h
      (fun t ht => (sinhRatio_deriv (hv.trans_le ht.1)).continuousAt.continuousWithinAt)
      (fun t ht => sinhRatio_deriv (hv.trans ht.1))
    have := sinhRatio'_anti ⟨hv.trans hξ.1, hξ.2.le.trans hu1⟩ ⟨hu, hu1⟩ hξ.2.le
    rw [e, le_div_iff₀ (by linarith)] at this
    linarith

/-- `arsinh` lies below its tangents on the nonnegative reals. -/
theorem arsinh_tangent {a b : ℝ} (ha : 0 ≤ a) (hb : 0 ≤ b) :
    Real.arsinh b ≤ Real.arsinh a + (b - a) / √(1 + a ^ 2) := by
  have h := sinh_tangent (Real.arsinh_nonneg_iff.2 ha) (Real.arsinh_nonneg_iff.2 hb)
  rw [Real.sinh_arsinh, Real.sinh_arsinh, Real.cosh_arsinh] at h
  have s0 : 0 < √(1 + a ^ 2) := Real.sqrt_pos.2 (by positivity)
  have : Real.arsinh b - Real.arsinh a ≤ (b - a) / √(1 + a ^ 2) := by
    rw [le_div_iff₀ s0]; linarith
  linarith

/-- `arsinh (s z / sinh z)`. -/
noncomputable def midAngle (s z : ℝ) : ℝ := Real.arsinh (s * sinhRatio z)

/-- Its derivative in `z`. -/
noncomputable def midAngle' (s z : ℝ) : ℝ := s * sinhRatio' z / √(1 + (s * sinhRatio z) ^ 2)

theorem sinhRatio_nonneg {z : ℝ} (h : 0 ≤ z) : 0 ≤ sinhRatio z := div_nonneg h (Real.sinh_nonneg_iff.2 h)

theorem sinhRatio_le_one {z : ℝ} (h : 0 < z) : sinhRatio z ≤ 1 :=
  (div_le_one (Real.sinh_pos_iff.2 h)).2 (Real.self_le_sinh_iff.2 h.le)

theorem midAngle_tangent {s u v : ℝ} (hs : 0 ≤ s) (hu : 0 < u) (hu1 : u ≤ 1) (hv : 0 < v) (hv1 : v ≤ 1) :
    midAngle s v ≤ midAngle s u + midAngle' s u * (v - u) := by
  have h1 := mul_le_mul_of_nonneg_left (sinhRatio_tangent hu hu1 hv hv1) hs
  have h2 := arsinh_tangent (mul_nonneg hs (sinhRatio_nonneg hu.le)) (mul_nonneg hs (sinhRatio_nonneg hv.le))
  refine h2.trans ?_
  have s0 : 0 < √(1 + (s * sinhRatio u) ^ 2) := Real.sqrt_pos.2 (by positivity)
  unfold midAngle midAngle'
  have : (s * sinhRatio v - s * sinhRatio u) / √(1 + (s * sinhRatio u) ^ 2) ≤
      (s * sinhRatio' u * (v - u)) / √(1 + (s * sinhRatio u) ^ 2) :=
    div_le_div_of_nonneg_right (by linarith) s0.le
  rw [mul_div_right_comm] at this
  linarith

theorem sinhRatio_zero_tangent {u : ℝ} (hu : 0 < u) (hu1 : u ≤ 1) : 1 ≤ sinhRatio u - u * sinhRatio' u := by
  have t1 : Filter.Tendsto (fun v => (Real.cosh v)⁻¹) (nhdsWithin 0 (Set.Ioi 0)) (nhds 1) := by
    have : ContinuousAt (fun v => (Real.cosh v)⁻¹) 0 :=
      (Real.continuous_cosh.continuousAt).inv₀ (Real.cosh_pos 0).ne'
    have := this.tendsto
    rw [Real.cosh_zero, inv_one] at this
    exact this.mono_left nhdsWithin_le_nhds
  have t2 : Filter.Tendsto (fun v => sinhRatio u + sinhRatio' u * (v - u)) (nhdsWithin 0 (Set.Ioi 0))
      (nhds (sinhRatio u - u * sinhRatio' u)) := by
    have : Continuous (fun v => sinhRatio u + sinhRatio' u * (v - u)) := by fun_prop
    have := this.tendsto 0
    rw [show sinhRatio u + sinhRatio' u * (0 - u) = sinhRatio u - u * sinhRatio' u by ring] at this
    exact this.mono_left nhdsWithin_le_nhds
  refine le_of_tendsto_of_tendsto t1 t2 ?_
  filter_upwards [Ioc_mem_nhdsGT (zero_lt_one : (0:ℝ) < 1)] with v hv
  refine le_trans ?_ (sinhRatio_tangent hu hu1 hv.1 hv.2)
  have := sinh_tangent hv.1.le (le_refl (0:ℝ))
  rw [Real.sinh_zero] at this
  unfold sinhRatio
  rw [inv_eq_one_div, div_le_div_iff₀ (Real.cosh_pos v) (Real.sinh_pos_iff.2 hv.1)]
  linarith

theorem sinhRatio'_neg {u : ℝ} (hu : 0 < u) : sinhRatio' u ≤ 0 := by
  have := sinh_tangent hu.le (le_refl (0:ℝ))
  rw [Real.sinh_zero] at this
  exact div_nonpos_of_nonpos_of_nonneg (by linarith) (by positivity)

/-- The tangent of `midAngle` at `u` is above `arsinh s` at zero. -/
theorem midAngle_zero {s u : ℝ} (hs : 0 ≤ s) (hu : 0 < u) (hu1 : u ≤ 1) :
    Real.arsinh s ≤ midAngle s u - u * midAngle' s u := by
  have h1 := mul_le_mul_of_nonneg_left (sinhRatio_zero_tangent hu hu1) hs
  have h2 := arsinh_tangent (mul_nonneg hs (sinhRatio_nonneg hu.le)) hs
  refine h2.trans ?_
  have s0 : 0 < √(1 + (s * sinhRatio u) ^ 2) := Real.sqrt_pos.2 (by positivity)
  unfold midAngle midAngle'
  have : (s - s * sinhRatio u) / √(1 + (s * sinhRatio u) ^ 2) ≤
      (-(u * (s * sinhRatio' u))) / √(1 + (s * sinhRatio u) ^ 2) :=
    div_le_div_of_nonneg_right (by linarith) s0.le
  rw [neg_div, mul_div_assoc] at this
  linarith

/-- Bounds of the tangent of `midAngle` at zero. -/
theorem midAngle_bound {s u : ℝ} (hs : 0 ≤ s) (hu : 0 < u) (hu1 : u ≤ 1) :
    midAngle s u ≤ Real.arsinh s ∧ -0.5 ≤ u * midAngle' s u := by
  constructor
  · unfold midAngle
    exact Real.arsinh_le_arsinh.2 (mul_le_of_le_one_right hs (sinhRatio_le_one hu))
  · -- `-u r' ≤ r / 2`
    have hsu := Real.sinh_pos_iff.2 hu
    have h1 : -(u * sinhRatio' u) ≤ 0.5 * sinhRatio u := by
      have := cosh_le_sinh hu.le hu1
      unfold sinhRatio sinhRatio'
      have e : -(u * ((Real.sinh u - u * Real.cosh u) / Real.sinh u ^ 2)) =
          (u * (u * Real.cosh u - Real.sinh u) / Real.sinh u) / Real.sinh u := by field_simp; ring
      have e' : 0.5 * (u / Real.sinh u) = (u * 0.5 * Real.sinh u / Real.sinh u) / Real.sinh u := by field_simp
      rw [e, e']
      apply div_le_div_of_nonneg_right _ hsu.le
      apply div_le_div_of_nonneg_right _ hsu.le
      nlinarith
    have h2 : s * sinhRatio u ≤ √(1 + (s * sinhRatio u) ^ 2) :=
      Real.le_sqrt_of_sq_le (by linarith)
    have s0 : 0 < √(1 + (s * sinhRatio u) ^ 2) := Real.sqrt_pos.2 (by positivity)
    unfold midAngle'
    rw [← mul_div_assoc, le_div_iff₀ s0]
    have := mul_le_mul_of_nonneg_left h1 hs
    nlinarith

/-- Tangents of `c ↦ c φ(α/c)`, for one pair of points. -/
theorem perspective_at {φ φ' : ℝ → ℝ} {α c0 c : ℝ} (h0 : 0 < c0) (hc : 0 < c)
    (hφ : φ (α / c) ≤ φ (α / c0) + φ' (α / c0) * (α / c - α / c0)) :
    c * φ (α / c) ≤ c0 * φ (α / c0) + (φ (α / c0) - α / c0 * φ' (α / c0)) * (c - c0) := by
  have h := mul_le_mul_of_nonneg_left hφ hc.le
  have e : c * (φ (α / c0) + φ' (α / c0) * (α / c - α / c0)) =
      c0 * φ (α / c0) + (φ (α / c0) - α / c0 * φ' (α / c0)) * (c - c0) := by
    field_simp
    ring
  linarith

namespace Catenary3d

/-- Slope of the chord in the plane of the catenary. -/
noncomputable def chordSlope (k0 : Catenary3d) : ℝ := |k0.spacing2d.y| / k0.spacing2d.x

/-- The sag as a function of the horizontal tension. -/
noncomputable def sagFn (k0 : Catenary3d) (h : ℝ) : ℝ :=
  let c := h / k0.weightUnit.magnitude
  let s := k0.chordSlope
  k0.tensionMean h / k0.weightUnit.magnitude + c * (s * Real.arsinh s - √(1 + s ^ 2)) -
    s * (c * midAngle s (k0.spacing2d.x / 2 / c))

/-- Its slope. -/
noncomputable def sagFnSlope (k0 : Catenary3d) (h : ℝ) : ℝ :=
  let c := h / k0.weightUnit.magnitude
  let s := k0.chordSlope
  let z := k0.spacing2d.x / 2 / c
  (k0.meanSlope h + (s * Real.arsinh s - √(1 + s ^ 2)) - s * (midAngle s z - z * midAngle' s z)) /
    k0.weightUnit.magnitude

section
variable {k0 : Catenary3d} (S : k0.Span)
include S

theorem chordSlope_nonneg : 0 ≤ k0.chordSlope := div_nonneg (abs_nonneg _) S.s2_pos.le

theorem chord_ratio : √(1 + k0.chordSlope ^ 2) = k0.spacing2d.magnitude / k0.spacing2d.x := by
  have hx := S.s2_pos
  unfold chordSlope V2.magnitude
  rw [div_pow, sq_abs, eq_div_iff hx.ne']
  nth_rewrite 2 [← Real.sqrt_sq hx.le]
  rw [← Real.sqrt_mul (by positivity)]
  congr 1
  field_simp

/-- The part of the sag that is not the mean tension. -/
theorem sagFn_part {x y : ℝ} (hx : k0.spacing.magnitude / 2 * k0.weightUnit.magnitude ≤ x)
    (hy : k0.spacing.magnitude / 2 * k0.weightUnit.magnitude ≤ y) :
    k0.sagFn x - k0.tensionMean x / k0.weightUnit.magnitude +
      (k0.sagFnSlope x - k0.meanSlope x / k0.weightUnit.magnitude) * (y - x) ≤
    k0.sagFn y - k0.tensionMean y / k0.weightUnit.magnitude := by
  obtain ⟨_, cx, zx, zx1⟩ := S.ratio hx
  obtain ⟨_, cy, zy, zy1⟩ := S.ratio hy
  have hw := S.w_pos
  have hs := chordSlope_nonneg S
  have h := perspective_at (φ := midAngle k0.chordSlope) (φ' := midAngle' k0.chordSlope) cx cy
    (midAngle_tangent hs zx zx1 zy zy1)
  have h := mul_le_mul_of_nonneg_left h hs
  unfold sagFn sagFnSlope
  simp only
  set w := k0.weightUnit.magnitude
  set s := k0.chordSlope
  set c := x / w with hc
  set d := y / w with hd
  have ex : x = w * c := by rw [hc, mul_div_cancel₀ _ hw.ne']
  have ey : y = w * d := by rw [hd, mul_div_cancel₀ _ hw.ne']
  set G := midAngle s (k0.spacing2d.x / 2 / c)
  set G' := midAngle' s (k0.spacing2d.x / 2 / c)
  set E := midAngle s (k0.spacing2d.x / 2 / d)
  set z := k0.spacing2d.x / 2 / c
  have e : ((k0.meanSlope x + (s * Real.arsinh s - √(1 + s ^ 2)) - s * (G - z * G')) / w - k0.meanSlope x / w) *
      (y - x) = ((s * Real.arsinh s - √(1 + s ^ 2)) - s * (G - z * G')) * (d - c) := by
    rw [ex, ey]
    field_simp
    ring
  rw [e]
  nlinarith

theorem sagFn_supported : Supported k0.sagFn k0.sagFnSlope (k0.spacing.magnitude / 2 * k0.weightUnit.magnitude) := by
  intro x y hx hy
  have h1 := sagFn_part S hx hy
  have h2 := div_le_div_of_nonneg_right (mean_supported S x y hx hy) S.w_pos.le
  rw [add_div, mul_div_right_comm] at h2
  nlinarith

theorem sagFn_strict {x y : ℝ} (hx : k0.spacing.magnitude / 2 * k0.weightUnit.magnitude ≤ x)
    (hy : k0.spacing.magnitude / 2 * k0.weightUnit.magnitude ≤ y) (hne : x ≠ y) :
    k0.sagFn x + k0.sagFnSlope x * (y - x) < k0.sagFn y := by
  have h1 := sagFn_part S hx hy
  have h2 := div_lt_div_of_pos_right (mean_strict S x y hx hy hne) S.w_pos
  rw [add_div, mul_div_right_comm] at h2
  nlinarith

theorem sagFn_slope {h : ℝ} (hh : k0.spacing.magnitude / 2 * k0.weightUnit.magnitude ≤ h) :
    k0.sagFnSlope h < 0 ∧
      -(1.5 * (k0.spacing2d.magnitude / k0.spacing2d.x) / k0.weightUnit.magnitude) ≤ k0.sagFnSlope h := by
  have hw := S.w_pos
  have hs := chordSlope_nonneg S
  have nonpos : ∀ h, k0.spacing.magnitude / 2 * k0.weightUnit.magnitude ≤ h → k0.sagFnSlope h ≤ 0 := by
    intro h hh
    obtain ⟨_, c0, z0, z1⟩ := S.ratio hh
    have m := (mean_slope S hh).2
    rw [← chord_ratio S] at m
    have := mul_le_mul_of_nonneg_left (midAngle_zero hs z0 z1) hs
    unfold sagFnSlope
    exact div_nonpos_of_nonpos_of_nonneg (by linarith) hw.le
  constructor
  · have a := sagFn_strict S hh (by linarith : _ ≤ h + 1) (by linarith)
    have b := sagFn_supported S (h + 1) h (by linarith) hh
    have c := nonpos (h + 1) (by linarith)
    linarith
  · obtain ⟨_, c0, z0, z1⟩ := S.ratio hh
    have m := (mean_slope S hh).1
    obtain ⟨g1, g2⟩ := midAngle_bound hs z0 z1
    rw [← chord_ratio S]
    unfold sagFnSlope
    rw [← neg_div]
    apply div_le_div_of_nonneg_right _ hw.le
    have h1 : k0.chordSlope ≤ √(1 + k0.chordSlope ^ 2) := Real.le_sqrt_of_sq_le (by linarith)
    have h2 := mul_le_mul_of_nonneg_left g1 hs
    have h3 := mul_le_mul_of_nonneg_left g2 hs
    linarith

end

section
variable {k0 k : Catenary3d} (S : k0.Span) (F : Fam k0 k) {h : ℝ} (hh : 0 < h)
include S F hh

/-- The sag. -/
theorem sagFn_fam : (k.setTension h).sag = k0.sagFn h := by
  obtain ⟨r, P, hs, ht, hw, hz⟩ := inner_facts S F hh
  have h0 := (support_fam S F hh).1
  have hw0 := S.w_pos
  have hx := S.s2_pos
  set c := (k.setTension h).refresh.catenary2d with hc
  have e1 : (k.setTension h).sag = c.sagAt c.positionFractionSagPoint := rfl
  have e2 := Props.sagPoint_slope r P
  have e3 : c.tension 0 = c.tensionHorizontal + c.weightUnit * c.coordinateY c.update.left.x := by
    unfold Catenary2d.tension
    rw [r.refresh_eq]
    unfold Catenary2d.tensionBody Catenary2d.coordinateY
    rw [Catenary2d.coordinateX_zero P]
    have := P.w
    show c.tensionHorizontal * _ = _
    simp only [Catenary2d.update_h, Catenary2d.update_w]
    field_simp
    ring
  have e4 : (k.setTension h).tension 0 = c.tension 0 := rfl
  rw [e1, Props.sagAt_eq r P]
  rw [e4, e3] at h0
  have e5 : c.update.coordinateX c.positionFractionSagPoint =
      (c.tensionHorizontal / c.weightUnit) * Real.arsinh (c.spacing.y / c.spacing.x) := by
    rw [← e2, Real.arsinh_sinh, mul_div_cancel₀ _ P.c.ne']
  have e6 : c.coordinateY ((c.tensionHorizontal / c.weightUnit) * Real.arsinh (c.spacing.y / c.spacing.x)) =
      (c.tensionHorizontal / c.weightUnit) * (√(1 + (c.spacing.y / c.spacing.x) ^ 2) - 1) := by
    unfold Catenary2d.coordinateY
    rw [mul_div_cancel_left₀ _ P.c.ne', Real.cosh_arsinh]
  have e7 : c.mid = Real.arsinh (c.spacing.y / c.spacing.x * sinhRatio c.z) := by
    unfold Catenary2d.mid sinhRatio
    congr 1
    rw [div_mul_div_comm]
  have e8 : c.coordinateY c.update.left.x =
      k0.tensionMean h / k0.weightUnit.magnitude - k0.spacing2d.y / 2 - h / k0.weightUnit.magnitude := by
    rw [ht, hw] at h0
    field_simp
    linarith
  rw [e8, e5, e6, Catenary2d.update_left, e7, hs, ht, hw, hz]
  unfold sagFn midAngle
  simp only
  have sq : √(1 + (k0.spacing2d.y / k0.spacing2d.x) ^ 2) = √(1 + k0.chordSlope ^ 2) := by
    unfold chordSlope; rw [div_pow, div_pow, sq_abs]
  rw [sq]
  have ev : ∀ t, k0.spacing2d.y / k0.spacing2d.x * Real.arsinh (k0.spacing2d.y / k0.spacing2d.x * t) =
      k0.chordSlope * Real.arsinh (k0.chordSlope * t) := by
    intro t
    unfold chordSlope
    rcases le_total 0 k0.spacing2d.y with h | h
    · rw [abs_of_nonneg h]
    · rw [abs_of_nonpos h, neg_div, neg_mul, neg_mul, Real.arsinh_neg]; ring
  have ev1 := ev 1
  rw [mul_one, mul_one] at ev1
  have ev2 := ev (sinhRatio (k0.spacing2d.x / 2 / (h / k0.weightUnit.magnitude)))
  set w := k0.weightUnit.magnitude
  set σ := k0.spacing2d.y / k0.spacing2d.x with hσ
  set s := k0.chordSlope
  set z := k0.spacing2d.x / 2 / (h / w) with hzz
  have e9 : h / w * z = k0.spacing2d.x / 2 := by rw [hzz]; field_simp
  have e10 : σ * k0.spacing2d.x = k0.spacing2d.y := by rw [hσ]; field_simp
  linear_combination (h / w) * ev1 - (h / w) * ev2 + σ * e9 + (1 / 2) * e10

end

theorem sagFn_answers {k0 : Catenary3d} (S : k0.Span) :
    Answers (Fam k0) Catenary3d.sag k0.sagFn (k0.spacing.magnitude / 2 * k0.weightUnit.magnitude) where
  eval _ hk _ hh := sagFn_fam S hk (S.ratio hh).1
  next _ hk h := (hk.step h).query
  set _ hk h := hk.step h

end Catenary3d
end Verif
