import Mathlib.Analysis.Complex.ExponentialBounds
import Verif.SecantLemmas
import Verif.Props.Catenary3d

/-! # Length, sag and tension as functions of the horizontal tension -/

set_option linter.unusedSectionVars false

namespace Verif

open Props

/-- The graph of `sinh` lies above its tangents, right of the origin. -/
theorem sinh_tangent {u v : ℝ} (hu : 0 ≤ u) (hv : 0 ≤ v) :
    Real.sinh u + Real.cosh u * (v - u) ≤ Real.sinh v := by
  rcases lt_trichotomy u v with h | h | h
  · obtain ⟨c, hc, e⟩ := exists_hasDerivAt_eq_slope Real.sinh Real.cosh h
      Real.continuous_sinh.continuousOn (fun x _ => Real.hasDerivAt_sinh x)
    have h1 : Real.cosh u ≤ Real.cosh c := by
      rw [Real.cosh_le_cosh, abs_of_nonneg hu, abs_of_nonneg (by linarith [hc.1])]; exact hc.1.le
    rw [eq_div_iff (by linarith)] at e
    have := mul_le_mul_of_nonneg_right h1 (by linarith : 0 ≤ v - u)
    linarith
  · rw [h]; simp
  · obtain ⟨c, hc, e⟩ := exists_hasDerivAt_eq_slope Real.sinh Real.cosh h
      Real.continuous_sinh.continuousOn (fun x _ => Real.hasDerivAt_sinh x)
    have h1 : Real.cosh c ≤ Real.cosh u := by
      rw [Real.cosh_le_cosh, abs_of_nonneg hu, abs_of_nonneg (by linarith [hc.1])]; exact hc.2.le
    rw [eq_div_iff (by linarith)] at e
    have := mul_le_mul_of_nonneg_right h1 (by linarith : 0 ≤ u - v)
    linarith

theorem sinh_tangent_strict {u v : ℝ} (hu : 0 ≤ u) (hv : 0 ≤ v) (h : u ≠ v) :
    Real.sinh u + Real.cosh u * (v - u) < Real.sinh v := by
  have m1 := sinh_tangent hu (by linarith : 0 ≤ (u + v) / 2)
  have m2 := sinh_tangent (by linarith : 0 ≤ (u + v) / 2) hv
  rcases lt_or_gt_of_ne h with h | h
  · have s1 : Real.cosh u < Real.cosh ((u + v) / 2) := by
      rw [Real.cosh_lt_cosh, abs_of_nonneg hu, abs_of_nonneg (by linarith)]; linarith
    nlinarith
  · have s1 : Real.cosh ((u + v) / 2) < Real.cosh u := by
      rw [Real.cosh_lt_cosh, abs_of_nonneg hu, abs_of_nonneg (by linarith)]; linarith
    nlinarith

/-- Tangents of `c ↦ c φ(α/c)`. -/
theorem perspective_support {φ φ' : ℝ → ℝ} (hφ : ∀ u v, 0 < u → 0 < v → φ u + φ' u * (v - u) ≤ φ v)
    {α c0 c : ℝ} (hα : 0 < α) (h0 : 0 < c0) (hc : 0 < c) :
    c0 * φ (α / c0) + (φ (α / c0) - α / c0 * φ' (α / c0)) * (c - c0) ≤ c * φ (α / c) := by
  have h := mul_le_mul_of_nonneg_left (hφ (α / c0) (α / c) (div_pos hα h0) (div_pos hα hc)) hc.le
  have e1 : c * (α / c) = α := mul_div_cancel₀ _ hc.ne'
  have e2 : c0 * (α / c0) = α := mul_div_cancel₀ _ h0.ne'
  have e3 : c * (φ (α / c0) + φ' (α / c0) * (α / c - α / c0)) =
      c * φ (α / c0) + φ' (α / c0) * (α - c * (α / c0)) := by
    have : c * (φ (α / c0) + φ' (α / c0) * (α / c - α / c0)) =
        c * φ (α / c0) + φ' (α / c0) * (c * (α / c) - c * (α / c0)) := by ring
    rw [this, e1]
  rw [e3] at h
  have e4 : c0 * φ (α / c0) + (φ (α / c0) - α / c0 * φ' (α / c0)) * (c - c0) =
      c * φ (α / c0) + φ' (α / c0) * (c0 * (α / c0) - c * (α / c0)) := by ring
  rw [e4, e2]
  exact h

/-- Bounds of the slope of `2 c sinh(α/c)`. -/
theorem sinh_slope {z : ℝ} (h0 : 0 < z) (h1 : z ≤ 1) :
    Real.sinh z - z * Real.cosh z < 0 ∧ -0.375 ≤ Real.sinh z - z * Real.cosh z := by
  constructor
  · have := sinh_tangent_strict h0.le (le_refl (0:ℝ)) h0.ne'
    rw [Real.sinh_zero] at this
    linarith
  · have h2 := sinh_tangent (zero_le_one) h0.le
    have h3 : Real.cosh z ≤ Real.cosh 1 := by
      rw [Real.cosh_le_cosh, abs_of_pos h0, abs_of_pos one_pos]; exact h1
    have h4 := mul_le_mul_of_nonneg_left h3 h0.le
    have h5 : Real.cosh 1 - Real.sinh 1 = Real.exp (-1) := Real.cosh_sub_sinh 1
    have h6 : Real.exp (-1) < 0.375 := by
      rw [Real.exp_neg, inv_lt_comm₀ (Real.exp_pos _) (by norm_num)]
      have := Real.exp_one_gt_d9
      norm_num at this ⊢
      linarith
    linarith

/-- Bounds of the slope of `c cosh(α/c)`. -/
theorem cosh_slope {z : ℝ} (h0 : 0 < z) (h1 : z ≤ 1) :
    0 < Real.cosh z - z * Real.sinh z ∧ Real.cosh z - z * Real.sinh z < 1 := by
  constructor
  · have h2 := Real.sinh_pos_iff.2 h0
    have h3 := Real.sinh_lt_cosh z
    nlinarith
  · have := cosh_tangent_strict (h0.ne')
    rw [Real.cosh_zero] at this
    linarith

/-- The supporting lines of `c ↦ √(y² + g(c)²)`. -/
theorem sqrt_support {y g0 g s d : ℝ} (hg0 : 0 < g0) (hg : g0 + s * d ≤ g) :
    √(y ^ 2 + g0 ^ 2) + (g0 / √(y ^ 2 + g0 ^ 2) * s) * d ≤ √(y ^ 2 + g ^ 2) := by
  set L := √(y ^ 2 + g0 ^ 2) with hL
  have L0 : 0 < L := Real.sqrt_pos.2 (by positivity)
  have L2 : L ^ 2 = y ^ 2 + g0 ^ 2 := Real.sq_sqrt (by positivity)
  have G2 : y ^ 2 + g0 * g ≤ L * √(y ^ 2 + g ^ 2) := by
    rw [hL, ← Real.sqrt_mul (by positivity)]
    apply Real.le_sqrt_of_sq_le
    nlinarith [mul_nonneg (sq_nonneg y) (sq_nonneg (g - g0))]
  have h1 := mul_le_mul_of_nonneg_left hg hg0.le
  have h2 : L * (L + g0 / L * s * d) = L ^ 2 + g0 * s * d := by field_simp
  apply le_of_mul_le_mul_left _ L0
  rw [h2, L2]
  linarith

/-- Strict versions. -/
theorem perspective_strict {φ φ' : ℝ → ℝ}
    (hφ : ∀ u v, 0 < u → 0 < v → u ≠ v → φ u + φ' u * (v - u) < φ v)
    {α c0 c : ℝ} (hα : 0 < α) (h0 : 0 < c0) (hc : 0 < c) (hne : c0 ≠ c) :
    c0 * φ (α / c0) + (φ (α / c0) - α / c0 * φ' (α / c0)) * (c - c0) < c * φ (α / c) := by
  have hz : α / c0 ≠ α / c := by
    intro h
    rw [div_eq_div_iff h0.ne' hc.ne'] at h
    exact hne (mul_left_cancel₀ hα.ne' h).symm
  have h := mul_lt_mul_of_pos_left (hφ (α / c0) (α / c) (div_pos hα h0) (div_pos hα hc) hz) hc
  have e1 : c * (α / c) = α := mul_div_cancel₀ _ hc.ne'
  have e2 : c0 * (α / c0) = α := mul_div_cancel₀ _ h0.ne'
  have e3 : c * (φ (α / c0) + φ' (α / c0) * (α / c - α / c0)) =
      c * φ (α / c0) + φ' (α / c0) * (α - c * (α / c0)) := by
    have : c * (φ (α / c0) + φ' (α / c0) * (α / c - α / c0)) =
        c * φ (α / c0) + φ' (α / c0) * (c * (α / c) - c * (α / c0)) := by ring
    rw [this, e1]
  rw [e3] at h
  have e4 : c0 * φ (α / c0) + (φ (α / c0) - α / c0 * φ' (α / c0)) * (c - c0) =
      c * φ (α / c0) + φ' (α / c0) * (c0 * (α / c0) - c * (α / c0)) := by ring
  rw [e4, e2]
  exact h

theorem sqrt_strict {y g0 g s d : ℝ} (hg0 : 0 < g0) (hg : g0 + s * d < g) :
    √(y ^ 2 + g0 ^ 2) + (g0 / √(y ^ 2 + g0 ^ 2) * s) * d < √(y ^ 2 + g ^ 2) := by
  set L := √(y ^ 2 + g0 ^ 2) with hL
  have L0 : 0 < L := Real.sqrt_pos.2 (by positivity)
  have L2 : L ^ 2 = y ^ 2 + g0 ^ 2 := Real.sq_sqrt (by positivity)
  have G2 : y ^ 2 + g0 * g ≤ L * √(y ^ 2 + g ^ 2) := by
    rw [hL, ← Real.sqrt_mul (by positivity)]
    apply Real.le_sqrt_of_sq_le
    nlinarith [mul_nonneg (sq_nonneg y) (sq_nonneg (g - g0))]
  have h1 := mul_lt_mul_of_pos_left hg hg0
  have h2 : L * (L + g0 / L * s * d) = L ^ 2 + g0 * s * d := by field_simp
  apply lt_of_mul_lt_mul_left _ L0.le
  rw [h2, L2]
  linarith

/-- `z cosh z - sinh z` is about `z³/3`. -/
theorem sinh_slope_cubic {z : ℝ} (h0 : 0 < z) (h1 : z ≤ 1) :
    z ^ 3 / 3 ≤ z * Real.cosh z - Real.sinh z ∧ z * Real.cosh z - Real.sinh z ≤ 0.515 * z ^ 3 := by
  have hd : ∀ a x : ℝ, HasDerivAt (fun z => z * Real.cosh z - Real.sinh z - a * z ^ 3)
      (x * Real.sinh x - 3 * a * x ^ 2) x := by
    intro a x
    have h1 := ((hasDerivAt_id x).mul (Real.hasDerivAt_cosh x)).sub (Real.hasDerivAt_sinh x)
    have h2 := (hasDerivAt_pow 3 x).const_mul a
    refine (h1.sub h2).congr_deriv ?_
    simp
    ring
  have mv : ∀ a, ∃ x, (0 < x ∧ x < z) ∧
      x * Real.sinh x - 3 * a * x ^ 2 = (z * Real.cosh z - Real.sinh z - a * z ^ 3) / z := by
    intro a
    obtain ⟨x, hx, e⟩ := exists_hasDerivAt_eq_slope (fun z => z * Real.cosh z - Real.sinh z - a * z ^ 3)
      (fun x => x * Real.sinh x - 3 * a * x ^ 2) h0
      (fun x _ => (hd a x).continuousAt.continuousWithinAt) (fun x _ => hd a x)
    refine ⟨x, hx, ?_⟩
    rw [e]; simp
  constructor
  · obtain ⟨x, ⟨x0, x1⟩, e⟩ := mv (1 / 3)
    have hs := (Real.self_lt_sinh_iff.2 x0).le
    have : 0 ≤ x * Real.sinh x - 3 * (1 / 3) * x ^ 2 := by nlinarith
    rw [e] at this
    have := (div_nonneg_iff.1 this)
    rcases this with ⟨h, _⟩ | ⟨_, h⟩ <;> linarith
  · obtain ⟨x, ⟨x0, x1⟩, e⟩ := mv 0.515
    have hs := (sinh_slope x0 (by linarith)).1
    have hc : Real.cosh x ≤ 1.545 := by
      have h3 : Real.cosh x ≤ Real.cosh 1 := by
        rw [Real.cosh_le_cosh, abs_of_pos x0, abs_of_pos one_pos]; linarith
      have h4 : Real.cosh 1 ≤ 1.545 := by
        rw [Real.cosh_eq]
        have e1 := Real.exp_one_lt_d9
        have e2 : Real.exp (-1) ≤ 0.37 := by
          rw [Real.exp_neg, inv_le_comm₀ (Real.exp_pos _) (by norm_num)]
          have := Real.exp_one_gt_d9
          norm_num at this ⊢
          linarith
        norm_num at e1 e2 ⊢
        linarith
      linarith
    have : x * Real.sinh x - 3 * 0.515 * x ^ 2 ≤ 0 := by
      have := mul_le_mul_of_nonneg_left hc (mul_pos x0 x0).le
      have := mul_lt_mul_of_pos_left hs x0
      nlinarith
    rw [e] at this
    rcases div_nonpos_iff.1 this with ⟨h, h'⟩ | ⟨h, _⟩ <;> linarith

/-- `sinh` below its chord on `[0, 1]`. -/
theorem sinh_le_mul {z : ℝ} (h0 : 0 < z) (h1 : z ≤ 1) : Real.sinh z ≤ 1.18 * z := by
  have t1 := sinh_tangent h0.le (zero_le_one)
  have t2 := sinh_tangent h0.le (le_refl (0:ℝ))
  rw [Real.sinh_zero] at t2
  have e : Real.sinh z ≤ z * Real.sinh 1 := by
    have a := mul_le_mul_of_nonneg_left t1 h0.le
    have b := mul_le_mul_of_nonneg_left t2 (by linarith : 0 ≤ 1 - z)
    nlinarith
  have h4 : Real.sinh 1 ≤ 1.18 := by
    rw [Real.sinh_eq]
    have e1 := Real.exp_one_lt_d9
    have e2 : 0.366 ≤ Real.exp (-1) := by
      rw [Real.exp_neg, le_inv_comm₀ (by norm_num) (Real.exp_pos _)]
      norm_num at e1 ⊢
      linarith
    norm_num at e1 e2 ⊢
    linarith
  nlinarith

namespace Catenary3d

/-- Spacing and load of a physical span, whatever the tension. -/
structure Span (k : Catenary3d) : Prop where
  sx : 0 < k.spacing.x
  sy : k.spacing.y = 0
  wx : k.weightUnit.x = 0
  wy : 0 ≤ k.weightUnit.y
  wz : 0 < k.weightUnit.z

/-- Catenaries that differ from `k0` at most in tension, direction and caches. -/
def Fam (k0 k : Catenary3d) : Prop :=
  k.Reachable ∧ k.spacing = k0.spacing ∧ k.weightUnit = k0.weightUnit

theorem Reachable.step {k : Catenary3d} (h : k.Reachable) (e : Event) : (e.next k).Reachable := by
  obtain ⟨es, rfl⟩ := h
  exact ⟨es ++ [e], by rw [List.foldl_append]; rfl⟩

theorem Fam.step {k0 k : Catenary3d} (h : Fam k0 k) (x : ℝ) : Fam k0 (k.setTension x) :=
  ⟨h.1.step (.setTension x), h.2.1, h.2.2⟩

theorem Fam.touch {k0 k : Catenary3d} (h : Fam k0 k) : Fam k0 k.refresh :=
  ⟨h.1.step .touch, by rw [(refresh_params k).2.1, h.2.1], by rw [(refresh_params k).2.2.1, h.2.2]⟩

theorem Fam.query {k0 k : Catenary3d} (h : Fam k0 k) : Fam k0 (Event.query.next k) :=
  ⟨h.1.step .query, h.touch.2.1, h.touch.2.2⟩

theorem Fam.spacing2d {k0 k : Catenary3d} (h : Fam k0 k) : k.spacing2d = k0.spacing2d := by
  unfold Catenary3d.spacing2d; rw [h.2.1, h.2.2]

theorem Fam.physical {k0 k : Catenary3d} (h : Fam k0 k) (S : k0.Span) {x : ℝ} (hx : 0 < x) :
    (k.setTension x).Physical := by
  refine ⟨hx, ?_, ?_, ?_, ?_, ?_⟩
  · show 0 < k.spacing.x; rw [h.2.1]; exact S.sx
  · show k.spacing.y = 0; rw [h.2.1]; exact S.sy
  · show k.weightUnit.x = 0; rw [h.2.2]; exact S.wx
  · show 0 ≤ k.weightUnit.y; rw [h.2.2]; exact S.wy
  · show 0 < k.weightUnit.z; rw [h.2.2]; exact S.wz

section
variable {k0 : Catenary3d} (S : k0.Span)
include S

theorem Span.w_pos : 0 < k0.weightUnit.magnitude := by
  apply Real.sqrt_pos.2
  have := S.wz
  positivity

theorem Span.s_pos : 0 < k0.spacing.magnitude := by
  apply Real.sqrt_pos.2
  have := S.sx
  positivity

/-- `k0` with a positive tension. -/
theorem Span.physical {x : ℝ} (hx : 0 < x) : (k0.setTension x).Physical :=
  ⟨hx, S.sx, S.sy, S.wx, S.wy, S.wz⟩

theorem Span.s2_pos : 0 < k0.spacing2d.x :=
  lt_of_lt_of_le S.sx (S.physical one_pos).s2x

theorem Span.chord : k0.spacing2d.magnitude = k0.spacing.magnitude := (S.physical one_pos).chord

theorem Span.s2_le : k0.spacing2d.x ≤ k0.spacing.magnitude := by
  rw [← S.chord]
  apply Real.le_sqrt_of_sq_le
  have := sq_nonneg k0.spacing2d.y
  linarith

/-- The least tension the solver tries. -/
theorem Span.ratio {h : ℝ} (hh : k0.spacing.magnitude / 2 * k0.weightUnit.magnitude ≤ h) :
    0 < h ∧ 0 < h / k0.weightUnit.magnitude ∧
    0 < k0.spacing2d.x / 2 / (h / k0.weightUnit.magnitude) ∧
    k0.spacing2d.x / 2 / (h / k0.weightUnit.magnitude) ≤ 1 := by
  have hw := S.w_pos
  have hs := S.s_pos
  have h2 := S.s2_pos
  have hp : 0 < h := lt_of_lt_of_le (by positivity) hh
  have hc := div_pos hp hw
  refine ⟨hp, hc, div_pos (by linarith) hc, ?_⟩
  rw [div_le_one hc, le_div_iff₀ hw]
  have := mul_le_mul_of_nonneg_right (by linarith [S.s2_le] : k0.spacing2d.x / 2 ≤ k0.spacing.magnitude / 2) hw.le
  linarith

end

/-! ## Length -/

/-- Length at a horizontal tension. -/
noncomputable def lengthFn (k0 : Catenary3d) (h : ℝ) : ℝ :=
  √(k0.spacing2d.y ^ 2 + (2 * (h / k0.weightUnit.magnitude *
    Real.sinh (k0.spacing2d.x / 2 / (h / k0.weightUnit.magnitude)))) ^ 2)

/-- Slope of `lengthFn`. -/
noncomputable def lengthSlope (k0 : Catenary3d) (h : ℝ) : ℝ :=
  let c := h / k0.weightUnit.magnitude
  let z := k0.spacing2d.x / 2 / c
  let g := 2 * (c * Real.sinh z)
  (g / √(k0.spacing2d.y ^ 2 + g ^ 2) * (2 * (Real.sinh z - z * Real.cosh z))) / k0.weightUnit.magnitude

theorem length_fam {k0 k : Catenary3d} (S : k0.Span) (F : Fam k0 k) {h : ℝ} (hh : 0 < h) :
    (k.setTension h).length = k0.lengthFn h := by
  have P := F.physical S hh
  have F' := F.step h
  obtain ⟨r1, s1, w1⟩ := F'.1.inner
  have P2 := P.inner_positive F'.1
  have hsq := C43_length_sq r1 P2
  have hpos : 0 ≤ (k.setTension h).length := by
    unfold length Catenary2d.lengthQ
    rw [r1.refresh_eq]
    exact (Catenary2d.length_pos P2).le
  unfold lengthFn
  rw [← Real.sqrt_sq hpos]
  congr 1
  unfold length
  rw [hsq, s1, w1, (refresh_params _).2.2.2, F'.spacing2d, F'.2.2]
  show _ + (2 * (h / _) * Real.sinh (_ / (2 * (h / _)))) ^ 2 = _
  rw [div_div]
  ring

section
variable {k0 : Catenary3d} (S : k0.Span)
include S

theorem length_supported :
    Supported k0.lengthFn k0.lengthSlope (k0.spacing.magnitude / 2 * k0.weightUnit.magnitude) := by
  intro x y hx hy
  obtain ⟨_, cx, zx, _⟩ := S.ratio hx
  obtain ⟨_, cy, zy, _⟩ := S.ratio hy
  have hw := S.w_pos
  have hp := perspective_support (φ := Real.sinh) (φ' := Real.cosh)
    (fun u v hu hv => sinh_tangent hu.le hv.le) (α := k0.spacing2d.x / 2) (by linarith [S.s2_pos]) cx cy
  unfold lengthFn lengthSlope
  simp only
  set w := k0.weightUnit.magnitude
  have e : y / w - x / w = (y - x) / w := by ring
  set c := x / w
  set z := k0.spacing2d.x / 2 / c
  have g0 : 0 < 2 * (c * Real.sinh z) := by
    have := Real.sinh_pos_iff.2 zx
    positivity
  rw [e] at hp
  have h := sqrt_support (y := k0.spacing2d.y) (g0 := 2 * (c * Real.sinh z))
    (g := 2 * (y / w * Real.sinh (k0.spacing2d.x / 2 / (y / w))))
    (s := 2 * (Real.sinh z - z * Real.cosh z)) (d := (y - x) / w) g0 (by linarith)
  refine le_trans (le_of_eq ?_) h
  ring

theorem length_slope {h : ℝ} (hh : k0.spacing.magnitude / 2 * k0.weightUnit.magnitude ≤ h) :
    k0.lengthSlope h < 0 ∧ -(0.75 / k0.weightUnit.magnitude) ≤ k0.lengthSlope h := by
  obtain ⟨_, c0, z0, z1⟩ := S.ratio hh
  obtain ⟨s0, s1⟩ := sinh_slope z0 z1
  have hw := S.w_pos
  unfold lengthSlope
  simp only
  set w := k0.weightUnit.magnitude
  set c := h / w
  set z := k0.spacing2d.x / 2 / c
  have g0 : 0 < 2 * (c * Real.sinh z) := by
    have := Real.sinh_pos_iff.2 z0
    positivity
  set g := 2 * (c * Real.sinh z)
  set L := √(k0.spacing2d.y ^ 2 + g ^ 2)
  have L0 : 0 < L := Real.sqrt_pos.2 (by positivity)
  have q0 : 0 < g / L := div_pos g0 L0
  have q1 : g / L ≤ 1 := by
    rw [div_le_one L0]
    apply Real.le_sqrt_of_sq_le
    have := sq_nonneg k0.spacing2d.y
    linarith
  constructor
  · apply div_neg_of_neg_of_pos _ hw
    exact mul_neg_of_pos_of_neg q0 (by linarith)
  · rw [← neg_div]
    apply div_le_div_of_nonneg_right _ hw.le
    nlinarith

theorem length_strict (x y : ℝ) (hx : k0.spacing.magnitude / 2 * k0.weightUnit.magnitude ≤ x)
    (hy : k0.spacing.magnitude / 2 * k0.weightUnit.magnitude ≤ y) (hne : x ≠ y) :
    k0.lengthFn x + k0.lengthSlope x * (y - x) < k0.lengthFn y := by
  obtain ⟨_, cx, zx, _⟩ := S.ratio hx
  obtain ⟨_, cy, zy, _⟩ := S.ratio hy
  have hw := S.w_pos
  have hp := perspective_strict (φ := Real.sinh) (φ' := Real.cosh)
    (fun u v hu hv h => sinh_tangent_strict hu.le hv.le h) (α := k0.spacing2d.x / 2)
    (by linarith [S.s2_pos]) cx cy (by
      intro h; apply hne; rwa [div_left_inj' hw.ne'] at h)
  unfold lengthFn lengthSlope
  simp only
  set w := k0.weightUnit.magnitude
  have e : y / w - x / w = (y - x) / w := by ring
  set c := x / w
  set z := k0.spacing2d.x / 2 / c
  have g0 : 0 < 2 * (c * Real.sinh z) := by
    have := Real.sinh_pos_iff.2 zx
    positivity
  rw [e] at hp
  have h := sqrt_strict (y := k0.spacing2d.y) (g0 := 2 * (c * Real.sinh z))
    (g := 2 * (y / w * Real.sinh (k0.spacing2d.x / 2 / (y / w))))
    (s := 2 * (Real.sinh z - z * Real.cosh z)) (d := (y - x) / w) g0 (by linarith)
  refine lt_of_le_of_lt (le_of_eq ?_) h
  ring

theorem length_anti {x y : ℝ} (hx : k0.spacing.magnitude / 2 * k0.weightUnit.magnitude ≤ x) (hxy : x < y) :
    k0.lengthFn y < k0.lengthFn x := by
  have h1 := length_supported S y x (by linarith) hx
  have h2 := (length_slope S (by linarith : _ ≤ y)).1
  have := mul_pos_of_neg_of_neg h2 (by linarith : x - y < 0)
  linarith

/-- The slope does not change by more than a factor of 6 between the least tension and 1.5 times it. -/
theorem length_slope_ratio {r : ℝ} (hr : k0.spacing.magnitude / 2 * k0.weightUnit.magnitude < r)
    (hr' : r ≤ 1.5 * (k0.spacing.magnitude / 2 * k0.weightUnit.magnitude)) :
    k0.lengthSlope r ≤
      0.16 * k0.lengthSlope (k0.spacing.magnitude / 2 * k0.weightUnit.magnitude) := by
  set x := k0.spacing.magnitude / 2 * k0.weightUnit.magnitude with hxdef
  obtain ⟨px, cx, zx, zx1⟩ := S.ratio (le_refl x)
  obtain ⟨pr, cr, zr, zr1⟩ := S.ratio hr.le
  have hL := length_anti S (le_refl x) hr
  have hw := S.w_pos
  have ha := S.s2_pos
  unfold lengthFn at hL
  unfold lengthSlope
  simp only
  set w := k0.weightUnit.magnitude
  set a := k0.spacing2d.x
  set Y := k0.spacing2d.y
  have hz : a / 2 / (r / w) ≥ (2 / 3) * (a / 2 / (x / w)) := by
    rw [ge_iff_le, le_div_iff₀ cr]
    have h1 : a / 2 / (x / w) * (x / w) = a / 2 := div_mul_cancel₀ _ cx.ne'
    have h2 : r / w ≤ 1.5 * (x / w) := by
      rw [← mul_div_assoc]; exact div_le_div_of_nonneg_right hr' hw.le
    have := mul_le_mul_of_nonneg_left h2 zx.le
    linarith
  have e1 : x / w * (a / 2 / (x / w)) = a / 2 := mul_div_cancel₀ _ cx.ne'
  have e2 : r / w * (a / 2 / (r / w)) = a / 2 := mul_div_cancel₀ _ cr.ne'
  set zr' := a / 2 / (r / w)
  set zx' := a / 2 / (x / w)
  have s1 : r / w * zr' ≤ r / w * Real.sinh zr' :=
    mul_le_mul_of_nonneg_left (Real.self_lt_sinh_iff.2 zr).le cr.le
  have s2 : x / w * Real.sinh zx' ≤ x / w * (1.18 * zx') :=
    mul_le_mul_of_nonneg_left (sinh_le_mul zx zx1) cx.le
  have gr : a ≤ 2 * (r / w * Real.sinh zr') := by linarith
  have gx : 2 * (x / w * Real.sinh zx') ≤ 1.18 * a := by linarith
  have gx0 : 0 < 2 * (x / w * Real.sinh zx') := by
    have := Real.sinh_pos_iff.2 zx
    positivity
  set Gr := 2 * (r / w * Real.sinh zr')
  set Gx := 2 * (x / w * Real.sinh zx')
  have Lr0 : 0 < √(Y ^ 2 + Gr ^ 2) := Real.sqrt_pos.2 (by nlinarith [sq_nonneg Y])
  have Lx0 : 0 < √(Y ^ 2 + Gx ^ 2) := Real.sqrt_pos.2 (by positivity)
  set Lr := √(Y ^ 2 + Gr ^ 2)
  set Lx := √(Y ^ 2 + Gx ^ 2)
  have q : Gx / Lx ≤ 1.18 * (Gr / Lr) := by
    rw [← mul_div_assoc, div_le_div_iff₀ Lx0 Lr0]
    have h1 : Gx * Lr ≤ Gx * Lx := mul_le_mul_of_nonneg_left hL.le gx0.le
    have h2 : Gx * Lx ≤ (1.18 * Gr) * Lx := mul_le_mul_of_nonneg_right (by linarith) Lx0.le
    linarith
  have q0 : 0 < Gx / Lx := div_pos gx0 Lx0
  have d1 := (sinh_slope_cubic zr zr1).1
  have d2 := (sinh_slope_cubic zx zx1).2
  have d3 : (8 / 27) * zx' ^ 3 ≤ zr' ^ 3 := by
    have := pow_le_pow_left₀ (by positivity) hz 3
    rw [mul_pow] at this
    norm_num at this ⊢
    linarith
  have z3 : 0 < zx' ^ 3 := by positivity
  have key : 0.16 * (Gx / Lx * (zx' * Real.cosh zx' - Real.sinh zx')) ≤
      Gr / Lr * (zr' * Real.cosh zr' - Real.sinh zr') := by
    have k1 : Gx / Lx * (zx' * Real.cosh zx' - Real.sinh zx') ≤ 1.18 * (Gr / Lr) * (0.515 * zx' ^ 3) :=
      mul_le_mul q d2 (by have := (sinh_slope zx zx1).1; linarith) (by linarith)
    have k2 : Gr / Lr * ((8 / 81) * zx' ^ 3) ≤ Gr / Lr * (zr' * Real.cosh zr' - Real.sinh zr') :=
      mul_le_mul_of_nonneg_left (by linarith) (by linarith)
    have k3 : 0 < Gr / Lr * zx' ^ 3 := mul_pos (by linarith) z3
    nlinarith
  rw [← mul_div_assoc]
  apply div_le_div_of_nonneg_right _ hw.le
  linarith

theorem length_answers :
    Answers (Fam k0) Catenary3d.length k0.lengthFn (k0.spacing.magnitude / 2 * k0.weightUnit.magnitude) where
  eval _ hk _ hh := length_fam S hk (S.ratio hh).1
  next _ hk h := (hk.step h).query
  set _ hk h := hk.step h

end

/-! ## Tension and sag of a level span -/

/-- Support tension of a level span. -/
noncomputable def levelTension (k0 : Catenary3d) (h : ℝ) : ℝ :=
  h * Real.cosh (k0.spacing2d.x / 2 / (h / k0.weightUnit.magnitude))

/-- Sag of a level span. -/
noncomputable def levelSag (k0 : Catenary3d) (h : ℝ) : ℝ :=
  h / k0.weightUnit.magnitude * (Real.cosh (k0.spacing2d.x / 2 / (h / k0.weightUnit.magnitude)) - 1)

/-- Slope of `levelTension`. -/
noncomputable def tensionSlope (k0 : Catenary3d) (h : ℝ) : ℝ :=
  let z := k0.spacing2d.x / 2 / (h / k0.weightUnit.magnitude)
  Real.cosh z - z * Real.sinh z

/-- Slope of `levelSag`. -/
noncomputable def sagSlope (k0 : Catenary3d) (h : ℝ) : ℝ :=
  (k0.tensionSlope h - 1) / k0.weightUnit.magnitude

section
variable {k0 k : Catenary3d} (S : k0.Span) (F : Fam k0 k) (hz : k0.spacing.z = 0) {h : ℝ} (hh : 0 < h)
include S F hz hh

theorem level_inner :
    let c := (k.setTension h).refresh.catenary2d
    c.Reachable ∧ c.Positive ∧ c.spacing.y = 0 ∧ c.mid = 0 ∧ c.tensionHorizontal = h ∧
      c.weightUnit = k0.weightUnit.magnitude ∧
      c.z = k0.spacing2d.x / 2 / (h / k0.weightUnit.magnitude) := by
  have P := F.physical S hh
  have F' := F.step h
  obtain ⟨r1, s1, w1⟩ := F'.1.inner
  have P2 := P.inner_positive F'.1
  have hy : k0.spacing2d.y = 0 := by unfold spacing2d; simp [hz]
  have ht : (k.setTension h).refresh.catenary2d.tensionHorizontal = h := (refresh_params _).2.2.2
  refine ⟨r1, P2, ?_, ?_, ht, ?_, ?_⟩
  · rw [s1, F'.spacing2d, hy]
  · unfold Catenary2d.mid; rw [s1, F'.spacing2d, hy]; simp
  · rw [w1, F'.2.2]
  · unfold Catenary2d.z
    rw [ht, s1, w1, F'.spacing2d, F'.2.2]

theorem tension_fam : (k.setTension h).tensionMax = k0.levelTension h := by
  obtain ⟨r, P2, hy, hm, ht, hw, hz'⟩ := level_inner S F hz hh
  unfold tensionMax Catenary2d.tensionMax
  rw [r.refresh_eq]
  unfold Catenary2d.tensionMaxBody
  rw [Catenary2d.update_sp, hy, if_pos (le_refl _), Catenary2d.tensionBody_update P2, Catenary2d.coordinateX_zero P2,
    Catenary2d.left_div P2, hm, zero_sub, Real.cosh_neg, ht, hz']
  rfl

theorem sag_fam : (k.setTension h).sag = k0.levelSag h := by
  obtain ⟨r, P2, hy, hm, ht, hw, hz'⟩ := level_inner S F hz hh
  set c := (k.setTension h).refresh.catenary2d with hc
  have e : (k.setTension h).sag = c.sagAt c.positionFractionSagPoint := rfl
  have hs := sagPoint_slope r P2
  rw [hy, zero_div, Real.sinh_eq_zero] at hs
  rw [e, sagAt_eq r P2, hy]
  unfold Catenary2d.coordinateY
  rw [hs, Catenary2d.left_div P2, hm, zero_sub, Real.cosh_neg, ht, hw, hz']
  unfold levelSag
  simp

end

section
variable {k0 : Catenary3d} (S : k0.Span)
include S

theorem tension_supported :
    Supported k0.levelTension k0.tensionSlope (k0.spacing.magnitude / 2 * k0.weightUnit.magnitude) := by
  intro x y hx hy
  obtain ⟨_, cx, zx, _⟩ := S.ratio hx
  obtain ⟨_, cy, zy, _⟩ := S.ratio hy
  have hw := S.w_pos
  have hp := perspective_support (φ := Real.cosh) (φ' := Real.sinh)
    (fun u v _ _ => cosh_tangent u v) (α := k0.spacing2d.x / 2) (by linarith [S.s2_pos]) cx cy
  unfold levelTension tensionSlope
  simp only
  set w := k0.weightUnit.magnitude
  have h := mul_le_mul_of_nonneg_left hp hw.le
  have e1 : w * (x / w) = x := mul_div_cancel₀ _ hw.ne'
  have e2 : w * (y / w) = y := mul_div_cancel₀ _ hw.ne'
  set u := k0.spacing2d.x / 2 / (x / w)
  set v := k0.spacing2d.x / 2 / (y / w)
  have e3 : w * (x / w * Real.cosh u + (Real.cosh u - u * Real.sinh u) * (y / w - x / w)) =
    (w * (x / w)) * Real.cosh u + (Real.cosh u - u * Real.sinh u) * (w * (y / w) - w * (x / w)) := by ring
  have e4 : w * (y / w * Real.cosh v) = (w * (y / w)) * Real.cosh v := by ring
  rw [e3, e4, e1, e2] at h
  exact h

theorem tension_slope {h : ℝ} (hh : k0.spacing.magnitude / 2 * k0.weightUnit.magnitude ≤ h) :
    0 < k0.tensionSlope h ∧ k0.tensionSlope h < 1 := by
  obtain ⟨_, c0, z0, z1⟩ := S.ratio hh
  exact cosh_slope z0 z1

theorem tension_strict (x y : ℝ) (hx : k0.spacing.magnitude / 2 * k0.weightUnit.magnitude ≤ x)
    (hy : k0.spacing.magnitude / 2 * k0.weightUnit.magnitude ≤ y) (hne : x ≠ y) :
    k0.levelTension x + k0.tensionSlope x * (y - x) < k0.levelTension y := by
  obtain ⟨_, cx, zx, _⟩ := S.ratio hx
  obtain ⟨_, cy, zy, _⟩ := S.ratio hy
  have hw := S.w_pos
  have hp := perspective_strict (φ := Real.cosh) (φ' := Real.sinh)
    (fun u v _ _ h => cosh_tangent_strict h) (α := k0.spacing2d.x / 2) (by linarith [S.s2_pos]) cx cy (by
      intro h; apply hne; rwa [div_left_inj' hw.ne'] at h)
  unfold levelTension tensionSlope
  simp only
  set w := k0.weightUnit.magnitude
  have h := mul_lt_mul_of_pos_left hp hw
  have e1 : w * (x / w) = x := mul_div_cancel₀ _ hw.ne'
  have e2 : w * (y / w) = y := mul_div_cancel₀ _ hw.ne'
  set u := k0.spacing2d.x / 2 / (x / w)
  set v := k0.spacing2d.x / 2 / (y / w)
  have e3 : w * (x / w * Real.cosh u + (Real.cosh u - u * Real.sinh u) * (y / w - x / w)) =
    (w * (x / w)) * Real.cosh u + (Real.cosh u - u * Real.sinh u) * (w * (y / w) - w * (x / w)) := by ring
  have e4 : w * (y / w * Real.cosh v) = (w * (y / w)) * Real.cosh v := by ring
  rw [e3, e4, e1, e2] at h
  exact h

theorem tension_slope_lower {h : ℝ} (hh : k0.spacing.magnitude / 2 * k0.weightUnit.magnitude ≤ h) :
    0.36 ≤ k0.tensionSlope h := by
  obtain ⟨_, c0, z0, z1⟩ := S.ratio hh
  unfold tensionSlope
  simp only
  set z := k0.spacing2d.x / 2 / (h / k0.weightUnit.magnitude)
  have h1 := cosh_tangent 1 z
  have h2 : Real.sinh z ≤ Real.sinh 1 := Real.sinh_le_sinh.2 z1
  have h3 := mul_le_mul_of_nonneg_left h2 z0.le
  have h5 : Real.cosh 1 - Real.sinh 1 = Real.exp (-1) := Real.cosh_sub_sinh 1
  have h6 : 0.36 ≤ Real.exp (-1) := by
    rw [Real.exp_neg, le_inv_comm₀ (by norm_num) (Real.exp_pos _)]
    have := Real.exp_one_lt_d9
    norm_num at this ⊢
    linarith
  linarith

theorem sag_supported :
    Supported k0.levelSag k0.sagSlope (k0.spacing.magnitude / 2 * k0.weightUnit.magnitude) := by
  intro x y hx hy
  have h := tension_supported S x y hx hy
  have hw := S.w_pos
  have e : ∀ x, k0.levelSag x = (k0.levelTension x - x) / k0.weightUnit.magnitude := by
    intro x; unfold levelSag levelTension; ring
  rw [e, e]
  unfold sagSlope
  have : (k0.levelTension x - x) / k0.weightUnit.magnitude + (k0.tensionSlope x - 1) / k0.weightUnit.magnitude * (y - x)
    = (k0.levelTension x + k0.tensionSlope x * (y - x) - y) / k0.weightUnit.magnitude := by ring
  rw [this]
  apply div_le_div_of_nonneg_right _ hw.le
  linarith

theorem sag_slope {h : ℝ} (hh : k0.spacing.magnitude / 2 * k0.weightUnit.magnitude ≤ h) :
    k0.sagSlope h < 0 ∧ -(1 / k0.weightUnit.magnitude) ≤ k0.sagSlope h := by
  obtain ⟨h0, h1⟩ := tension_slope S hh
  have hw := S.w_pos
  unfold sagSlope
  constructor
  · exact div_neg_of_neg_of_pos (by linarith) hw
  · rw [← neg_div]
    exact div_le_div_of_nonneg_right (by linarith) hw.le

theorem tension_answers (hz : k0.spacing.z = 0) :
    Answers (Fam k0) Catenary3d.tensionMax k0.levelTension
      (k0.spacing.magnitude / 2 * k0.weightUnit.magnitude) where
  eval _ hk _ hh := tension_fam S hk hz (S.ratio hh).1
  next _ hk h := (hk.step h).query
  set _ hk h := hk.step h

theorem sag_answers (hz : k0.spacing.z = 0) :
    Answers (Fam k0) Catenary3d.sag k0.levelSag
      (k0.spacing.magnitude / 2 * k0.weightUnit.magnitude) where
  eval _ hk _ hh := sag_fam S hk hz (S.ratio hh).1
  next _ hk h := (hk.step h).query
  set _ hk h := hk.step h

end

end Catenary3d
end Verif
