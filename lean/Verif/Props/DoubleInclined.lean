import Verif.Props.DoubleFinite
import Verif.Props.DoubleLine
import Mathlib.Analysis.Calculus.MeanValue
import Mathlib.Analysis.SpecialFunctions.Arsinh

/-! # Accuracy of catenaries with supports at different heights, in `double` arithmetic (C191) -/

set_option linter.unusedSectionVars false

namespace Verif.Props

open Verif.Double Verif.Double.Curve

namespace Inclined

/-! ### The functions -/

theorem cosh_le_four {x : ℝ} (h : |x| ≤ 2.02) : Real.cosh x ≤ 4 := by
  have h1 : Real.cosh x ≤ Real.cosh 2.02 := Real.cosh_le_cosh.mpr (by rwa [abs_of_pos (by norm_num : (0 : ℝ) < 2.02)])
  refine h1.trans ?_
  have e1 : Real.exp 2.02 ≤ 7.6 := by
    have a : Real.exp 2.02 = Real.exp 1 * Real.exp 1 * Real.exp 0.02 := by rw [← Real.exp_add, ← Real.exp_add]; norm_num
    have b := Real.exp_one_lt_d9
    have c : Real.exp 0.02 ≤ 1 / 0.98 := by
      have d := Real.add_one_le_exp (-0.02 : ℝ)
      rw [Real.exp_neg] at d
      have e := Real.exp_pos 0.02
      rw [le_inv_comm₀ (by norm_num) e] at d
      norm_num at d ⊢; linarith
    have d := Real.exp_pos 1
    have e := Real.exp_pos 0.02
    have f : Real.exp 1 * Real.exp 1 ≤ 2.7182818286 * 2.7182818286 := mul_le_mul b.le b.le d.le (by norm_num)
    rw [a]
    calc _ ≤ (2.7182818286 * 2.7182818286) * (1 / 0.98) := mul_le_mul f c e.le (by norm_num)
      _ ≤ 7.6 := by norm_num
  have e2 : Real.exp (-2.02) ≤ 0.4 := by
    have d := Real.add_one_le_exp (2.02 : ℝ)
    rw [Real.exp_neg, inv_le_comm₀ (Real.exp_pos _) (by norm_num)]
    norm_num at d ⊢; linarith
  rw [Real.cosh_eq]; linarith

theorem sinh_near {a b : ℝ} (ha : |a| ≤ 2.02) (hb : |b| ≤ 2.02) : |Real.sinh a - Real.sinh b| ≤ 4 * |a - b| := by
  have := (convex_Icc (-2.02 : ℝ) 2.02).norm_image_sub_le_of_norm_hasDerivWithin_le (f := Real.sinh) (f' := Real.cosh)
    (C := 4) (fun x _ => (Real.hasDerivAt_sinh x).hasDerivWithinAt)
    (fun x hx => by
      rw [Real.norm_eq_abs, abs_of_pos (Real.cosh_pos x)]
      exact cosh_le_four (abs_le.mpr hx)) (x := b) (y := a) (abs_le.mp hb) (abs_le.mp ha)
  simpa using this

theorem cosh_near {a b : ℝ} (ha : |a| ≤ 2.02) (hb : |b| ≤ 2.02) : |Real.cosh a - Real.cosh b| ≤ 4 * |a - b| := by
  have := (convex_Icc (-2.02 : ℝ) 2.02).norm_image_sub_le_of_norm_hasDerivWithin_le (f := Real.cosh) (f' := Real.sinh)
    (C := 4) (fun x _ => (Real.hasDerivAt_cosh x).hasDerivWithinAt)
    (fun x hx => by
      rw [Real.norm_eq_abs, Real.abs_sinh]
      refine (Real.sinh_lt_cosh _).le.trans ?_
      rw [Real.cosh_abs]
      exact cosh_le_four (abs_le.mpr hx)) (x := b) (y := a) (abs_le.mp hb) (abs_le.mp ha)
  simpa using this

theorem arsinh_near (a b : ℝ) : |Real.arsinh a - Real.arsinh b| ≤ |a - b| := by
  have := (convex_univ (𝕜 := ℝ) (E := ℝ)).norm_image_sub_le_of_norm_hasDerivWithin_le (f := Real.arsinh)
    (f' := fun x => (√(1 + x ^ 2))⁻¹) (C := 1) (fun x _ => (Real.hasDerivAt_arsinh x).hasDerivWithinAt)
    (fun x _ => by
      have h1 : 1 ≤ √(1 + x ^ 2) := Real.one_le_sqrt.mpr (by nlinarith [sq_nonneg x])
      rw [Real.norm_eq_abs, abs_of_nonneg (inv_nonneg.mpr (by linarith))]
      exact inv_le_one_of_one_le₀ h1) (x := b) (y := a) (Set.mem_univ _) (Set.mem_univ _)
  simpa using this

theorem abs_arsinh_le (a : ℝ) : |Real.arsinh a| ≤ |a| := by
  have := arsinh_near a 0
  simpa using this

theorem tan_near {a b : ℝ} (ha : |a| ≤ 0.79) (hb : |b| ≤ 0.79) : |Real.tan a - Real.tan b| ≤ 2.2 * |a - b| := by
  have hcos : ∀ x ∈ Set.Icc (-0.79 : ℝ) 0.79, 0.68 ≤ Real.cos x := by
    intro x hx
    have := Real.one_sub_sq_div_two_le_cos (x := x)
    nlinarith [hx.1, hx.2]
  have := (convex_Icc (-0.79 : ℝ) 0.79).norm_image_sub_le_of_norm_hasDerivWithin_le (f := Real.tan)
    (f' := fun x => 1 / Real.cos x ^ 2) (C := 2.2)
    (fun x hx => (Real.hasDerivAt_tan (by have := hcos x hx; linarith)).hasDerivWithinAt)
    (fun x hx => by
      have := hcos x hx
      rw [Real.norm_eq_abs, abs_of_nonneg (by positivity), div_le_iff₀ (by positivity)]
      nlinarith) (x := b) (y := a) (abs_le.mp hb) (abs_le.mp ha)
  simpa using this

/-! ### Rounded operations on multiples of a length -/

variable {C c : ℝ}

/-- An operand: a number of lengths `C` known up to `m` rounding errors. -/
def Near (C m a b : ℝ) : Prop := |a - b| ≤ m * u * C

theorem tiny_le {C : ℝ} (hC : (2 : ℝ) ^ (-200 : ℤ) ≤ C) : (2 : ℝ) ^ (-1074 : ℤ) ≤ u * u * C := by
  have h0 := u_pos
  calc (2 : ℝ) ^ (-1074 : ℤ) ≤ 2 ^ (-306 : ℤ) := two_zpow_le (by norm_num)
    _ = u * u * 2 ^ (-200 : ℤ) := by unfold u; rw [← zpow_add₀ (by norm_num), ← zpow_add₀ (by norm_num)]; norm_num
    _ ≤ u * u * C := mul_le_mul_of_nonneg_left hC (mul_pos h0 h0).le

theorem tiny_le' {C : ℝ} (hC : (2 : ℝ) ^ (-200 : ℤ) ≤ C) : (2 : ℝ) ^ (-1075 : ℤ) ≤ u * u * C :=
  (two_zpow_le (by norm_num)).trans (tiny_le hC)

theorem uC_small (hC : 0 < C) {m : ℝ} (m0 : 0 ≤ m) (hm : m ≤ 100000) : m * u * C ≤ 0.0001 * C ∧ m * u * u * C ≤ 0.0001 * (u * C) := by
  have h0 := u_pos
  have h1 := u_small
  have h2 : m * u ≤ 0.0001 := by nlinarith
  refine ⟨mul_le_mul_of_nonneg_right h2 hC.le, ?_⟩
  calc m * u * u * C = m * u * (u * C) := by ring
    _ ≤ _ := mul_le_mul_of_nonneg_right h2 (mul_pos h0 hC).le

/-- Rounding. -/
theorem Near.rnd {C m a b : ℝ} (h : Near C m a b) (hC : (2 : ℝ) ^ (-200 : ℤ) ≤ C) {r : ℝ} (hb : |b| ≤ r * C)
    (m0 : 0 ≤ m) (hm : m ≤ 100000) : Near C (m + r + 1) (Double.rnd a) b := by
  have hC0 : 0 < C := (two_zpow_pos _).trans_le hC
  have h0 := u_pos
  have h1 := u_small
  have e := rnd_error_le a
  have t := tiny_le' hC
  obtain ⟨s1, s2⟩ := uC_small hC0 m0 hm
  unfold Near at *
  generalize (2 : ℝ) ^ (-1075 : ℤ) = η at *
  have a1 : |a| ≤ r * C + m * u * C := by
    have := abs_sub_abs_le_abs_sub a b
    linarith
  have a2 : u * |a| ≤ u * (r * C + m * u * C) := mul_le_mul_of_nonneg_left a1 h0.le
  have a3 := abs_sub_le (Double.rnd a) a b
  have a4 : u * u * C ≤ 0.0001 * (u * C) := by
    have : 0 < u * C := by positivity
    nlinarith
  have a5 : 0 < u * C := by positivity
  nlinarith

theorem Near.add {C m n a b x y : ℝ} (h : Near C m a b) (h' : Near C n x y) : Near C (m + n) (a + x) (b + y) := by
  unfold Near at *
  have := abs_add_le (a - b) (x - y)
  calc |a + x - (b + y)| = |a - b + (x - y)| := by ring_nf
    _ ≤ _ := by nlinarith

theorem Near.sub {C m n a b x y : ℝ} (h : Near C m a b) (h' : Near C n x y) : Near C (m + n) (a - x) (b - y) := by
  unfold Near at *
  have := abs_sub (a - b) (x - y)
  calc |a - x - (b - y)| = |a - b - (x - y)| := by ring_nf
    _ ≤ _ := by nlinarith

theorem Near.mono {C m n a b : ℝ} (hC : 0 < C) (h : Near C m a b) (hmn : m ≤ n) : Near C n a b := by
  unfold Near at *
  have := u_pos
  refine h.trans ?_
  gcongr

theorem Near.abs_le {C m a b r : ℝ} (hC : 0 < C) (h : Near C m a b) (hb : |b| ≤ r * C) (m0 : 0 ≤ m) (hm : m ≤ 100000) :
    |a| ≤ (r + 0.0001) * C := by
  obtain ⟨s1, -⟩ := uC_small hC m0 hm
  unfold Near at *
  have := abs_sub_abs_le_abs_sub a b
  linarith

/-- Division by the length. -/
theorem Near.div {m a b : ℝ} (h : Near C m a b) (hC : (2 : ℝ) ^ (-200 : ℤ) ≤ C) (hc : |c - C| ≤ u * C) (hb : |b| ≤ 4 * C)
    (m0 : 0 ≤ m) (hm : m ≤ 90000) : Near 1 (m + 10) (Double.rnd (a / c)) (b / C) := by
  have hC0 : 0 < C := (two_zpow_pos _).trans_le hC
  have h0 := u_pos
  have h1 := u_small
  have c1 := _root_.abs_le.mp hc
  have hc0' : 0 < c := by nlinarith
  have key : Near 1 (m + 4.5) (a / c) (b / C) := by
    unfold Near at *
    have e : a / c - b / C = ((a - b) - b / C * (c - C)) / c := by field_simp; ring
    rw [e, abs_div, abs_of_pos hc0', div_le_iff₀ hc0']
    have b1 : |b / C| ≤ 4 := by rw [abs_div, abs_of_pos hC0, div_le_iff₀ hC0]; exact hb
    have b2 : |b / C * (c - C)| ≤ 4 * (u * C) := by
      rw [abs_mul]; exact mul_le_mul b1 hc (abs_nonneg _) (by norm_num)
    have b3 := abs_sub (a - b) (b / C * (c - C))
    have b4 : (m + 4.5) * u * 1 * ((1 - u) * C) ≤ (m + 4.5) * u * 1 * c := by
      refine mul_le_mul_of_nonneg_left (by linarith) (by positivity)
    have b5 : (m + 4.5) * u ≤ 0.01 := by nlinarith
    have b6 : 0 < u * C := by positivity
    have b7 : (m + 4.5) * u * (u * C) ≤ 0.01 * (u * C) := mul_le_mul_of_nonneg_right b5 b6.le
    nlinarith
  refine (key.rnd (r := 4) ?_ ?_ (by linarith) (by linarith)).mono one_pos (by linarith)
  · calc (2 : ℝ) ^ (-200 : ℤ) ≤ 2 ^ (0 : ℤ) := two_zpow_le (by norm_num)
      _ = 1 := by norm_num
  · rw [abs_div, abs_of_pos hC0, div_le_iff₀ hC0]; linarith

theorem one_ok : (2 : ℝ) ^ (-200 : ℤ) ≤ 1 :=
  calc (2 : ℝ) ^ (-200 : ℤ) ≤ 2 ^ (0 : ℤ) := two_zpow_le (by norm_num)
    _ = 1 := by norm_num

/-- Multiplication by the length. -/
theorem Near.mul {m a b : ℝ} (h : Near 1 m a b) (hC : (2 : ℝ) ^ (-200 : ℤ) ≤ C) (hc : |c - C| ≤ u * C) (hb : |b| ≤ 4)
    (m0 : 0 ≤ m) (hm : m ≤ 90000) : Near C (m + 10) (Double.rnd (c * a)) (C * b) := by
  have hC0 : 0 < C := (two_zpow_pos _).trans_le hC
  have h0 := u_pos
  have h1 := u_small
  have c1 := _root_.abs_le.mp hc
  have hc0' : 0 < c := by nlinarith
  have key : Near C (m + 4.5) (c * a) (C * b) := by
    unfold Near at *
    have e : c * a - C * b = c * (a - b) + (c - C) * b := by ring
    have b1 : |c * (a - b)| ≤ ((1 + u) * C) * (m * u) := by
      rw [abs_mul, abs_of_pos hc0']
      exact mul_le_mul (by linarith) (by linarith) (abs_nonneg _) (by positivity)
    have b2 : |(c - C) * b| ≤ (u * C) * 4 := by
      rw [abs_mul]; exact mul_le_mul hc hb (abs_nonneg _) (by positivity)
    have b3 := abs_add_le (c * (a - b)) ((c - C) * b)
    have b5 : m * u ≤ 0.01 := by nlinarith
    have b6 : 0 < u * C := by positivity
    have b7 : m * u * (u * C) ≤ 0.01 * (u * C) := mul_le_mul_of_nonneg_right b5 b6.le
    rw [e]
    nlinarith
  refine (key.rnd (r := 4) hC ?_ (by linarith) (by linarith)).mono hC0 (by linarith)
  rw [abs_mul, abs_of_pos hC0, mul_comm]
  exact mul_le_mul_of_nonneg_right hb hC0.le

theorem near_abs {m a b r : ℝ} (h : Near 1 m a b) (hb : |b| ≤ r) (m0 : 0 ≤ m) (hm : m ≤ 100000) : |a| ≤ r + 0.0001 := by
  have := h.abs_le one_pos (r := r) (by linarith) m0 hm
  linarith

theorem sinh_abs {b : ℝ} (hb : |b| ≤ 2.02) : |Real.sinh b| ≤ 4 := by
  rw [Real.abs_sinh]
  refine (Real.sinh_lt_cosh _).le.trans ?_
  rw [Real.cosh_abs]
  exact cosh_le_four hb

variable (L : CurveLibrary)

theorem lib_sinh_near {m a b : ℝ} (h : Near 1 m a b) (ha : IsDouble a) (hb : |b| ≤ 2) (m0 : 0 ≤ m) (hm : m ≤ 100000) :
    Near 1 (4 * m + 10) (L.sinh a) (Real.sinh b) := by
  have h0 := u_pos
  have a1 : |a| ≤ 2.02 := (near_abs h hb m0 hm).trans (by norm_num)
  have e1 := (L.sinh_faithful a ha).error_le
  have e2 := sinh_near a1 (hb.trans (by norm_num))
  have e3 := sinh_abs a1
  have e4 := abs_sub_le (L.sinh a) (Real.sinh a) (Real.sinh b)
  have e5 := mul_le_mul_of_nonneg_left e3 h0.le
  have t := tiny_le_u.1
  unfold Near at *
  generalize (2 : ℝ) ^ (-1074 : ℤ) = η at *
  linarith

theorem lib_cosh_near {m a b : ℝ} (h : Near 1 m a b) (ha : IsDouble a) (hb : |b| ≤ 2) (m0 : 0 ≤ m) (hm : m ≤ 100000) :
    Near 1 (4 * m + 10) (L.cosh a) (Real.cosh b) := by
  have h0 := u_pos
  have a1 : |a| ≤ 2.02 := (near_abs h hb m0 hm).trans (by norm_num)
  have e1 := (L.cosh_faithful a ha).error_le
  have e2 := cosh_near a1 (hb.trans (by norm_num))
  have e3 := cosh_le_four a1
  rw [← abs_of_pos (Real.cosh_pos a)] at e3
  have e4 := abs_sub_le (L.cosh a) (Real.cosh a) (Real.cosh b)
  have e5 := mul_le_mul_of_nonneg_left e3 h0.le
  have t := tiny_le_u.1
  unfold Near at *
  generalize (2 : ℝ) ^ (-1074 : ℤ) = η at *
  linarith

theorem lib_asinh_near {m a b : ℝ} (h : Near 1 m a b) (ha : IsDouble a) (hb : |b| ≤ 4) (m0 : 0 ≤ m) (hm : m ≤ 100000) :
    Near 1 (m + 10) (L.asinh a) (Real.arsinh b) := by
  have h0 := u_pos
  have a1 : |a| ≤ 4.1 := (near_abs h hb m0 hm).trans (by norm_num)
  have e1 := (L.asinh_faithful a ha).error_le
  have e2 := arsinh_near a b
  have e3 := (abs_arsinh_le a).trans a1
  have e4 := abs_sub_le (L.asinh a) (Real.arsinh a) (Real.arsinh b)
  have e5 := mul_le_mul_of_nonneg_left e3 h0.le
  have t := tiny_le_u.1
  unfold Near at *
  generalize (2 : ℝ) ^ (-1074 : ℤ) = η at *
  linarith

/-! ### The span -/

/-- A span not longer than twice the constant and not steeper than 45 degrees, with positive parameters, none of them
absurdly large or small. -/
structure Span (k : Catenary2d) : Prop where
  doubles : IsDouble k.tensionHorizontal ∧ IsDouble k.weightUnit ∧ IsDouble k.spacing.x ∧ IsDouble k.spacing.y
  tension : 2 ^ (-100 : ℤ) ≤ k.tensionHorizontal ∧ k.tensionHorizontal ≤ 2 ^ (100 : ℤ)
  weight : 2 ^ (-100 : ℤ) ≤ k.weightUnit ∧ k.weightUnit ≤ 2 ^ (100 : ℤ)
  spacing : 2 ^ (-100 : ℤ) ≤ k.spacing.x ∧ k.spacing.x ≤ 2 ^ (100 : ℤ)
  short : k.spacing.x ≤ 2 * (k.tensionHorizontal / k.weightUnit)
  flat : |k.spacing.y| ≤ k.spacing.x

variable {L} {k : Catenary2d}

theorem Span.level (h : Span k) : LevelSpan { k with spacing := ⟨k.spacing.x, 0⟩ } :=
  ⟨rfl, ⟨h.doubles.1, h.doubles.2.1, h.doubles.2.2.1⟩, h.tension, h.weight, h.spacing⟩

theorem Span.positive (h : Span k) : k.Positive :=
  ⟨(two_zpow_pos _).trans_le h.tension.1, (two_zpow_pos _).trans_le h.weight.1, (two_zpow_pos _).trans_le h.spacing.1⟩

theorem Span.constant_ge (h : Span k) : (2 : ℝ) ^ (-200 : ℤ) ≤ k.tensionHorizontal / k.weightUnit := by
  have := zpow_div_le h.tension.1 h.positive.w h.weight.2
  simpa using this

theorem Span.constant (h : Span k) :
    |Curve.constant k - k.tensionHorizontal / k.weightUnit| ≤ u * (k.tensionHorizontal / k.weightUnit) := by
  have := rnd_relative (not_tiny h.constant_ge (by norm_num))
  rwa [abs_of_pos ((two_zpow_pos _).trans_le h.constant_ge)] at this

theorem Span.halfAngle (h : Span k) : Close 3 (Props.halfAngle k) k.z := (level_close h.level).2.2.1

theorem Span.z_pos (h : Span k) : 0 < k.z ∧ k.z ≤ 1 ∧ (2 : ℝ) ^ (-302 : ℤ) ≤ k.z := by
  have P := h.positive
  have hC := (two_zpow_pos _).trans_le h.constant_ge
  unfold Catenary2d.z
  refine ⟨div_pos (by linarith [P.a]) hC, ?_, ?_⟩
  · rw [div_le_one hC]; linarith [h.short]
  · have h1 : (2 : ℝ) ^ (-101 : ℤ) ≤ k.spacing.x / 2 := by
      have := zpow_div_le (e := 1) h.spacing.1 (by norm_num : (0 : ℝ) < 2) (by norm_num)
      simpa using this
    have h2 : k.tensionHorizontal / k.weightUnit ≤ 2 ^ (201 : ℤ) := by
      rw [div_le_iff₀ P.w]
      calc k.tensionHorizontal ≤ 2 ^ (100 : ℤ) := h.tension.2
        _ ≤ 2 ^ (201 : ℤ) * 2 ^ (-100 : ℤ) := by
          rw [← zpow_add₀ (by norm_num)]; exact two_zpow_le (by norm_num)
        _ ≤ _ := mul_le_mul_of_nonneg_left h.weight.1 (two_zpow_pos _).le
    have := zpow_div_le h1 hC h2
    simpa using this

/-- The quotient `z / sinh z` changes little. -/
theorem ratio_near {a b : ℝ} (ha : 0 < a) (hb : 0 < b) (ha1 : a ≤ 1.1) (hb1 : b ≤ 1.1) {δ : ℝ} (h1 : |a - b| ≤ δ * a)
    (h2 : |a - b| ≤ δ * b) : |a / Real.sinh a - b / Real.sinh b| ≤ 2.1 * δ := by
  have key : ∀ {a b : ℝ}, 0 < a → a ≤ b → b ≤ 1.1 → b - a ≤ δ * b →
      |a / Real.sinh a - b / Real.sinh b| ≤ 2.1 * δ := by
    intro a b ha hab hb h
    have hb0 : 0 < b := by linarith
    have sa := Real.sinh_pos_iff.mpr ha
    have sb := Real.sinh_pos_iff.mpr hb0
    have la : a ≤ Real.sinh a := Real.self_le_sinh_iff.mpr ha.le
    have lb : b ≤ Real.sinh b := Real.self_le_sinh_iff.mpr hb0.le
    have e : a / Real.sinh a - b / Real.sinh b =
        (a * (Real.sinh b - Real.sinh a) - (b - a) * Real.sinh a) / (Real.sinh a * Real.sinh b) := by
      field_simp; ring
    have s1 : Real.sinh b - Real.sinh a ≤ (b - a) * 2.1 := by
      have := (convex_Icc (0 : ℝ) 1.1).norm_image_sub_le_of_norm_hasDerivWithin_le (f := Real.sinh) (f' := Real.cosh)
        (C := 2.1) (fun x _ => (Real.hasDerivAt_sinh x).hasDerivWithinAt)
        (fun x hx => by
          rw [Real.norm_eq_abs, abs_of_pos (Real.cosh_pos x)]
          refine (Real.cosh_le_cosh.mpr ?_).trans sinh_bound_here.2
          rw [abs_of_nonneg hx.1, abs_of_pos (by norm_num : (0 : ℝ) < 1.1)]; exact hx.2)
        (x := a) (y := b) ⟨ha.le, by linarith⟩ ⟨hb0.le, hb⟩
      rw [Real.norm_eq_abs, Real.norm_eq_abs, abs_of_nonneg (sub_nonneg.mpr hab)] at this
      have := (le_abs_self _).trans this
      linarith
    have s2 : 0 ≤ Real.sinh b - Real.sinh a := sub_nonneg.mpr (Real.sinh_le_sinh.mpr hab)
    have hp : 0 < Real.sinh a * Real.sinh b := mul_pos sa sb
    rw [e, abs_div, abs_of_pos hp, div_le_iff₀ hp, _root_.abs_le]
    have hδ : 0 ≤ δ := by
      by_contra hn
      nlinarith
    have p1 : a * (Real.sinh b - Real.sinh a) ≤ a * ((δ * b) * 2.1) := by
      refine mul_le_mul_of_nonneg_left (s1.trans ?_) ha.le
      exact mul_le_mul_of_nonneg_right h (by norm_num)
    have p2 : a * b ≤ Real.sinh a * Real.sinh b := mul_le_mul la lb hb0.le sa.le
    have p3 : (b - a) * Real.sinh a ≤ (δ * b) * Real.sinh a := mul_le_mul_of_nonneg_right h sa.le
    have p4 : δ * b * Real.sinh a ≤ δ * (Real.sinh a * Real.sinh b) := by
      calc δ * b * Real.sinh a = δ * (Real.sinh a * b) := by ring
        _ ≤ _ := by gcongr
    have p5 : 0 ≤ (b - a) * Real.sinh a := mul_nonneg (by linarith) sa.le
    have p6 : 0 ≤ a * (Real.sinh b - Real.sinh a) := mul_nonneg ha.le s2
    have p7 : a * ((δ * b) * 2.1) ≤ 2.1 * δ * (Real.sinh a * Real.sinh b) := by
      calc a * ((δ * b) * 2.1) = 2.1 * δ * (a * b) := by ring
        _ ≤ _ := by gcongr
    constructor <;> nlinarith [mul_nonneg hδ hp.le]
  rcases le_total a b with hab | hab
  · exact key ha hab hb1 (by rw [abs_sub_comm, abs_of_nonneg (by linarith)] at h2; exact h2)
  · rw [abs_sub_comm]
    exact key hb hab ha1 (by rw [abs_of_nonneg (by linarith)] at h1; exact h1)

/-- The argument of the middle between the supports. -/
theorem Span.argument (h : Span k) :
    Near 1 26 (rnd (rnd (k.spacing.y * Props.halfAngle k) / rnd (k.spacing.x * L.sinh (Props.halfAngle k))))
      ((k.spacing.y * k.z) / (k.spacing.x * Real.sinh k.z)) ∧
    |(k.spacing.y * k.z) / (k.spacing.x * Real.sinh k.z)| ≤ 1 := by
  have hu0 := u_pos
  have hu := u_small
  have P := h.positive
  have hx := P.a
  obtain ⟨z0, z1, z2⟩ := h.z_pos
  have c3 := h.halfAngle
  have hzd : IsDouble (Props.halfAngle k) := rnd_isDouble _
  have hz0 : 0 < Props.halfAngle k := by
    have := (level_close h.level).1
    have h1 : 0 ≤ Props.halfAngle k :=
      rnd_nonneg (div_nonneg (rnd_nonneg (by linarith)) this.le)
    rcases h1.eq_or_lt with h2 | h2
    · exact absurd (c3.zero_iff.mp h2.symm) z0.ne'
    · exact h2
  have e3 := c3.error (by norm_num)
  have e3' := c3.symm.error (by norm_num)
  have hzt := not_tiny_close c3 (by norm_num) z2 (by norm_num)
  have hzl : (2 : ℝ) ^ (-303 : ℤ) ≤ Props.halfAngle k := by
    have := c3.abs_ge (by norm_num)
    rw [abs_of_pos z0, abs_of_pos hz0] at this
    refine le_trans ?_ this
    rw [show (-303 : ℤ) = -302 + -1 by norm_num, zpow_add₀ (by norm_num)]
    have := two_zpow_pos (-302)
    norm_num at z2 ⊢
    linarith
  set zh := Props.halfAngle k with hzh
  rw [abs_of_pos z0] at e3
  rw [abs_of_pos hz0] at e3'
  push_cast at e3 e3'
  have zh1 : zh ≤ 1.1 := by
    have := (_root_.abs_le.mp e3).2
    nlinarith
  -- the denominator
  have sz : zh ≤ Real.sinh zh := Real.self_le_sinh_iff.mpr hz0.le
  have sz0 : 0 < Real.sinh zh := hz0.trans_le sz
  have d1 : Close 3 (L.sinh zh) (Real.sinh zh) :=
    (L.sinh_faithful zh hzd).close (by rw [abs_of_pos sz0]; exact (two_zpow_le (by norm_num)).trans (hzl.trans sz))
  have D0 : 0 < k.spacing.x * Real.sinh zh := mul_pos hx sz0
  have Dl : (2 : ℝ) ^ (-403 : ℤ) ≤ k.spacing.x * Real.sinh zh := by
    have := zpow_mul_le h.spacing.1 (hzl.trans sz)
    simpa using this
  have d2 : Close 3 (k.spacing.x * L.sinh zh) (k.spacing.x * Real.sinh zh) := by
    have := (Close.refl k.spacing.x).mul d1
    simpa using this
  have d3 : Close 4 (rnd (k.spacing.x * L.sinh zh)) (k.spacing.x * Real.sinh zh) :=
    d2.rnd (not_tiny_close d2 (by norm_num) Dl (by norm_num))
  have d4 := d3.error (by norm_num)
  rw [abs_of_pos D0] at d4
  push_cast at d4
  -- the numerator
  have n1 := rnd_error_le (k.spacing.y * zh)
  have tiny : (2 : ℝ) ^ (-1075 : ℤ) ≤ u * (k.spacing.x * Real.sinh zh) := by
    calc (2 : ℝ) ^ (-1075 : ℤ) ≤ 2 ^ (-53 + -403 : ℤ) := two_zpow_le (by norm_num)
      _ = u * 2 ^ (-403 : ℤ) := by unfold u; rw [zpow_add₀ (by norm_num)]
      _ ≤ _ := mul_le_mul_of_nonneg_left Dl hu0.le
  have A1 : |k.spacing.y * zh| ≤ k.spacing.x * Real.sinh zh := by
    rw [abs_mul, abs_of_pos hz0]
    exact mul_le_mul h.flat sz hz0.le hx.le
  have q1 : Near 1 11 (rnd (k.spacing.y * zh) / rnd (k.spacing.x * L.sinh zh))
      ((k.spacing.y * zh) / (k.spacing.x * Real.sinh zh)) := by
    generalize rnd (k.spacing.y * zh) = N' at *
    generalize rnd (k.spacing.x * L.sinh zh) = D' at *
    generalize k.spacing.y * zh = N at *
    generalize k.spacing.x * Real.sinh zh = D at *
    generalize (2 : ℝ) ^ (-1075 : ℤ) = η at *
    have D'0 : 0.99 * D ≤ D' := by have := (_root_.abs_le.mp d4).1; nlinarith
    have D'1 : 0 < D' := by nlinarith
    have e : N' / D' - N / D = ((N' - N) - N / D * (D' - D)) / D' := by field_simp; ring
    unfold Near
    rw [e, abs_div, abs_of_pos D'1, div_le_iff₀ D'1]
    have b1 : |N / D| ≤ 1 := by rw [abs_div, abs_of_pos D0, div_le_one D0]; exact A1
    have b2 : |N / D * (D' - D)| ≤ 1 * (2 * 4 * u * D) := by
      rw [abs_mul]; exact mul_le_mul b1 d4 (abs_nonneg _) (by norm_num)
    have b3 := abs_sub (N' - N) (N / D * (D' - D))
    have b4 := mul_le_mul_of_nonneg_left A1 hu0.le
    have b5 : u * (0.99 * D) ≤ u * D' := mul_le_mul_of_nonneg_left D'0 hu0.le
    nlinarith
  -- the change of the quotient
  have szz : k.z ≤ Real.sinh k.z := Real.self_le_sinh_iff.mpr z0.le
  have szz0 : 0 < Real.sinh k.z := z0.trans_le szz
  have r1 := ratio_near (δ := 6 * u) hz0 z0 zh1 (by linarith) (by rw [abs_sub_comm]; linarith) (by linarith)
  have slope : |k.spacing.y / k.spacing.x| ≤ 1 := by
    rw [abs_div, abs_of_pos hx, div_le_one hx]; exact h.flat
  have q2 : Near 1 13 ((k.spacing.y * zh) / (k.spacing.x * Real.sinh zh))
      ((k.spacing.y * k.z) / (k.spacing.x * Real.sinh k.z)) := by
    unfold Near
    have e : (k.spacing.y * zh) / (k.spacing.x * Real.sinh zh) - (k.spacing.y * k.z) / (k.spacing.x * Real.sinh k.z) =
        k.spacing.y / k.spacing.x * (zh / Real.sinh zh - k.z / Real.sinh k.z) := by field_simp
    rw [e, abs_mul]
    calc _ ≤ 1 * (2.1 * (6 * u)) := mul_le_mul slope r1 (abs_nonneg _) (by norm_num)
      _ ≤ _ := by linarith
  have A2 : |(k.spacing.y * k.z) / (k.spacing.x * Real.sinh k.z)| ≤ 1 := by
    rw [abs_div, abs_of_pos (mul_pos hx szz0), div_le_one (mul_pos hx szz0), abs_mul, abs_of_pos z0]
    exact mul_le_mul h.flat szz z0.le hx.le
  have q3 : Near 1 24 (rnd (k.spacing.y * zh) / rnd (k.spacing.x * L.sinh zh))
      ((k.spacing.y * k.z) / (k.spacing.x * Real.sinh k.z)) := by
    unfold Near at *
    refine (abs_sub_le _ _ _).trans ((add_le_add q1 q2).trans ?_)
    linarith
  refine ⟨(q3.rnd one_ok (r := 1) (by linarith) (by norm_num) (by norm_num)).mono one_pos (by norm_num), A2⟩

theorem Span.mid_abs (h : Span k) : |k.mid| ≤ 1 := (abs_arsinh_le _).trans (h.argument (L := roundedCurveLibrary)).2

theorem Span.angles (h : Span k) : |k.mid - k.z| ≤ 2 ∧ |k.mid + k.z| ≤ 2 := by
  have a := _root_.abs_le.mp h.mid_abs
  obtain ⟨z0, z1, -⟩ := h.z_pos
  rw [_root_.abs_le, _root_.abs_le]
  refine ⟨⟨?_, ?_⟩, ?_, ?_⟩ <;> linarith

/-- The ends. -/
theorem Span.ends (h : Span k) :
    Near (k.tensionHorizontal / k.weightUnit) 55 (Curve.update L k).left.x k.update.left.x ∧
    Near (k.tensionHorizontal / k.weightUnit) 55 (Curve.update L k).right.x k.update.right.x := by
  obtain ⟨q, A⟩ := h.argument (L := L)
  obtain ⟨z0, z1, -⟩ := h.z_pos
  have s : Near 1 36 (Props.tilt L k) k.mid :=
    (lib_asinh_near L q (rnd_isDouble _) (by linarith) (by norm_num) (by norm_num)).mono one_pos (by norm_num)
  have hz : Near 1 6 (Props.halfAngle k) k.z := by
    have e3 := h.halfAngle.error (by norm_num)
    rw [abs_of_pos z0] at e3
    push_cast at e3
    unfold Near
    have := u_pos
    nlinarith
  obtain ⟨a1, a2⟩ := h.angles
  have l := ((s.sub hz).rnd one_ok (r := 2) (by linarith) (by norm_num) (by norm_num))
  have r := ((s.add hz).rnd one_ok (r := 2) (by linarith) (by norm_num) (by norm_num))
  have hC0 := (two_zpow_pos _).trans_le h.constant_ge
  refine ⟨?_, ?_⟩
  · exact (l.mul h.constant_ge h.constant (by linarith) (by norm_num) (by norm_num)).mono hC0 (by norm_num)
  · exact (r.mul h.constant_ge h.constant (by linarith) (by norm_num) (by norm_num)).mono hC0 (by norm_num)

theorem Span.ends_abs (h : Span k) :
    |k.update.left.x| ≤ 2 * (k.tensionHorizontal / k.weightUnit) ∧ |k.update.right.x| ≤ 2 * (k.tensionHorizontal / k.weightUnit) := by
  have hC0 := (two_zpow_pos _).trans_le h.constant_ge
  obtain ⟨a1, a2⟩ := h.angles
  rw [Catenary2d.update_left, Catenary2d.update_right, abs_mul, abs_mul, abs_of_pos hC0]
  constructor <;> nlinarith

theorem Span.arg (h : Span k) {m a b : ℝ} (n : Near (k.tensionHorizontal / k.weightUnit) m a b)
    (hb : |b| ≤ 2 * (k.tensionHorizontal / k.weightUnit)) (m0 : 0 ≤ m) (hm : m ≤ 20000) :
    Near 1 (m + 10) (rnd (a / Curve.constant k)) (b / (k.tensionHorizontal / k.weightUnit)) ∧
    |b / (k.tensionHorizontal / k.weightUnit)| ≤ 2 := by
  have hC0 := (two_zpow_pos _).trans_le h.constant_ge
  refine ⟨n.div h.constant_ge h.constant (by linarith) m0 (by linarith), ?_⟩
  rw [abs_div, abs_of_pos hC0, div_le_iff₀ hC0]; exact hb

/-- Lengths from the low point. -/
theorem Span.length (h : Span k) {m a b : ℝ} (n : Near (k.tensionHorizontal / k.weightUnit) m a b)
    (hb : |b| ≤ 2 * (k.tensionHorizontal / k.weightUnit)) (m0 : 0 ≤ m) (hm : m ≤ 20000) :
    Near (k.tensionHorizontal / k.weightUnit) (4 * m + 60) (Curve.lengthFromOrigin L k a) (k.lengthFromOrigin b) ∧
    |k.lengthFromOrigin b| ≤ 4 * (k.tensionHorizontal / k.weightUnit) := by
  have hC0 := (two_zpow_pos _).trans_le h.constant_ge
  obtain ⟨d1, d2⟩ := h.arg n hb m0 hm
  have s := lib_sinh_near L d1 (rnd_isDouble _) d2 (by linarith) (by linarith)
  have s2 := sinh_abs (d2.trans (by norm_num))
  refine ⟨(s.mul h.constant_ge h.constant s2 (by linarith) (by linarith)).mono hC0 (by linarith), ?_⟩
  unfold Catenary2d.lengthFromOrigin
  rw [abs_mul, abs_of_pos hC0, mul_comm]
  exact mul_le_mul_of_nonneg_right s2 hC0.le

/-- Heights above the low point. -/
theorem Span.height (h : Span k) {m a b : ℝ} (n : Near (k.tensionHorizontal / k.weightUnit) m a b)
    (hb : |b| ≤ 2 * (k.tensionHorizontal / k.weightUnit)) (m0 : 0 ≤ m) (hm : m ≤ 20000) :
    Near (k.tensionHorizontal / k.weightUnit) (4 * m + 65) (Curve.coordinateY L k a) (k.coordinateY b) ∧
    |k.coordinateY b| ≤ 3 * (k.tensionHorizontal / k.weightUnit) := by
  have hC0 := (two_zpow_pos _).trans_le h.constant_ge
  obtain ⟨d1, d2⟩ := h.arg n hb m0 hm
  have s := lib_cosh_near L d1 (rnd_isDouble _) d2 (by linarith) (by linarith)
  have s2 : |Real.cosh (b / (k.tensionHorizontal / k.weightUnit)) - 1| ≤ 3 := by
    have a1 := cosh_le_four (d2.trans (by norm_num : (2 : ℝ) ≤ 2.02))
    have a2 := Real.one_le_cosh (b / (k.tensionHorizontal / k.weightUnit))
    rw [abs_of_nonneg (by linarith)]; linarith
  have one : Near 1 0 1 1 := by unfold Near; simp
  have t := (s.sub one).rnd one_ok (r := 3) (by linarith) (by linarith) (by linarith)
  refine ⟨(t.mul h.constant_ge h.constant (by linarith) (by linarith) (by linarith)).mono hC0 (by linarith), ?_⟩
  unfold Catenary2d.coordinateY
  rw [abs_mul, abs_of_pos hC0, mul_comm]
  exact mul_le_mul_of_nonneg_right s2 hC0.le

/-- The length of the curve. -/
theorem Span.lengths (h : Span k) :
    Near (k.tensionHorizontal / k.weightUnit) 280 (Curve.update L k).lengthLeft k.update.lengthLeft ∧
    Near (k.tensionHorizontal / k.weightUnit) 569 (Curve.update L k).length k.update.length ∧
    |k.update.lengthLeft| ≤ 4 * (k.tensionHorizontal / k.weightUnit) ∧
    |k.update.lengthLeft + k.update.length| ≤ 4 * (k.tensionHorizontal / k.weightUnit) ∧
    |k.update.length| ≤ 8 * (k.tensionHorizontal / k.weightUnit) := by
  have hC0 := (two_zpow_pos _).trans_le h.constant_ge
  obtain ⟨l, r⟩ := h.ends (L := L)
  obtain ⟨la, ra⟩ := h.ends_abs
  obtain ⟨l1, l2⟩ := h.length (L := L) l la (by norm_num) (by norm_num)
  obtain ⟨r1, r2⟩ := h.length (L := L) r ra (by norm_num) (by norm_num)
  have e : k.update.length = k.lengthFromOrigin k.update.right.x - k.lengthFromOrigin k.update.left.x := rfl
  have b : |k.lengthFromOrigin k.update.right.x - k.lengthFromOrigin k.update.left.x| ≤
      8 * (k.tensionHorizontal / k.weightUnit) := (abs_sub _ _).trans (by linarith)
  refine ⟨l1.mono hC0 (by norm_num), ?_, l2, ?_, ?_⟩
  · exact ((r1.sub l1).rnd h.constant_ge b (by norm_num) (by norm_num)).mono hC0 (by norm_num)
  · rw [e, Catenary2d.update_lengthLeft, add_sub_cancel]; exact r2
  · rw [e]; exact b

/-- A point from its length. -/
theorem Span.point (h : Span k) {m a b : ℝ} (n : Near (k.tensionHorizontal / k.weightUnit) m a b)
    (hb : |b| ≤ 4 * (k.tensionHorizontal / k.weightUnit)) (m0 : 0 ≤ m) (hm : m ≤ 20000) :
    Near (k.tensionHorizontal / k.weightUnit) (m + 30) (rnd (Curve.constant k * L.asinh (rnd (a / Curve.constant k))))
      ((k.tensionHorizontal / k.weightUnit) * Real.arsinh (b / (k.tensionHorizontal / k.weightUnit))) := by
  have hC0 := (two_zpow_pos _).trans_le h.constant_ge
  have b4 : |b / (k.tensionHorizontal / k.weightUnit)| ≤ 4 := by
    rw [abs_div, abs_of_pos hC0, div_le_iff₀ hC0]; exact hb
  have d := n.div h.constant_ge h.constant hb m0 (by linarith)
  have s := lib_asinh_near L d (rnd_isDouble _) b4 (by linarith) (by linarith)
  exact (s.mul h.constant_ge h.constant ((abs_arsinh_le _).trans b4) (by linarith) (by linarith)).mono hC0 (by linarith)

/-- Points along the curve. -/
theorem Span.position (h : Span k) {p : ℝ} (p0 : 0 ≤ p) (p1 : p ≤ 1) :
    Near (k.tensionHorizontal / k.weightUnit) 893 (Curve.coordinateX L (Curve.update L k) p) (k.update.coordinateX p) ∧
    |k.update.coordinateX p| ≤ 2 * (k.tensionHorizontal / k.weightUnit) := by
  have hC0 := (two_zpow_pos _).trans_le h.constant_ge
  have hu := u_pos
  obtain ⟨l, n, a1, a2, a3⟩ := h.lengths (L := L)
  obtain ⟨la, ra⟩ := h.ends_abs
  obtain ⟨m1, m2⟩ := Catenary2d.coordinateX_mem h.positive p0 p1
  refine ⟨?_, ?_⟩
  · have q : Near (k.tensionHorizontal / k.weightUnit) 569 (p * (Curve.update L k).length) (p * k.update.length) := by
      unfold Near at *
      rw [← mul_sub, abs_mul, abs_of_nonneg p0]
      have := abs_nonneg ((Curve.update L k).length - k.update.length)
      nlinarith
    have q0 : |p * k.update.length| ≤ 8 * (k.tensionHorizontal / k.weightUnit) := by
      rw [abs_mul, abs_of_nonneg p0]
      have := abs_nonneg k.update.length
      nlinarith
    have q1 := (q.rnd h.constant_ge q0 (by norm_num) (by norm_num)).add l
    have q2 : |p * k.update.length + k.update.lengthLeft| ≤ 4 * (k.tensionHorizontal / k.weightUnit) := by
      rw [_root_.abs_le] at a1 a2 ⊢
      constructor <;> nlinarith
    have q3 := q1.rnd h.constant_ge q2 (by norm_num) (by norm_num)
    exact (h.point q3 q2 (by norm_num) (by norm_num)).mono hC0 (by norm_num)
  · rw [_root_.abs_le] at la ra ⊢
    constructor <;> linarith

/-- The exact sag at a point of the curve. -/
noncomputable def sagOf (k : Catenary2d) (x : ℝ) : ℝ :=
  k.coordinateY k.update.left.x + (x - k.update.left.x) * (k.spacing.y / k.spacing.x) - k.coordinateY x

/-- The sag at a point. -/
theorem Span.sag (h : Span k) {m a b : ℝ} (n : Near (k.tensionHorizontal / k.weightUnit) m a b)
    (hb : |b| ≤ 2 * (k.tensionHorizontal / k.weightUnit)) (m0 : 0 ≤ m) (hm : m ≤ 15000) :
    Near (k.tensionHorizontal / k.weightUnit) (5 * m + 450)
      (rnd (rnd ((Curve.update L k).left.y + rnd (rnd (a - (Curve.update L k).left.x) * rnd (k.spacing.y / k.spacing.x))) -
        Curve.coordinateY L k a)) (sagOf k b) := by
  have hC0 := (two_zpow_pos _).trans_le h.constant_ge
  have hu := u_pos
  have hx := h.positive.a
  obtain ⟨l, -⟩ := h.ends (L := L)
  obtain ⟨la, -⟩ := h.ends_abs
  obtain ⟨y1, y2⟩ := h.height (L := L) l la (by norm_num) (by norm_num)
  obtain ⟨y3, y4⟩ := h.height (L := L) n hb m0 (by linarith)
  have slope : |k.spacing.y / k.spacing.x| ≤ 1 := by
    rw [abs_div, abs_of_pos hx, div_le_one hx]; exact h.flat
  have slope' : |rnd (k.spacing.y / k.spacing.x)| ≤ 1 := rnd_abs_le isDouble_one slope
  have s1 : Near 1 2 (rnd (k.spacing.y / k.spacing.x)) (k.spacing.y / k.spacing.x) := by
    have z : Near 1 0 (k.spacing.y / k.spacing.x) (k.spacing.y / k.spacing.x) := by unfold Near; simp
    exact (z.rnd one_ok (r := 1) (by linarith) le_rfl (by norm_num)).mono one_pos (by norm_num)
  have d0 : |b - k.update.left.x| ≤ 4 * (k.tensionHorizontal / k.weightUnit) := (abs_sub _ _).trans (by linarith)
  have d := (n.sub l).rnd h.constant_ge d0 (by linarith) (by linarith)
  have e : Near (k.tensionHorizontal / k.weightUnit) (m + 68)
      (rnd (a - (Curve.update L k).left.x) * rnd (k.spacing.y / k.spacing.x))
      ((b - k.update.left.x) * (k.spacing.y / k.spacing.x)) := by
    unfold Near at *
    generalize rnd (a - (Curve.update L k).left.x) = A at *
    generalize b - k.update.left.x = B at *
    generalize rnd (k.spacing.y / k.spacing.x) = S at *
    generalize k.spacing.y / k.spacing.x = T at *
    have i : A * S - B * T = (A - B) * S + B * (S - T) := by ring
    have i1 : |(A - B) * S| ≤ ((m + 55 + 4 + 1) * u * (k.tensionHorizontal / k.weightUnit)) * 1 := by
      rw [abs_mul]; exact mul_le_mul d slope' (abs_nonneg _) ((abs_nonneg _).trans d)
    have i2 : |B * (S - T)| ≤ (4 * (k.tensionHorizontal / k.weightUnit)) * (2 * u * 1) := by
      rw [abs_mul]; exact mul_le_mul d0 s1 (abs_nonneg _) ((abs_nonneg _).trans d0)
    have := abs_add_le ((A - B) * S) (B * (S - T))
    rw [i]
    nlinarith
  have e0 : |(b - k.update.left.x) * (k.spacing.y / k.spacing.x)| ≤ 4 * (k.tensionHorizontal / k.weightUnit) := by
    rw [abs_mul]
    calc _ ≤ (4 * (k.tensionHorizontal / k.weightUnit)) * 1 := mul_le_mul d0 slope (abs_nonneg _) (by positivity)
      _ = _ := mul_one _
  have f := y1.add (e.rnd h.constant_ge e0 (by linarith) (by linarith))
  have f0 : |k.coordinateY k.update.left.x + (b - k.update.left.x) * (k.spacing.y / k.spacing.x)| ≤
      7 * (k.tensionHorizontal / k.weightUnit) := (abs_add_le _ _).trans (by linarith)
  have g := (f.rnd h.constant_ge f0 (by linarith) (by linarith)).sub y3
  have g0 : |k.coordinateY k.update.left.x + (b - k.update.left.x) * (k.spacing.y / k.spacing.x) - k.coordinateY b| ≤
      10 * (k.tensionHorizontal / k.weightUnit) := (abs_sub _ _).trans (by linarith)
  exact (g.rnd h.constant_ge g0 (by linarith) (by linarith)).mono hC0 (by linarith)

/-- Any library with the functions of the sun. -/
noncomputable def sunOf (L : Library) : SunLibrary where
  toLibrary := L
  sin x := rnd (Real.sin x)
  cos x := rnd (Real.cos x)
  tan x := rnd (Real.tan x)
  asin x := rnd (Real.arcsin x)
  acos x := rnd (Real.arccos x)
  sin_faithful _ _ := rnd_faithful _
  cos_faithful _ _ := rnd_faithful _
  tan_faithful _ _ := rnd_faithful _
  asin_faithful _ _ _ := rnd_faithful _
  acos_faithful _ _ _ := rnd_faithful _

/-- The slope of a line at an angle. -/
theorem slope_near {a θ d : ℝ} (ha : |a| ≤ 721) (hd : |a * (Units.kPi / 180) - θ| ≤ d * u) (d0 : 0 ≤ d) (hd' : d ≤ 1000)
    (hθ : |Real.tan θ| ≤ 1) (hθ' : |θ| ≤ 0.7855) :
    Near 1 (2.2 * (d + 60) + 4) (L.tan (Double.convertAngle L.toLibrary a .degreesToRadians)) (Real.tan θ) := by
  have hu := u_pos
  have hu2 := u_small
  have r : |Double.convertAngle L.toLibrary a .degreesToRadians - a * (Units.kPi / 180)| ≤ 60 * u :=
    Traverse.toRadians_near (sunOf L.toLibrary) ha
  have rd : IsDouble (Double.convertAngle L.toLibrary a .degreesToRadians) := toRadians_double (sunOf L.toLibrary) a
  generalize Double.convertAngle L.toLibrary a .degreesToRadians = t at *
  have r1 : |t - θ| ≤ (d + 60) * u := by
    refine (abs_sub_le _ _ _).trans ((add_le_add r hd).trans ?_)
    linarith
  have r2 : |t| ≤ 0.79 := by
    have := abs_sub_abs_le_abs_sub t θ
    nlinarith
  have e1 := tan_near r2 (hθ'.trans (by norm_num))
  have e2 := (L.tan_faithful t rd).error_le
  have t0 := tiny_le_u.1
  generalize (2 : ℝ) ^ (-1074 : ℤ) = η at *
  have e3 : |Real.tan t| ≤ 1.1 := by
    have := abs_sub_abs_le_abs_sub (Real.tan t) (Real.tan θ)
    nlinarith
  have e4 := mul_le_mul_of_nonneg_left e3 hu.le
  have e5 := abs_sub_le (L.tan t) (Real.tan t) (Real.tan θ)
  unfold Near
  nlinarith

/-- A point found from a slope. -/
theorem Span.found (h : Span k) (taut : 2 ^ (-40 : ℤ) * (k.tensionHorizontal / k.weightUnit) ≤ k.spacing.x)
    {s t m : ℝ} (hs : IsDouble s) (n : Near 1 m s t) (ht : |t| ≤ 1) (m0 : 0 ≤ m) (hm : m ≤ 1000) :
    Near (k.tensionHorizontal / k.weightUnit) (4 * m + 760)
      (Curve.coordinateX L (Curve.update L k)
        (Curve.convertToPositionFraction L (Curve.update L k) (rnd (Curve.constant k * L.asinh s))))
      ((k.tensionHorizontal / k.weightUnit) * Real.arsinh t) ∧
    |(k.tensionHorizontal / k.weightUnit) * Real.arsinh t| ≤ 2 * (k.tensionHorizontal / k.weightUnit) := by
  have hC := h.constant_ge
  have hC0 := (two_zpow_pos _).trans_le hC
  have hu := u_pos
  have hu2 := u_small
  have at1 := (abs_arsinh_le t).trans ht
  have x1 := lib_asinh_near L n hs (by linarith) m0 (by linarith)
  have x2 := x1.mul hC h.constant (by linarith) (by linarith) (by linarith)
  have xa : |(k.tensionHorizontal / k.weightUnit) * Real.arsinh t| ≤ 2 * (k.tensionHorizontal / k.weightUnit) := by
    rw [abs_mul, abs_of_pos hC0]; nlinarith
  obtain ⟨l1, l2⟩ := h.length (L := L) x2 xa (by linarith) (by linarith)
  refine ⟨?_, xa⟩
  have le : k.lengthFromOrigin ((k.tensionHorizontal / k.weightUnit) * Real.arsinh t) =
      (k.tensionHorizontal / k.weightUnit) * t := by
    unfold Catenary2d.lengthFromOrigin
    rw [mul_div_cancel_left₀ _ hC0.ne', Real.sinh_arsinh]
  rw [le] at l1
  obtain ⟨n1, n2, a1, a2, a3⟩ := h.lengths (L := L)
  -- the computed length is not zero
  have len0 : k.spacing.x ≤ k.update.length := by
    rw [Catenary2d.length_eq h.positive]
    obtain ⟨z0, -, -⟩ := h.z_pos
    have i1 := Real.self_le_sinh_iff.mpr z0.le
    have i2 := Real.one_le_cosh k.mid
    have i3 : k.spacing.x = k.tensionHorizontal / k.weightUnit * (2 * 1 * k.z) := by
      unfold Catenary2d.z; field_simp [h.positive.h.ne', h.positive.w.ne']
    rw [i3]
    refine mul_le_mul_of_nonneg_left ?_ hC0.le
    exact mul_le_mul (by linarith) i1 z0.le (by linarith)
  have len1 : 0 < (Curve.update L k).length := by
    have i1 := (_root_.abs_le.mp n2).1
    have i2 : 2 ^ (-40 : ℤ) = 8192 * u := by unfold u; norm_num
    rw [i2] at taut
    nlinarith [mul_pos hu hC0]
  -- multiplying by the length again
  have len2 := n2.abs_le hC0 a3 (by norm_num) (by norm_num)
  show Near _ _ (rnd (Curve.constant k * L.asinh (rnd (rnd (rnd (rnd (rnd (Curve.lengthFromOrigin L k
    (rnd (Curve.constant k * L.asinh s)) - (Curve.update L k).lengthLeft) / (Curve.update L k).length) *
    (Curve.update L k).length) + (Curve.update L k).lengthLeft) / Curve.constant k)))) _
  have q0 := l1.sub n1
  have q0' : |k.tensionHorizontal / k.weightUnit * t - k.update.lengthLeft| ≤ 5 * (k.tensionHorizontal / k.weightUnit) := by
    refine (abs_sub _ _).trans ?_
    rw [abs_mul, abs_of_pos hC0]
    nlinarith
  have q1 := q0.rnd hC q0' (by linarith) (by linarith)
  generalize rnd (Curve.lengthFromOrigin L k (rnd (Curve.constant k * L.asinh s)) - (Curve.update L k).lengthLeft) = q at *
  have w : Near (k.tensionHorizontal / k.weightUnit) 7 (rnd (q / (Curve.update L k).length) * (Curve.update L k).length) q := by
    have e1 := rnd_error_le (q / (Curve.update L k).length)
    have e2 := q1.abs_le hC0 q0' (by linarith) (by linarith)
    have e3 := tiny_le' hC
    have e4 := tiny_le' one_ok
    generalize (Curve.update L k).length = len at *
    rw [abs_of_pos len1] at len2
    unfold Near
    have e5 : rnd (q / len) * len - q = (rnd (q / len) - q / len) * len := by field_simp
    rw [e5, abs_mul, abs_of_pos len1]
    have e6 := mul_le_mul_of_nonneg_right e1 len1.le
    rw [abs_div, abs_of_pos len1] at e6
    have e7 : (u * (|q| / len) + 2 ^ (-1075 : ℤ)) * len = u * |q| + 2 ^ (-1075 : ℤ) * len := by field_simp
    rw [e7] at e6
    have e8 : (2 : ℝ) ^ (-1075 : ℤ) * len ≤ (u * u * 1) * ((8 + 0.0001) * (k.tensionHorizontal / k.weightUnit)) :=
      mul_le_mul e4 len2 len1.le (by positivity)
    generalize (2 : ℝ) ^ (-1075 : ℤ) = η at *
    have e9 := mul_le_mul_of_nonneg_left e2 hu.le
    have e10 : u * (u * (k.tensionHorizontal / k.weightUnit)) ≤ 0.01 * (u * (k.tensionHorizontal / k.weightUnit)) :=
      mul_le_mul_of_nonneg_right (by linarith) (by positivity)
    have e11 : 0 < u * (k.tensionHorizontal / k.weightUnit) := by positivity
    nlinarith
  have w2 : Near (k.tensionHorizontal / k.weightUnit) (4 * (m + 10 + 10) + 60 + 280 + 5 + 1 + 7)
      (rnd (q / (Curve.update L k).length) * (Curve.update L k).length)
      (k.tensionHorizontal / k.weightUnit * t - k.update.lengthLeft) := by
    unfold Near at *
    refine (abs_sub_le _ _ _).trans ((add_le_add w q1).trans ?_)
    linarith
  have w3 := (w2.rnd hC q0' (by linarith) (by linarith)).add n1
  rw [sub_add_cancel] at w3
  have b0 : |k.tensionHorizontal / k.weightUnit * t| ≤ 1 * (k.tensionHorizontal / k.weightUnit) := by
    rw [abs_mul, abs_of_pos hC0, mul_comm]
    exact mul_le_mul_of_nonneg_right ht hC0.le
  have w4 := w3.rnd hC b0 (by linarith) (by linarith)
  have w5 := h.point (L := L) w4 (by linarith) (by linarith) (by linarith)
  rw [mul_div_cancel_left₀ _ hC0.ne'] at w5
  exact w5.mono hC0 (by linarith)

theorem Span.arctan_abs {t : ℝ} (ht : |t| ≤ 1) : |Real.arctan t| ≤ 0.7855 := by
  have h1 := _root_.abs_le.mp ht
  have h2 := Real.arctan_mono h1.1
  have h3 := Real.arctan_mono h1.2
  rw [Real.arctan_neg, Real.arctan_one] at h2
  rw [Real.arctan_one] at h3
  have := Real.pi_lt_d4
  rw [_root_.abs_le]; constructor <;> linarith

/-- The sag point. -/
theorem Span.sagPoint (h : Span k) (taut : 2 ^ (-40 : ℤ) * (k.tensionHorizontal / k.weightUnit) ≤ k.spacing.x) :
    Near (k.tensionHorizontal / k.weightUnit) 2720
      (Curve.coordinateX L (Curve.update L k) (Curve.positionFractionSagPoint L (Curve.update L k)))
      ((k.tensionHorizontal / k.weightUnit) * Real.arsinh (k.spacing.y / k.spacing.x)) ∧
    |(k.tensionHorizontal / k.weightUnit) * Real.arsinh (k.spacing.y / k.spacing.x)| ≤
      2 * (k.tensionHorizontal / k.weightUnit) := by
  have hC0 := (two_zpow_pos _).trans_le h.constant_ge
  have hu := u_pos
  have hx := h.positive.a
  have slope : |k.spacing.y / k.spacing.x| ≤ 1 := by
    rw [abs_div, abs_of_pos hx, div_le_one hx]; exact h.flat
  have hv : ¬ (k.spacing.x = 0 ∧ k.spacing.y = 0) := fun e => hx.ne' e.1
  obtain ⟨-, i, hi, ha⟩ := C178_accuracy L.toLibrary k.spacing hv
  obtain ⟨-, r1, r2⟩ := C178_range_partial L.toLibrary k.spacing hv
  have ex := V2.angle_true_of_pos k.spacing hx
  have at1 := Span.arctan_abs slope
  have exa : k.spacing.angle true * (Units.kPi / 180) = Real.arctan (k.spacing.y / k.spacing.x) := by
    have := toRadians_toDegrees (Real.arctan (k.spacing.y / k.spacing.x))
    rw [← ex, Verif.toRadians_eq] at this
    exact this
  have hk : (0.017 : ℝ) ≤ Units.kPi / 180 ∧ Units.kPi / 180 ≤ 0.017454 := by unfold Units.kPi; constructor <;> norm_num
  have hx90 : |k.spacing.angle true| ≤ 50 := by
    rw [← exa, abs_mul, abs_of_pos (by linarith [hk.1] : (0 : ℝ) < Units.kPi / 180)] at at1
    have := abs_nonneg (k.spacing.angle true)
    nlinarith [hk.1]
  have hi0 : i = 0 := by
    rw [_root_.abs_le] at hi ha hx90
    have c1 : i < 1 := by
      by_contra hn
      have : (1 : ℝ) ≤ i := by exact_mod_cast not_lt.mp hn
      linarith
    have c2 : -1 < i := by
      by_contra hn
      have : (i : ℝ) ≤ -1 := by exact_mod_cast not_lt.mp hn
      linarith
    omega
  rw [hi0, Int.cast_zero, mul_zero, sub_zero] at ha
  have ud : (1e-12 : ℝ) ≤ 9010 * u := by unfold u; norm_num
  have dd : |Double.angle L.toLibrary k.spacing true * (Units.kPi / 180) - Real.arctan (k.spacing.y / k.spacing.x)| ≤
      158 * u := by
    rw [← exa, ← sub_mul, abs_mul, abs_of_pos (by linarith [hk.1] : (0 : ℝ) < Units.kPi / 180)]
    calc _ ≤ (9010 * u) * 0.017454 := mul_le_mul (ha.trans ud) hk.2 (by linarith [hk.1]) (by positivity)
      _ ≤ _ := by linarith
  have tan : Real.tan (Real.arctan (k.spacing.y / k.spacing.x)) = k.spacing.y / k.spacing.x := Real.tan_arctan _
  have s := slope_near (L := L) (by rw [_root_.abs_le]; constructor <;> linarith) dd (by norm_num) (by norm_num)
    (by rw [tan]; exact slope) at1
  rw [tan] at s
  have rd := toRadians_double (sunOf L.toLibrary) (Double.angle L.toLibrary k.spacing true)
  have := h.found (L := L) taut (L.tan_faithful _ rd).1 s slope (by norm_num) (by norm_num)
  exact ⟨this.1.mono hC0 (by norm_num), this.2⟩

end Inclined

open Inclined

variable {L : CurveLibrary} {k : Catenary2d}

/-- **C191** (length): the computed length of the curve and the computed slack differ from the exact ones by at most 2^-43
times H/w, for supports at the same or at different heights. -/
theorem C191_length_partial (R : k.Reachable) (h : Span k) :
    |(Curve.update L k).length - k.lengthQ| ≤ 2 ^ (-43 : ℤ) * (k.tensionHorizontal / k.weightUnit) ∧
    |Curve.lengthSlack L (Curve.update L k) - k.lengthSlack| ≤ 2 ^ (-43 : ℤ) * (k.tensionHorizontal / k.weightUnit) := by
  have hC0 := (two_zpow_pos _).trans_le h.constant_ge
  have hu := u_pos
  have i : (2 : ℝ) ^ (-43 : ℤ) = 1024 * u := by unfold u; norm_num
  obtain ⟨-, n, -, -, a⟩ := h.lengths (L := L)
  have hx := h.positive.a
  have mg : k.spacing.magnitude = ‖Traverse.toC k.spacing‖ := (Traverse.norm_toC _).symm
  have m1 : ‖Traverse.toC k.spacing‖ ≤ 4 * (k.tensionHorizontal / k.weightUnit) := by
    have i1 : ‖Traverse.toC k.spacing‖ ≤ |k.spacing.x| + |k.spacing.y| := Traverse.norm_le_add (Traverse.toC k.spacing)
    rw [abs_of_pos hx] at i1
    linarith [h.flat, h.short]
  have m0 : k.spacing.x ≤ ‖Traverse.toC k.spacing‖ := (le_abs_self _).trans (Complex.abs_re_le_norm (Traverse.toC k.spacing))
  have m2 := Traverse.magnitude_near L.toLibrary h.doubles.2.2.1 h.doubles.2.2.2
    (((two_zpow_le (by norm_num)).trans h.spacing.1).trans m0)
  have m3 : Near (k.tensionHorizontal / k.weightUnit) 32 (Double.magnitude L.toLibrary k.spacing) k.spacing.magnitude := by
    unfold Near
    rw [mg]
    nlinarith
  unfold Catenary2d.lengthQ Catenary2d.lengthSlack
  rw [R.refresh_eq, i]
  refine ⟨n.mono hC0 (by norm_num), ?_⟩
  have b : |k.update.length - k.spacing.magnitude| ≤ 12 * (k.tensionHorizontal / k.weightUnit) := by
    refine (abs_sub _ _).trans ?_
    rw [mg, abs_of_nonneg (norm_nonneg _)]
    linarith
  exact ((n.sub m3).rnd h.constant_ge b (by norm_num) (by norm_num)).mono hC0 (by norm_num)

/-- **C191** (coordinates and tension): at every position along the curve the computed point differs from the exact one
by at most 2^-43 times H/w across and 2^-41 times H/w in height, the computed sag by at most 2^-40 times H/w, and the
computed tension by at most 2^-41 times the horizontal tension. -/
theorem C191_position_partial (R : k.Reachable) (h : Span k) {p : ℝ} (p0 : 0 ≤ p) (p1 : p ≤ 1) :
    |(Curve.coordinate L (Curve.update L k) p).x - (k.coordinate p).x| ≤
      2 ^ (-43 : ℤ) * (k.tensionHorizontal / k.weightUnit) ∧
    |(Curve.coordinate L (Curve.update L k) p).y - (k.coordinate p).y| ≤
      2 ^ (-41 : ℤ) * (k.tensionHorizontal / k.weightUnit) ∧
    |Curve.sagAt L (Curve.update L k) p - k.sagAt p| ≤ 2 ^ (-40 : ℤ) * (k.tensionHorizontal / k.weightUnit) ∧
    |Curve.tension L (Curve.update L k) p - k.tension p| ≤ 2 ^ (-41 : ℤ) * k.tensionHorizontal := by
  have hC0 := (two_zpow_pos _).trans_le h.constant_ge
  have hu := u_pos
  have P := h.positive
  have i1 : (2 : ℝ) ^ (-43 : ℤ) = 1024 * u := by unfold u; norm_num
  have i2 : (2 : ℝ) ^ (-41 : ℤ) = 4096 * u := by unfold u; norm_num
  have i3 : (2 : ℝ) ^ (-40 : ℤ) = 8192 * u := by unfold u; norm_num
  obtain ⟨x, xa⟩ := h.position (L := L) p0 p1
  rw [i1, i2, i3, sagAt_eq R P]
  unfold Catenary2d.coordinate Catenary2d.tension
  rw [R.refresh_eq]
  refine ⟨x.mono hC0 (by norm_num), ?_, ?_, ?_⟩
  · exact (h.height (L := L) x xa (by norm_num) (by norm_num)).1.mono hC0 (by norm_num)
  · exact (h.sag (L := L) x xa (by norm_num) (by norm_num)).mono hC0 (by norm_num)
  · obtain ⟨d1, d2⟩ := h.arg x xa (by norm_num) (by norm_num)
    have s := lib_cosh_near L d1 (rnd_isDouble _) d2 (by norm_num) (by norm_num)
    have hh : (2 : ℝ) ^ (-200 : ℤ) ≤ k.tensionHorizontal := (two_zpow_le (by norm_num)).trans h.tension.1
    have t := s.mul (c := k.tensionHorizontal) hh (by rw [sub_self, abs_zero]; exact (mul_pos hu P.h).le)
      (by rw [abs_of_pos (Real.cosh_pos _)]; exact cosh_le_four (d2.trans (by norm_num))) (by norm_num) (by norm_num)
    exact t.mono P.h (by norm_num)

/-- **C191** (sag): the computed sag of the span differs from the exact one by at most 2^-39 times H/w, unless the span
is so taut that its length is below 2^-40 times H/w. -/
theorem C191_sag_partial (R : k.Reachable) (h : Span k)
    (taut : 2 ^ (-40 : ℤ) * (k.tensionHorizontal / k.weightUnit) ≤ k.spacing.x) :
    |Curve.sag L (Curve.update L k) - k.sag| ≤ 2 ^ (-39 : ℤ) * (k.tensionHorizontal / k.weightUnit) := by
  have hC0 := (two_zpow_pos _).trans_le h.constant_ge
  have P := h.positive
  have i : (2 : ℝ) ^ (-39 : ℤ) = 16384 * u := by unfold u; norm_num
  obtain ⟨x, xa⟩ := h.sagPoint (L := L) taut
  have e : k.sag = sagOf k ((k.tensionHorizontal / k.weightUnit) * Real.arsinh (k.spacing.y / k.spacing.x)) := by
    have es : k.sag = k.sagAt k.positionFractionSagPoint := rfl
    have hs := sagPoint_slope R P
    rw [es, sagAt_eq R P, ← hs, Real.arsinh_sinh, mul_div_cancel₀ _ hC0.ne', hs]
    rfl
  rw [e, i]
  exact (h.sag (L := L) x xa (by norm_num) (by norm_num)).mono hC0 (by norm_num)

/-- **C191** (points by their angle): the point that is found for a tangent angle of up to 45 degrees differs from the
exact one by at most 2^-42 times H/w. -/
theorem C191_tangent_partial (h : Span k) (taut : 2 ^ (-40 : ℤ) * (k.tensionHorizontal / k.weightUnit) ≤ k.spacing.x)
    (R : k.Reachable) {a : ℝ} (ha : |a| ≤ 45) :
    |(Curve.coordinate L (Curve.update L k) (Curve.positionFraction L (Curve.update L k) a)).x -
      (k.coordinate (k.positionFraction a)).x| ≤ 2 ^ (-42 : ℤ) * (k.tensionHorizontal / k.weightUnit) := by
  have hC0 := (two_zpow_pos _).trans_le h.constant_ge
  have hu := u_pos
  have P := h.positive
  have i : (2 : ℝ) ^ (-42 : ℤ) = 2048 * u := by unfold u; norm_num
  have hk : (0 : ℝ) ≤ Units.kPi / 180 ∧ Units.kPi / 180 ≤ 0.017454 := by unfold Units.kPi; constructor <;> norm_num
  have a1 : |a * (Units.kPi / 180)| ≤ 0.7855 := by
    rw [abs_mul, abs_of_nonneg hk.1]
    calc _ ≤ 45 * 0.017454 := mul_le_mul ha hk.2 hk.1 (by norm_num)
      _ ≤ _ := by norm_num
  have a2 : |Real.tan (a * (Units.kPi / 180))| ≤ 1 := by
    have p := Real.pi_gt_d20
    have q : |a * (Units.kPi / 180)| ≤ Real.pi / 4 := by
      rw [abs_mul, abs_of_nonneg hk.1]
      calc _ ≤ 45 * (Units.kPi / 180) := mul_le_mul_of_nonneg_right ha hk.1
        _ ≤ _ := by unfold Units.kPi; linarith
    have m := Real.strictMonoOn_tan.monotoneOn
    have i0 : Real.pi / 4 ∈ Set.Ioo (-(Real.pi / 2)) (Real.pi / 2) := ⟨by linarith, by linarith⟩
    have i1 : -(Real.pi / 4) ∈ Set.Ioo (-(Real.pi / 2)) (Real.pi / 2) := ⟨by linarith, by linarith⟩
    rw [_root_.abs_le] at q
    have i2 : a * (Units.kPi / 180) ∈ Set.Ioo (-(Real.pi / 2)) (Real.pi / 2) := ⟨by linarith, by linarith⟩
    have m1 := m i1 i2 q.1
    have m2 := m i2 i0 q.2
    rw [Real.tan_neg, Real.tan_pi_div_four] at m1
    rw [Real.tan_pi_div_four] at m2
    exact _root_.abs_le.mpr ⟨m1, m2⟩
  have s := slope_near (L := L) (d := 0) (ha.trans (by norm_num)) (θ := a * (Units.kPi / 180)) (by simp) le_rfl (by norm_num) a2 a1
  have rd := toRadians_double (sunOf L.toLibrary) a
  have f := (h.found (L := L) taut (L.tan_faithful _ rd).1 s a2 (by norm_num) (by norm_num)).1
  have e : (k.coordinate (k.positionFraction a)).x = (k.tensionHorizontal / k.weightUnit) *
      Real.arsinh (Real.tan (a * (Units.kPi / 180))) := by
    unfold Catenary2d.coordinate Catenary2d.positionFraction
    rw [R.refresh_eq]
    show k.update.coordinateX (k.update.convertToPositionFraction _) = _
    rw [Catenary2d.coordinateX_convert P, Verif.toRadians_eq]
    rfl
  rw [e, i]
  exact f.mono hC0 (by norm_num)

/-- A span with a rise of one in ten. -/
theorem usualSpan_inclined : Span usualSpan := by
  have d : ∀ n : ℕ, n ≤ 2 ^ 53 → IsDouble (n : ℝ) := fun n hn => isDouble_nat n hn
  refine ⟨⟨?_, ?_, ?_, ?_⟩, ?_, ?_, ?_, ?_, ?_⟩
  · exact_mod_cast d 2000 (by norm_num)
  · exact isDouble_one
  · exact_mod_cast d 1000 (by norm_num)
  · exact_mod_cast d 100 (by norm_num)
  all_goals
    simp only [usualSpan, Catenary2d.setSpacing, Catenary2d.setTension, Catenary2d.setWeight]
    norm_num

theorem usualSpan_reachable : usualSpan.Reachable :=
  ⟨[.setSpacing ⟨1000, 100⟩, .setTension 2000, .setWeight 1], rfl, rfl⟩

/-- The errors of a span of 1000 with a rise of 100 and H/w of 2000: a billionth for the coordinates, ten billionths for
the sag. -/
example : |(Curve.coordinate roundedCurveLibrary (Curve.update roundedCurveLibrary usualSpan) 0.25).x -
      (usualSpan.coordinate 0.25).x| ≤ 1e-9 ∧
    |Curve.sag roundedCurveLibrary (Curve.update roundedCurveLibrary usualSpan) - usualSpan.sag| ≤ 1e-8 := by
  have e : usualSpan.tensionHorizontal / usualSpan.weightUnit = 2000 := by
    simp [usualSpan, Catenary2d.setSpacing, Catenary2d.setTension, Catenary2d.setWeight]
  have h1 := (C191_position_partial (L := roundedCurveLibrary) usualSpan_reachable usualSpan_inclined (p := 0.25)
    (by norm_num) (by norm_num)).1
  have h2 := C191_sag_partial (L := roundedCurveLibrary) usualSpan_reachable usualSpan_inclined (by
    rw [e]
    show _ ≤ (1000 : ℝ)
    norm_num)
  rw [e] at h1 h2
  exact ⟨h1.trans (by norm_num), h2.trans (by norm_num)⟩

/-- The length and the point with a tangent angle of one degree. -/
example : |Curve.lengthSlack roundedCurveLibrary (Curve.update roundedCurveLibrary usualSpan) - usualSpan.lengthSlack| ≤
      1e-9 ∧
    |(Curve.coordinate roundedCurveLibrary (Curve.update roundedCurveLibrary usualSpan)
        (Curve.positionFraction roundedCurveLibrary (Curve.update roundedCurveLibrary usualSpan) 1)).x -
      (usualSpan.coordinate (usualSpan.positionFraction 1)).x| ≤ 1e-9 := by
  have e : usualSpan.tensionHorizontal / usualSpan.weightUnit = 2000 := by
    simp [usualSpan, Catenary2d.setSpacing, Catenary2d.setTension, Catenary2d.setWeight]
  have h1 := (C191_length_partial (L := roundedCurveLibrary) usualSpan_reachable usualSpan_inclined).2
  have h2 := C191_tangent_partial (L := roundedCurveLibrary) usualSpan_inclined (by
    rw [e]
    show _ ≤ (1000 : ℝ)
    norm_num) usualSpan_reachable (a := 1) (by norm_num)
  rw [e] at h1 h2
  exact ⟨h1.trans (by norm_num), h2.trans (by norm_num)⟩

end Verif.Props
