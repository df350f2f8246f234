import Mathlib.Analysis.Calculus.Deriv.MeanValue
import Mathlib.Analysis.SpecialFunctions.Trigonometric.DerivHyp
import Mathlib.Analysis.SpecialFunctions.Sqrt
import Mathlib.Tactic.Linarith
import Mathlib.Tactic.Positivity
import Mathlib.Tactic.FieldSimp
import Verif.CatenarySolverLemmas

/-! # How fast length and sag fall as the tension grows

With `z` inversely proportional to the tension, the length is a convex function of `z²` and a concave one of `z³`, and
the sag of a level span is a convex function of `z` and a concave one of `z²`, for `z` up to 1. -/

set_option linter.unusedSectionVars false

namespace Verif.Growth

open Set

/-- A function that starts at 0 and does not fall is not negative. -/
theorem nonneg_of_slope {A A' : ℝ → ℝ} {b : ℝ} (hA : ∀ z, HasDerivAt A (A' z) z) (h0 : A 0 = 0)
    (hs : ∀ z, 0 ≤ z → z ≤ b → 0 ≤ A' z) {z : ℝ} (z0 : 0 ≤ z) (zb : z ≤ b) : 0 ≤ A z := by
  have hm : MonotoneOn A (Icc 0 b) := by
    refine monotoneOn_of_deriv_nonneg (convex_Icc 0 b) (fun x _ => (hA x).continuousAt.continuousWithinAt)
      (fun x _ => (hA x).differentiableAt.differentiableWithinAt) fun x hx => ?_
    rw [(hA x).deriv]
    rw [interior_Icc] at hx
    exact hs x hx.1.le hx.2.le
  have := hm ⟨le_refl _, le_trans z0 zb⟩ ⟨z0, zb⟩ z0
  rwa [h0] at this

theorem div_pow_deriv {A A' : ℝ → ℝ} (hA : ∀ z, HasDerivAt A (A' z) z) (n : ℕ) {z : ℝ} (hz : 0 < z) :
    HasDerivAt (fun z => A z / z ^ (n + 1)) ((z * A' z - (n + 1) * A z) / z ^ (n + 2)) z := by
  have h := (hA z).div (hasDerivAt_pow (n + 1) z) (by positivity)
  refine HasDerivAt.congr_deriv h ?_
  rw [div_eq_div_iff (by positivity) (by positivity)]
  simp only [Nat.add_sub_cancel, Nat.cast_add, Nat.cast_one]
  ring

/-- `A z / z^(n+1)` does not grow. -/
theorem div_pow_anti {A A' : ℝ → ℝ} (hA : ∀ z, HasDerivAt A (A' z) z) (n : ℕ) {b : ℝ}
    (hs : ∀ z, 0 < z → z ≤ b → z * A' z ≤ (n + 1) * A z) {x y : ℝ} (hx : 0 < x) (hxy : x ≤ y) (hy : y ≤ b) :
    A y / y ^ (n + 1) ≤ A x / x ^ (n + 1) := by
  have hm : AntitoneOn (fun z => A z / z ^ (n + 1)) (Icc x b) := by
    have hd : ∀ z ∈ Icc x b, HasDerivAt (fun z => A z / z ^ (n + 1)) ((z * A' z - (n + 1) * A z) / z ^ (n + 2)) z :=
      fun z hz => div_pow_deriv hA n (lt_of_lt_of_le hx hz.1)
    refine antitoneOn_of_deriv_nonpos (convex_Icc x b) (fun z hz => (hd z hz).continuousAt.continuousWithinAt)
      (fun z hz => (hd z (interior_subset hz)).differentiableAt.differentiableWithinAt) fun z hz => ?_
    have hz := interior_subset hz
    rw [(hd z hz).deriv]
    have z0 := lt_of_lt_of_le hx hz.1
    exact div_nonpos_of_nonpos_of_nonneg (by linarith [hs z z0 hz.2]) (by positivity)
  exact hm ⟨le_refl _, le_trans hxy hy⟩ ⟨hxy, hy⟩ hxy

/-- `A z / z^(n+1)` does not fall. -/
theorem div_pow_mono {A A' : ℝ → ℝ} (hA : ∀ z, HasDerivAt A (A' z) z) (n : ℕ)
    (hs : ∀ z, 0 < z → (n + 1) * A z ≤ z * A' z) {x y : ℝ} (hx : 0 < x) (hxy : x ≤ y) :
    A x / x ^ (n + 1) ≤ A y / y ^ (n + 1) := by
  have h := div_pow_anti (A := fun z => - A z) (A' := fun z => - A' z) (fun z => (hA z).neg) n (b := y)
    (fun z h0 _ => by linarith [hs z h0]) hx hxy (le_refl _)
  simp only [neg_div] at h
  linarith

/-- Cauchy's mean value theorem for two adjacent intervals: if `F'` over `z^n` does not grow, then `F` is concave as a
function of `z^(n+1)`. -/
theorem concave_in {F F' : ℝ → ℝ} {n : ℕ} {z1 z2 z3 : ℝ} (h1 : 0 < z1) (h12 : z1 < z2) (h23 : z2 < z3)
    (hF : ∀ z, 0 < z → HasDerivAt F (F' z) z)
    (ha : ∀ x y, 0 < x → x ≤ y → y ≤ z3 → F' y / y ^ n ≤ F' x / x ^ n) :
    (F z3 - F z2) * (z2 ^ (n + 1) - z1 ^ (n + 1)) ≤ (F z2 - F z1) * (z3 ^ (n + 1) - z2 ^ (n + 1)) := by
  have key : ∀ a b, 0 < a → a < b → ∃ c, a < c ∧ c < b ∧ F b - F a = (b ^ (n + 1) - a ^ (n + 1)) / (n + 1) * (F' c / c ^ n) := by
    intro a b ha hab
    obtain ⟨c, hc, e⟩ := exists_ratio_hasDerivAt_eq_ratio_slope F F' hab
      (fun x hx => (hF x (lt_of_lt_of_le ha hx.1)).continuousAt.continuousWithinAt)
      (fun x hx => hF x (lt_trans ha hx.1)) (fun z => z ^ (n + 1)) (fun z => (n + 1 : ℕ) * z ^ n)
      (continuous_pow _).continuousOn (fun x _ => by simpa using hasDerivAt_pow (n + 1) x)
    have c0 : 0 < c := lt_trans ha hc.1
    refine ⟨c, hc.1, hc.2, ?_⟩
    push_cast at e
    have : (0:ℝ) < (n:ℝ) + 1 := by positivity
    field_simp
    linarith
  obtain ⟨c, a1, a2, e1⟩ := key z1 z2 h1 h12
  obtain ⟨d, b1, b2, e2⟩ := key z2 z3 (by linarith) h23
  have hr := ha c d (by linarith) (by linarith) (by linarith)
  have p1 : 0 < z2 ^ (n + 1) - z1 ^ (n + 1) := sub_pos.2 (pow_lt_pow_left₀ h12 h1.le (by omega))
  have p2 : 0 < z3 ^ (n + 1) - z2 ^ (n + 1) := sub_pos.2 (pow_lt_pow_left₀ h23 (by linarith) (by omega))
  rw [e1, e2]
  have : 0 < (n:ℝ) + 1 := by positivity
  have := mul_le_mul_of_nonneg_left hr (by positivity : 0 ≤ (z3 ^ (n + 1) - z2 ^ (n + 1)) / ((n:ℝ) + 1) * (z2 ^ (n + 1) - z1 ^ (n + 1)))
  calc _ = (z3 ^ (n + 1) - z2 ^ (n + 1)) / ((n:ℝ) + 1) * (z2 ^ (n + 1) - z1 ^ (n + 1)) * (F' d / d ^ n) := by ring
    _ ≤ _ := this
    _ = _ := by ring

theorem convex_in {F F' : ℝ → ℝ} {n : ℕ} {z1 z2 z3 : ℝ} (h1 : 0 < z1) (h12 : z1 < z2) (h23 : z2 < z3)
    (hF : ∀ z, 0 < z → HasDerivAt F (F' z) z)
    (ha : ∀ x y, 0 < x → x ≤ y → F' x / x ^ n ≤ F' y / y ^ n) :
    (F z2 - F z1) * (z3 ^ (n + 1) - z2 ^ (n + 1)) ≤ (F z3 - F z2) * (z2 ^ (n + 1) - z1 ^ (n + 1)) := by
  have h := concave_in (F := fun z => - F z) (F' := fun z => - F' z) h1 h12 h23 (fun z hz => (hF z hz).neg)
    (fun x y hx hxy _ => by have := ha x y hx hxy; simp only [neg_div]; exact neg_le_neg this)
  rw [← neg_le_neg_iff]
  calc _ = (- F z3 - - F z2) * (z2 ^ (n + 1) - z1 ^ (n + 1)) := by ring
    _ ≤ _ := h
    _ = _ := by ring

/-! ## Hyperbolic inequalities -/

section
open Real

theorem dSinh (z : ℝ) : HasDerivAt sinh (cosh z) z := Real.hasDerivAt_sinh z
theorem dCosh (z : ℝ) : HasDerivAt cosh (sinh z) z := Real.hasDerivAt_cosh z
theorem dId (z : ℝ) : HasDerivAt (fun z : ℝ => z) 1 z := hasDerivAt_id z

/-- `z sinh z - cosh z + 1`, twice the slope of the sag. -/
theorem d1 (z : ℝ) : HasDerivAt (fun z => z * sinh z - cosh z + 1) (z * cosh z) z := by
  have := (((dId z).mul (dSinh z)).sub (dCosh z)).add_const 1
  refine HasDerivAt.congr_deriv this ?_
  ring

theorem d2 (z : ℝ) : HasDerivAt (fun z => z * cosh z - sinh z) (z * sinh z) z := by
  have := ((dId z).mul (dCosh z)).sub (dSinh z)
  refine HasDerivAt.congr_deriv this ?_
  ring

theorem cosh_over {z : ℝ} (z0 : 0 ≤ z) : 0 ≤ z * cosh z - sinh z :=
  nonneg_of_slope (b := z) d2 (by simp) (fun x h0 _ => mul_nonneg h0 (sinh_nonneg_iff.2 h0)) z0 (le_refl _)

/-- The slope of the sag over `z` falls. -/
theorem sag_anti {x y : ℝ} (hx : 0 < x) (hxy : x ≤ y) (hy : y ≤ 1) :
    (y * sinh y - cosh y + 1) / y ^ 3 ≤ (x * sinh x - cosh x + 1) / x ^ 3 := by
  refine div_pow_anti d1 2 (b := 1) (fun z h0 h1 => ?_) hx hxy hy
  have hd : ∀ z : ℝ, HasDerivAt (fun z => 3 * (z * sinh z - cosh z + 1) - z ^ 2 * cosh z)
      (z * (cosh z - z * sinh z)) z := by
    intro z
    have := ((d1 z).const_mul 3).sub ((hasDerivAt_pow 2 z).mul (dCosh z))
    refine HasDerivAt.congr_deriv this ?_
    simp
    ring
  have := nonneg_of_slope (b := 1) hd (by simp) (fun x h0 h1 => by
    refine mul_nonneg h0 ?_
    have a1 : sinh x < cosh x := Real.sinh_lt_cosh x
    have a2 : 0 ≤ sinh x := sinh_nonneg_iff.2 h0
    nlinarith) h0.le h1
  push_cast
  nlinarith

/-- The slope of the sag grows. -/
theorem sag_mono {x y : ℝ} (hx : 0 < x) (hxy : x ≤ y) :
    (x * sinh x - cosh x + 1) / x ^ 2 ≤ (y * sinh y - cosh y + 1) / y ^ 2 := by
  refine div_pow_mono d1 1 (fun z h0 => ?_) hx hxy
  have hd : ∀ z : ℝ, HasDerivAt (fun z => z ^ 2 * cosh z - 2 * (z * sinh z - cosh z + 1))
      (z ^ 2 * sinh z) z := by
    intro z
    have := ((hasDerivAt_pow 2 z).mul (dCosh z)).sub ((d1 z).const_mul 2)
    refine HasDerivAt.congr_deriv this ?_
    simp
    ring
  have := nonneg_of_slope (b := z) hd (by simp) (fun x h0 _ =>
    mul_nonneg (by positivity) (sinh_nonneg_iff.2 h0)) h0.le (le_refl _)
  push_cast
  nlinarith

/-- The slope of `sinh z / z` over `z` grows. -/
theorem chord_mono {x y : ℝ} (hx : 0 < x) (hxy : x ≤ y) :
    (x * cosh x - sinh x) / x ^ 3 ≤ (y * cosh y - sinh y) / y ^ 3 := by
  refine div_pow_mono d2 2 (fun z h0 => ?_) hx hxy
  have hd : ∀ z : ℝ, HasDerivAt (fun z => z ^ 2 * sinh z - 3 * (z * cosh z - sinh z))
      (z * (z * cosh z - sinh z)) z := by
    intro z
    have := ((hasDerivAt_pow 2 z).mul (dSinh z)).sub ((d2 z).const_mul 3)
    refine HasDerivAt.congr_deriv this ?_
    simp
    ring
  have := nonneg_of_slope (b := z) hd (by simp) (fun x h0 _ =>
    mul_nonneg h0 (cosh_over h0)) h0.le (le_refl _)
  push_cast
  nlinarith

theorem cosh_le_two {w : ℝ} (h0 : 0 ≤ w) (h2 : w ≤ 2) : cosh w ≤ 1 + 0.8 * w ^ 2 := by
  have e := Real.cosh_two_mul (w / 2)
  rw [show 2 * (w / 2) = w by ring, Real.cosh_sq] at e
  rcases eq_or_lt_of_le h0 with h | h
  · rw [← h]; simp
  have := sinh_le_mul (by linarith : 0 < w / 2) (by linarith)
  have s0 : 0 ≤ sinh (w / 2) := sinh_nonneg_iff.2 (by linarith)
  nlinarith

theorem poly_deriv (a b c w : ℝ) (i j k : ℕ) : HasDerivAt (fun w : ℝ => a * w ^ i + b * w ^ j + c * w ^ k)
    (a * (i * w ^ (i - 1)) + b * (j * w ^ (j - 1)) + c * (k * w ^ (k - 1))) w :=
  (((hasDerivAt_pow i w).const_mul a).add ((hasDerivAt_pow j w).const_mul b)).add ((hasDerivAt_pow k w).const_mul c)

/-- `3 w sinh w - (5 + w²/2) cosh w + 5` is not negative up to 2. -/
theorem fifth {w : ℝ} (h0 : 0 ≤ w) (h2 : w ≤ 2) : 0 ≤ 3 * (w * sinh w) - (5 + w ^ 2 / 2) * cosh w + 5 := by
  -- second and first derivative of `sinh w - w/2 cosh w` against a polynomial
  have f1 : ∀ w : ℝ, HasDerivAt (fun w => cosh w / 2 - w / 2 * sinh w - ((-1/4) * w ^ 2 + (-1/10) * w ^ 4 + 1/2 * w ^ 0))
      (- (w / 2) * cosh w - ((-1/4) * (2 * w) + (-1/10) * (4 * w ^ 3))) w := by
    intro w
    have := (((dCosh w).div_const 2).sub (((dId w).div_const 2).mul (dSinh w))).sub (poly_deriv (-1/4) (-1/10) (1/2) w 2 4 0)
    refine HasDerivAt.congr_deriv this ?_
    simp
    ring
  have g1 : ∀ w : ℝ, 0 ≤ w → w ≤ 2 →
      0 ≤ cosh w / 2 - w / 2 * sinh w - ((-1/4) * w ^ 2 + (-1/10) * w ^ 4 + 1/2 * w ^ 0) := by
    intro w h0 h2
    refine nonneg_of_slope (b := 2) f1 (by simp) (fun x x0 x2 => ?_) h0 h2
    have := cosh_le_two x0 x2
    nlinarith [mul_le_mul_of_nonneg_left this x0]
  have f2 : ∀ w : ℝ, HasDerivAt (fun w => sinh w - w / 2 * cosh w - (1/2 * w ^ 1 + (-1/12) * w ^ 3 + (-1/50) * w ^ 5))
      (cosh w / 2 - w / 2 * sinh w - ((-1/4) * w ^ 2 + (-1/10) * w ^ 4 + 1/2 * w ^ 0)) w := by
    intro w
    have := ((dSinh w).sub (((dId w).div_const 2).mul (dCosh w))).sub (poly_deriv (1/2) (-1/12) (-1/50) w 1 3 5)
    refine HasDerivAt.congr_deriv this ?_
    simp
    ring
  have g2 : ∀ w : ℝ, 0 ≤ w → w ≤ 2 →
      0 ≤ sinh w - w / 2 * cosh w - (1/2 * w ^ 1 + (-1/12) * w ^ 3 + (-1/50) * w ^ 5) :=
    fun w h0 h2 => nonneg_of_slope (b := 2) f2 (by simp) g1 h0 h2
  have f3 : ∀ w : ℝ, HasDerivAt (fun w => 2 * (w * cosh w - sinh w) - w ^ 2 / 2 * sinh w -
        (1/6 * w ^ 3 + (-1/60) * w ^ 5 + (-1/350) * w ^ 7))
      (w * (sinh w - w / 2 * cosh w - (1/2 * w ^ 1 + (-1/12) * w ^ 3 + (-1/50) * w ^ 5))) w := by
    intro w
    have := (((d2 w).const_mul 2).sub (((hasDerivAt_pow 2 w).div_const 2).mul (dSinh w))).sub
      (poly_deriv (1/6) (-1/60) (-1/350) w 3 5 7)
    refine HasDerivAt.congr_deriv this ?_
    simp
    ring
  have g3 : ∀ w : ℝ, 0 ≤ w → w ≤ 2 → 0 ≤ 2 * (w * cosh w - sinh w) - w ^ 2 / 2 * sinh w -
        (1/6 * w ^ 3 + (-1/60) * w ^ 5 + (-1/350) * w ^ 7) :=
    fun w h0 h2 => nonneg_of_slope (b := 2) f3 (by simp) (fun x x0 x2 => mul_nonneg x0 (g2 x x0 x2)) h0 h2
  have f4 : ∀ w : ℝ, HasDerivAt (fun w => 3 * (w * sinh w) - (5 + w ^ 2 / 2) * cosh w + 5 -
        (1/24 * w ^ 4 + (-1/360) * w ^ 6 + (-1/2800) * w ^ 8))
      (2 * (w * cosh w - sinh w) - w ^ 2 / 2 * sinh w -
        (1/6 * w ^ 3 + (-1/60) * w ^ 5 + (-1/350) * w ^ 7)) w := by
    intro w
    have := (((((dId w).mul (dSinh w)).const_mul 3).sub
      ((((hasDerivAt_pow 2 w).div_const 2).const_add 5).mul (dCosh w))).add_const 5).sub
      (poly_deriv (1/24) (-1/360) (-1/2800) w 4 6 8)
    refine HasDerivAt.congr_deriv this ?_
    simp
    ring
  have g4 := nonneg_of_slope (b := 2) f4 (by simp) g3 h0 h2
  have w2 : w ^ 2 ≤ 4 := by nlinarith
  have w4 : 0 ≤ w ^ 4 := by positivity
  have : 0 ≤ 1/24 * w ^ 4 + (-1/360) * w ^ 6 + (-1/2800) * w ^ 8 := by
    have e : 1/24 * w ^ 4 + (-1/360) * w ^ 6 + (-1/2800) * w ^ 8 = w ^ 4 * (1/24 - w ^ 2 / 360 - w ^ 2 * w ^ 2 / 2800) := by ring
    rw [e]
    refine mul_nonneg w4 ?_
    nlinarith [sq_nonneg w]
  linarith

/-- The slope of `(sinh z / z)²` over `z²` falls. -/
theorem square_anti {x y : ℝ} (hx : 0 < x) (hxy : x ≤ y) (hy : y ≤ 1) :
    sinh y * (y * cosh y - sinh y) / y ^ 5 ≤ sinh x * (x * cosh x - sinh x) / x ^ 5 := by
  have hd : ∀ z : ℝ, HasDerivAt (fun z => sinh z * (z * cosh z - sinh z))
      (cosh z * (z * cosh z - sinh z) + sinh z * (z * sinh z)) z := fun z => (dSinh z).mul (d2 z)
  refine div_pow_anti hd 4 (b := 1) (fun z h0 h1 => ?_) hx hxy hy
  have h := fifth (w := 2 * z) (by linarith) (by linarith)
  rw [Real.sinh_two_mul, Real.cosh_two_mul] at h
  have hc := Real.cosh_sq z
  push_cast
  nlinarith

end
end Verif.Growth
