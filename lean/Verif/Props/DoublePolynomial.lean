import Verif.DoubleBaseLemmas
import Verif.Props.DoubleUnits

/-! # Polynomials in `double` arithmetic (C176) -/

set_option linter.unusedSectionVars false

namespace Verif.Props

open Verif.Double

/-- The sum of the sizes of the terms of a polynomial. -/
def termSizes (x : ℝ) : ℕ → List ℝ → ℝ
  | _, [] => 0
  | order, c :: cs => |c| * |x| ^ order + termSizes x (order + 1) cs

/-- The sum of the sizes of the coefficients, each increased by one. -/
def coefficientSizes : List ℝ → ℝ
  | [] => 0
  | c :: cs => |c| + 1 + coefficientSizes cs

theorem coefficientSizes_nonneg : ∀ cs, 0 ≤ coefficientSizes cs
  | [] => le_rfl
  | c :: cs => by have := coefficientSizes_nonneg cs; have := abs_nonneg c; unfold coefficientSizes; linarith

theorem termSizes_nonneg (x : ℝ) : ∀ order cs, 0 ≤ termSizes x order cs
  | _, [] => le_rfl
  | order, c :: cs => by
    have h := termSizes_nonneg x (order + 1) cs
    have : 0 ≤ |c| * |x| ^ order := by positivity
    unfold termSizes; linarith

/-- One term of the sum. -/
theorem term_error (L : Library) {x c : ℝ} (hx : IsDouble x) (order : ℕ) :
    |rnd (c * L.pow x order) - c * x ^ order| ≤ 4 * u * (|c| * |x| ^ order) + 4 * 2 ^ (-1075 : ℤ) * (|c| + 1) := by
  have hu := u_pos
  have hu' := u_small
  have h := (L.pow_faithful x order hx (.inr (by omega))).error_le
  rw [zpow_natCast, abs_pow] at h
  have e : (2 : ℝ) ^ (-1074 : ℤ) = 2 * 2 ^ (-1075 : ℤ) := by
    rw [show (-1074 : ℤ) = 1 + -1075 by norm_num, zpow_add₀ (by norm_num)]; norm_num
  rw [e] at h
  have hr := rnd_error_le (c * L.pow x order)
  generalize L.pow x order = q at *
  have hη := two_zpow_pos (-1075)
  generalize (2 : ℝ) ^ (-1075 : ℤ) = η at *
  rw [abs_mul] at hr
  have hX : |x ^ order| = |x| ^ order := abs_pow _ _
  have hX0 : 0 ≤ |x| ^ order := by positivity
  rw [← hX] at h hX0 ⊢
  generalize x ^ order = X at *
  have hc := abs_nonneg c
  have a := abs_sub_le (rnd (c * q)) (c * q) (c * X)
  have b : |c * q - c * X| ≤ |c| * (2 * u * |X| + 2 * η) := by
    rw [← mul_sub, abs_mul]; exact mul_le_mul_of_nonneg_left h hc
  have d : |q| ≤ |X| + (2 * u * |X| + 2 * η) := by
    have := abs_sub_abs_le_abs_sub q X; linarith
  have e1 : u * (|c| * |q|) ≤ u * (|c| * (|X| + (2 * u * |X| + 2 * η))) := by gcongr
  have hp : 0 ≤ u * (|c| * |X|) := by positivity
  have e2 : u * (u * (|c| * |X|)) ≤ 1 / 1000 * (u * (|c| * |X|)) := mul_le_mul_of_nonneg_right (by linarith) hp
  have hq : 0 ≤ |c| * η := by positivity
  have e3 : u * (|c| * η) ≤ 1 / 1000 * (|c| * η) := mul_le_mul_of_nonneg_right (by linarith) hq
  nlinarith

/-- The arithmetic of one step of the sum. -/
theorem step_error {y Y A B T t r a b k u η : ℝ} (hu : 0 ≤ u) (hη : 0 ≤ η) (hk : 0 ≤ k) (hku : (k + 3) * u ≤ 1 / 8)
    (hA : |Y| ≤ A) (hB : 0 ≤ B) (hb : 0 ≤ b) (ha : |T| ≤ a)
    (hy : |y - Y| ≤ 2 * (k + 3) * u * A + (4 + 8 * k * u) * η * B) (ht : |t - T| ≤ 4 * u * a + 4 * η * b)
    (hr : |r - (y + t)| ≤ u * |y + t|) :
    |r - (Y + T)| ≤ 2 * (k + 4) * u * (A + a) + (4 + 8 * (k + 1) * u) * η * (B + b) := by
  have hA0 : 0 ≤ A := (abs_nonneg Y).trans hA
  have ha0 : 0 ≤ a := (abs_nonneg T).trans ha
  generalize he1 : 2 * (k + 3) * u * A + (4 + 8 * k * u) * η * B = e1 at hy
  generalize he2 : 4 * u * a + 4 * η * b = e2 at ht
  have h1 : |y + t| ≤ A + a + e1 + e2 := by
    have e : y + t = (Y + T) + ((y - Y) + (t - T)) := by ring
    have i1 := abs_add_le (Y + T) ((y - Y) + (t - T))
    have i2 := abs_add_le Y T
    have i3 := abs_add_le (y - Y) (t - T)
    rw [e]; linarith
  have h2 : |r - (Y + T)| ≤ |r - (y + t)| + (e1 + e2) := by
    have i1 := abs_sub_le r (y + t) (Y + T)
    have i2 : |y + t - (Y + T)| ≤ e1 + e2 := by
      have i3 := abs_add_le (y - Y) (t - T)
      rw [show y + t - (Y + T) = (y - Y) + (t - T) by ring]; linarith
    linarith
  have h3 : u * |y + t| ≤ u * (A + a + e1 + e2) := mul_le_mul_of_nonneg_left h1 hu
  have h4 : |r - (Y + T)| ≤ u * (A + a + e1 + e2) + (e1 + e2) := by linarith
  refine h4.trans ?_
  have hku' : k * u ≤ (k + 3) * u := by nlinarith
  have hu8 : u ≤ 1 / 8 := by nlinarith
  have j1 : u * (2 * (k + 3) * u * A) ≤ 1 / 4 * (u * A) := by
    have : (k + 3) * u * (u * A) ≤ 1 / 8 * (u * A) := mul_le_mul_of_nonneg_right hku (by positivity)
    nlinarith
  have j2 : u * ((4 + 8 * k * u) * η * B) ≤ 5 * u * (η * B) := by
    have : (k * u) * (u * (η * B)) ≤ 1 / 8 * (u * (η * B)) :=
      mul_le_mul_of_nonneg_right (by linarith) (by positivity)
    nlinarith
  have j3 : u * e2 ≤ 1 / 2 * (u * a) + 4 * u * (η * b) := by
    have : u * (u * a) ≤ 1 / 8 * (u * a) := mul_le_mul_of_nonneg_right hu8 (by positivity)
    rw [← he2]; nlinarith
  have j4 : u * e1 ≤ 1 / 4 * (u * A) + 5 * u * (η * B) := by rw [← he1]; linarith
  have p1 : 0 ≤ u * A := by positivity
  have p2 : 0 ≤ u * a := by positivity
  have p3 : 0 ≤ u * (η * B) := by positivity
  have p4 : 0 ≤ u * (η * b) := by positivity
  have p5 : 0 ≤ k * (u * a) := by positivity
  have p6 : 0 ≤ k * (u * (η * b)) := by positivity
  calc u * (A + a + e1 + e2) + (e1 + e2) = u * A + u * a + u * e1 + u * e2 + e1 + e2 := by ring
    _ ≤ u * A + u * a + (1 / 4 * (u * A) + 5 * u * (η * B)) + (1 / 2 * (u * a) + 4 * u * (η * b)) + e1 + e2 := by
        linarith
    _ ≤ _ := by rw [← he1, ← he2]; nlinarith

theorem loop_error (L : Library) {x : ℝ} (hx : IsDouble x) : ∀ (cs : List ℝ) (order : ℕ) (y Y A B : ℝ) (k : ℕ),
    IsDouble y → |Y| ≤ A → 0 ≤ B → k + cs.length ≤ 2 ^ 49 →
    |y - Y| ≤ 2 * (k + 3) * u * A + (4 + 8 * k * u) * 2 ^ (-1075 : ℤ) * B →
    |Double.yLoop L x order cs y - Poly.yLoop x order cs Y| ≤
      2 * ((k + cs.length : ℕ) + 3) * u * (A + termSizes x order cs) +
        (4 + 8 * (k + cs.length : ℕ) * u) * 2 ^ (-1075 : ℤ) * (B + coefficientSizes cs) := by
  intro cs
  induction cs with
  | nil =>
    intro order y Y A B k _ _ _ _ h
    simpa [Double.yLoop, Poly.yLoop, termSizes, coefficientSizes] using h
  | cons c cs ih =>
    intro order y Y A B k hy hA hB hk h
    have ht := term_error L (c := c) hx order
    have hT : |c * x ^ order| ≤ |c| * |x| ^ order := by rw [abs_mul, abs_pow]
    have hr := rnd_add_relative hy (rnd_isDouble (c * L.pow x order))
    have hku : ((k : ℝ) + 3) * u ≤ 1 / 8 := by
      have h1 : (k : ℝ) ≤ 2 ^ 49 := by
        have : k ≤ 2 ^ 49 := by omega
        exact_mod_cast this
      have h2 : (2 : ℝ) ^ 49 * u = 1 / 16 := by unfold u; norm_num
      have hu := u_pos
      have hu' := u_small
      nlinarith
    have hs := step_error u_pos.le (two_zpow_pos (-1075)).le (Nat.cast_nonneg k) hku hA hB
      (by positivity : 0 ≤ |c| + 1) hT h ht hr
    have hk' : k + 1 + cs.length ≤ 2 ^ 49 := by simp only [List.length_cons] at hk; omega
    have e : k + (c :: cs).length = k + 1 + cs.length := by simp only [List.length_cons]; omega
    have hA' : |Y + c * x ^ order| ≤ A + |c| * |x| ^ order := (abs_add_le _ _).trans (add_le_add hA hT)
    have := ih (order + 1) _ (Y + c * x ^ order) (A + |c| * |x| ^ order) (B + (|c| + 1)) (k + 1) (rnd_isDouble _) hA'
      (by positivity) hk' (by push_cast at hs ⊢; convert hs using 2 <;> ring)
    rw [e]
    simp only [Double.yLoop, Poly.yLoop, termSizes, coefficientSizes]
    rw [← add_assoc A, ← add_assoc B]
    exact this

/-- **C176** (accuracy): the value of a polynomial is off by a few units in the 52nd binary digit for every coefficient,
in proportion to the sum of the sizes of the terms; for the very smallest numbers there is an error that no size can
excuse, far below any physical quantity. -/
theorem C176_accuracy (L : Library) {x : ℝ} (hx : IsDouble x) {cs : List ℝ} (hn : cs.length ≤ 2 ^ 49) :
    |Double.evalY L cs x - Poly.evalY cs x| ≤
      (cs.length + 3) * 2 ^ (-52 : ℤ) * termSizes x 0 cs + 2 ^ (-1072 : ℤ) * coefficientSizes cs := by
  have h := loop_error L hx cs 0 0 0 0 0 0 isDouble_zero (by simp) le_rfl (by omega) (by simp)
  rw [zero_add, zero_add, zero_add] at h
  refine h.trans (add_le_add (le_of_eq ?_) ?_)
  · have : (2 : ℝ) ^ (-52 : ℤ) = 2 * u := by unfold u; norm_num
    rw [this]; ring
  · refine mul_le_mul_of_nonneg_right ?_ (coefficientSizes_nonneg cs)
    have e : (2 : ℝ) ^ (-1072 : ℤ) = 8 * 2 ^ (-1075 : ℤ) := by
      rw [show (-1072 : ℤ) = 3 + -1075 by norm_num, zpow_add₀ (by norm_num)]; norm_num
    rw [e]
    refine mul_le_mul_of_nonneg_right ?_ (two_zpow_pos _).le
    have h1 : (cs.length : ℝ) ≤ 2 ^ 49 := by exact_mod_cast hn
    have h2 : (2 : ℝ) ^ 49 * u = 1 / 16 := by unfold u; norm_num
    have hu := u_pos
    nlinarith

/-- A stress–strain curve with coefficients of both signs. -/
example : IsDouble 0.25 ∧ [(-1213 : ℝ), 44308.1, -14004.4, -37618].length ≤ 2 ^ 49 ∧
    termSizes 0.25 0 [-1, 4] = 2 := by
  refine ⟨⟨1, -2, by norm_num, by norm_num, by norm_num⟩, by norm_num, ?_⟩
  norm_num [termSizes, abs_of_pos]

/-- **C176** (at zero): the value at zero is the constant coefficient, without any error. -/
theorem C176_at_zero (L : Library) {c : ℝ} (hc : IsDouble c) (cs : List ℝ) : Double.evalY L (c :: cs) 0 = c := by
  have hp : ∀ n : ℕ, L.pow 0 (n + 1 : ℕ) = 0 := by
    intro n
    have h := L.pow_faithful 0 (n + 1 : ℕ) isDouble_zero (.inr (by omega))
    rw [zpow_natCast, zero_pow (by omega)] at h
    exact h.exact isDouble_zero
  have h0 : L.pow 0 (0 : ℕ) = 1 := by
    have h := L.pow_faithful 0 (0 : ℕ) isDouble_zero (.inr (by omega))
    rw [zpow_natCast, pow_zero] at h
    exact h.exact isDouble_one
  have hl : ∀ (cs : List ℝ) (n : ℕ), Double.yLoop L 0 (n + 1) cs c = c := by
    intro cs
    induction cs with
    | nil => intro n; rfl
    | cons d cs ih =>
      intro n
      rw [Double.yLoop, hp, mul_zero, rnd_zero, add_zero, rnd_of_isDouble hc]
      exact ih (n + 1)
  unfold Double.evalY
  rw [Double.yLoop, h0, mul_one, rnd_of_isDouble hc, zero_add c, rnd_of_isDouble hc]
  exact hl cs 0

/-- **C176** (sign): with coefficients that are not negative, the value at a point that is not negative is not
negative. -/
theorem C176_nonneg (L : Library) {x : ℝ} (hx : IsDouble x) (h0 : 0 ≤ x) {cs : List ℝ} (hc : ∀ c ∈ cs, 0 ≤ c) :
    0 ≤ Double.evalY L cs x := by
  have hl : ∀ (cs : List ℝ) (n : ℕ) (y : ℝ), 0 ≤ y → (∀ c ∈ cs, 0 ≤ c) → 0 ≤ Double.yLoop L x n cs y := by
    intro cs
    induction cs with
    | nil => intro n y hy _; exact hy
    | cons d cs ih =>
      intro n y hy hc
      rw [Double.yLoop]
      have hp := (L.pow_faithful x n hx (.inr (by omega))).nonneg (by positivity)
      refine ih (n + 1) _ (rnd_nonneg (add_nonneg hy (rnd_nonneg (mul_nonneg ?_ hp)))) ?_
      · exact hc d (by simp)
      · intro c h; exact hc c (by simp [h])
  exact hl cs 0 0 le_rfl hc

end Verif.Props
