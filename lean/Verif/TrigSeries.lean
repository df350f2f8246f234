import Mathlib.Analysis.Complex.Trigonometric

/-! # Sine and cosine by their power series, with a bound for the error -/

namespace Verif

open Finset

/-- The power series of the exponential function on the imaginary axis. -/
theorem series_split (x : ℝ) (n : ℕ) :
    ∑ m ∈ range (2 * n), ((x : ℂ) * Complex.I) ^ m / (m.factorial : ℂ) =
      ((∑ k ∈ range n, (-1) ^ k * x ^ (2 * k) / ((2 * k).factorial : ℝ) : ℝ) : ℂ) +
      ((∑ k ∈ range n, (-1) ^ k * x ^ (2 * k + 1) / ((2 * k + 1).factorial : ℝ) : ℝ) : ℂ) * Complex.I := by
  induction n with
  | zero => simp
  | succ n ih =>
    rw [show 2 * (n + 1) = 2 * n + 1 + 1 by ring, sum_range_succ, sum_range_succ, ih, sum_range_succ, sum_range_succ]
    have e : Complex.I ^ (2 * n) = (-1) ^ n := by rw [pow_mul, Complex.I_sq]
    push_cast
    rw [mul_pow, mul_pow, pow_succ Complex.I, e]
    ring

/-- Both series and the error. -/
theorem trig_series {x : ℝ} (hx : |x| ≤ 1) {n : ℕ} (hn : 0 < n) :
    |Real.cos x - ∑ k ∈ range n, (-1) ^ k * x ^ (2 * k) / ((2 * k).factorial : ℝ)| ≤
      |x| ^ (2 * n) * (2 * n + 1) / ((2 * n).factorial * (2 * n)) ∧
    |Real.sin x - ∑ k ∈ range n, (-1) ^ k * x ^ (2 * k + 1) / ((2 * k + 1).factorial : ℝ)| ≤
      |x| ^ (2 * n) * (2 * n + 1) / ((2 * n).factorial * (2 * n)) := by
  have hn' : ‖(x : ℂ) * Complex.I‖ = |x| := by simp
  have h := Complex.exp_bound (x := (x : ℂ) * Complex.I) (by rw [hn']; exact hx) (n := 2 * n) (by omega)
  rw [series_split, Complex.exp_mul_I, hn', ← Complex.ofReal_cos, ← Complex.ofReal_sin] at h
  have e : |x| ^ (2 * n) * (2 * n + 1) / ((2 * n).factorial * (2 * n)) =
      |x| ^ (2 * n) * (((2 * n).succ : ℝ) * (((2 * n).factorial : ℝ) * ((2 * n : ℕ) : ℝ))⁻¹) := by
    push_cast; rw [mul_div_assoc, div_eq_mul_inv]
  rw [e]
  generalize ∑ k ∈ range n, (-1) ^ k * x ^ (2 * k) / ((2 * k).factorial : ℝ) = a at h ⊢
  generalize ∑ k ∈ range n, (-1) ^ k * x ^ (2 * k + 1) / ((2 * k + 1).factorial : ℝ) = b at h ⊢
  generalize Real.cos x = c at h ⊢
  generalize Real.sin x = s at h ⊢
  constructor
  · refine le_trans ?_ ((Complex.abs_re_le_norm _).trans h)
    simp
  · refine le_trans ?_ ((Complex.abs_im_le_norm _).trans h)
    simp

theorem cos_between {x lo hi : ℝ} (h0 : 0 ≤ x) (h1 : x ≤ 1) (n : ℕ) (hn : 0 < n)
    (hl : lo < ∑ k ∈ range n, (-1) ^ k * x ^ (2 * k) / ((2 * k).factorial : ℝ) -
      x ^ (2 * n) * (2 * n + 1) / ((2 * n).factorial * (2 * n)))
    (hh : ∑ k ∈ range n, (-1) ^ k * x ^ (2 * k) / ((2 * k).factorial : ℝ) +
      x ^ (2 * n) * (2 * n + 1) / ((2 * n).factorial * (2 * n)) < hi) : lo < Real.cos x ∧ Real.cos x < hi := by
  have t := (trig_series (by rwa [abs_of_nonneg h0]) hn).1
  rw [abs_of_nonneg h0, abs_le] at t
  constructor <;> linarith

theorem sin_between {x lo hi : ℝ} (h0 : 0 ≤ x) (h1 : x ≤ 1) (n : ℕ) (hn : 0 < n)
    (hl : lo < ∑ k ∈ range n, (-1) ^ k * x ^ (2 * k + 1) / ((2 * k + 1).factorial : ℝ) -
      x ^ (2 * n) * (2 * n + 1) / ((2 * n).factorial * (2 * n)))
    (hh : ∑ k ∈ range n, (-1) ^ k * x ^ (2 * k + 1) / ((2 * k + 1).factorial : ℝ) +
      x ^ (2 * n) * (2 * n + 1) / ((2 * n).factorial * (2 * n)) < hi) : lo < Real.sin x ∧ Real.sin x < hi := by
  have t := (trig_series (by rwa [abs_of_nonneg h0]) hn).2
  rw [abs_of_nonneg h0, abs_le] at t
  constructor <;> linarith

end Verif
