import Verif.DoubleFinite
import Verif.Props.DoubleSpatial
import Mathlib.Analysis.Real.Pi.Bounds
import Mathlib.Analysis.SpecialFunctions.Trigonometric.Bounds

/-!
# Lemmas on the size of rounded results
-/

set_option linter.unusedSectionVars false

namespace Verif.Double

open Verif.Props

theorem two_zpow_le_largest : (2 : ℝ) ^ (1023 : ℤ) ≤ largest := by
  have : (2 : ℝ) ^ (1023 : ℤ) = 2 ^ 52 * 2 ^ (971 : ℤ) := by
    rw [← zpow_natCast, ← zpow_add₀ (by norm_num)]; norm_num
  unfold largest
  rw [this]
  exact mul_le_mul_of_nonneg_right (by norm_num) (two_zpow_pos _).le

theorem largest_lt : largest < (2 : ℝ) ^ (1024 : ℤ) := by
  have : (2 : ℝ) ^ (1024 : ℤ) = 2 ^ 53 * 2 ^ (971 : ℤ) := by
    rw [← zpow_natCast, ← zpow_add₀ (by norm_num)]; norm_num
  unfold largest
  rw [this]
  exact mul_lt_mul_of_pos_right (by norm_num) (two_zpow_pos _)

theorem le_largest {x : ℝ} {e : ℤ} (h : |x| ≤ 2 ^ e) (he : e ≤ 1023) : |x| ≤ largest :=
  (h.trans (two_zpow_le he)).trans two_zpow_le_largest

theorem chk_ok {x : ℝ} {e : ℤ} (h : |x| ≤ 2 ^ e) (he : e ≤ 1023) : chk x = some (rnd x) :=
  if_pos (le_largest h he)

theorem chkDiv_ok {x y : ℝ} {e : ℤ} (hy : y ≠ 0) (h : |x / y| ≤ 2 ^ e) (he : e ≤ 1023) :
    chkDiv x y = some (rnd (x / y)) := by
  unfold chkDiv; rw [if_neg hy, chk_ok h he]

theorem chkSqrt_ok {x : ℝ} {e : ℤ} (h0 : 0 ≤ x) (h : √x ≤ 2 ^ e) (he : e ≤ 1023) : chkSqrt x = some (rnd √x) := by
  unfold chkSqrt; rw [if_neg (not_lt.mpr h0), chk_ok (by rwa [abs_of_nonneg (Real.sqrt_nonneg x)]) he]

theorem chkLib_ok {x r : ℝ} {e : ℤ} (h : |x| ≤ 2 ^ e) (he : e ≤ 1023) : chkLib x r = some r :=
  if_pos (le_largest h he)

/-- Rounding does not lead over a number. -/
theorem rnd_abs_le {x d : ℝ} (hd : IsDouble d) (h : |x| ≤ d) : |rnd x| ≤ d := by
  rw [← rnd_abs]; exact rnd_le hd h

theorem Faithful.abs_le {r x d : ℝ} (h : Faithful r x) (hd : IsDouble d) (hx : |x| ≤ d) : |r| ≤ d := by
  rw [_root_.abs_le] at hx ⊢
  exact ⟨h.2.1 _ hd.neg hx.1, h.2.2 _ hd hx.2⟩

theorem IsDouble.mul_two_pow {x : ℝ} (h : IsDouble x) (n : ℕ) : IsDouble (x * 2 ^ n) := by
  obtain ⟨m, e, hm, he, rfl⟩ := h
  refine ⟨m, e + n, hm, by omega, ?_⟩
  rw [zpow_add₀ (by norm_num), zpow_natCast]; ring

theorem isDouble_two_pow (n : ℕ) : IsDouble ((2 : ℝ) ^ n) := by
  simpa using isDouble_one.mul_two_pow n

theorem isDouble_two_zpow' {e : ℤ} (he : -1074 ≤ e) : IsDouble ((2 : ℝ) ^ e) :=
  ⟨1, e, by norm_num, he, by simp⟩

/-- Rounding at most doubles a number. -/
theorem rnd_double_le (x : ℝ) : |rnd x| ≤ 2 * |x| := by
  have h1 := rnd_nearest x isDouble_zero
  rw [zero_sub, abs_neg] at h1
  have := abs_sub_abs_le_abs_sub (rnd x) x
  linarith

theorem abs_mul_le {x y a b : ℝ} (hx : |x| ≤ a) (hy : |y| ≤ b) : |x * y| ≤ a * b := by
  rw [abs_mul]; exact mul_le_mul hx hy (abs_nonneg _) ((abs_nonneg _).trans hx)

theorem abs_div_le {x c b : ℝ} (hc : 0 < c) (hx : |x| ≤ c * b) : |x / c| ≤ b := by
  rw [abs_div, abs_of_pos hc, div_le_iff₀ hc]; linarith

theorem exp_le_eight (n : ℕ) {t : ℝ} (h : t ≤ 2 * n) : Real.exp t ≤ 8 ^ n := by
  have e2 : Real.exp 2 ≤ 8 := by
    have h1 := Real.exp_one_lt_d9
    have h2 : Real.exp 2 = Real.exp 1 * Real.exp 1 := by rw [← Real.exp_add]; norm_num
    have h3 := Real.exp_pos 1
    rw [h2]; nlinarith
  calc Real.exp t ≤ Real.exp (n * 2) := Real.exp_le_exp.mpr (by linarith)
    _ = Real.exp 2 ^ n := Real.exp_nat_mul 2 n
    _ ≤ 8 ^ n := pow_le_pow_left₀ (Real.exp_pos 2).le e2 n

theorem cosh_le_eight (n : ℕ) {t : ℝ} (h : |t| ≤ 2 * n) : |Real.cosh t| ≤ 8 ^ n := by
  have h1 := exp_le_eight n ((le_abs_self t).trans h)
  have h2 := exp_le_eight n ((neg_le_abs t).trans h)
  have h3 := Real.exp_pos t
  have h4 := Real.exp_pos (-t)
  rw [Real.cosh_eq, abs_le]
  constructor <;> linarith [pow_pos (by norm_num : (0 : ℝ) < 8) n]

theorem sinh_le_eight (n : ℕ) {t : ℝ} (h : |t| ≤ 2 * n) : |Real.sinh t| ≤ 8 ^ n := by
  have h1 := exp_le_eight n ((le_abs_self t).trans h)
  have h2 := exp_le_eight n ((neg_le_abs t).trans h)
  have h3 := Real.exp_pos t
  have h4 := Real.exp_pos (-t)
  rw [Real.sinh_eq, abs_le]
  constructor <;> linarith

theorem two_pow_le_exp (n : ℕ) : (2 : ℝ) ^ n ≤ Real.exp n := by
  have h1 := Real.exp_one_gt_d9
  calc (2 : ℝ) ^ n ≤ Real.exp 1 ^ n := pow_le_pow_left₀ (by norm_num) (by linarith) n
    _ = Real.exp n := by rw [← Real.exp_nat_mul, mul_one]

theorem arsinh_le (n : ℕ) {t : ℝ} (h : |t| ≤ 2 ^ n) : |Real.arsinh t| ≤ n + 2 := by
  have hb : (2 : ℝ) ^ n ≤ Real.sinh (n + 2) := by
    have h1 := two_pow_le_exp (n + 2)
    have h2 : Real.exp (-(n + 2 : ℝ)) ≤ 1 := Real.exp_le_one_iff.mpr (by have := Nat.cast_nonneg (α := ℝ) n; linarith)
    have h3 : (1 : ℝ) ≤ 2 ^ n := one_le_pow₀ (by norm_num)
    push_cast at h1
    rw [pow_add] at h1
    rw [Real.sinh_eq]; linarith
  rw [abs_le] at h ⊢
  constructor
  · have := Real.arsinh_le_arsinh.mpr (show Real.sinh (-(n + 2 : ℝ)) ≤ t by rw [Real.sinh_neg]; linarith [h.1])
    rwa [Real.arsinh_sinh] at this
  · have := Real.arsinh_le_arsinh.mpr (show t ≤ Real.sinh (n + 2 : ℝ) by linarith [h.2])
    rwa [Real.arsinh_sinh] at this

/-- No `double` is near to half of pi. -/
theorem half_pi_gap {a : ℝ} (ha : IsDouble a) (h0 : 0 ≤ a) : (2 : ℝ) ^ (-54 : ℤ) ≤ |Real.pi / 2 - a| := by
  have p1 := Real.pi_gt_d20
  have p2 := Real.pi_lt_d20
  rcases lt_or_ge a 1 with h1 | h1
  · rw [abs_of_pos (by linarith)]
    have : (2 : ℝ) ^ (-54 : ℤ) ≤ 1 / 2 := by norm_num
    linarith
  rcases le_or_gt 2 a with h2 | h2
  · rw [abs_of_neg (by linarith)]
    have : (2 : ℝ) ^ (-54 : ℤ) ≤ 1 / 4 := by norm_num
    linarith
  obtain ⟨n, hn⟩ := isDouble_multiple ha
  have hl : lastPlace a = -52 := lastPlace_eq (by norm_num) (by rw [abs_of_pos (by linarith)]; norm_num; exact h1)
    (by rw [abs_of_pos (by linarith)]; norm_num; exact h2)
  rw [hl] at hn
  have e52 : (2 : ℝ) ^ (-52 : ℤ) = 1 / 4503599627370496 := by norm_num
  have e54 : (2 : ℝ) ^ (-54 : ℤ) = 1 / 18014398509481984 := by norm_num
  rw [e52] at hn
  rw [e54]
  rcases le_or_gt n 7074237752028440 with h | h
  · have h' : (n : ℝ) ≤ 7074237752028440 := by exact_mod_cast h
    rw [abs_of_pos (by rw [hn]; linarith), hn]; linarith
  · have h' : (7074237752028441 : ℝ) ≤ n := by exact_mod_cast h
    rw [abs_of_neg (by rw [hn]; linarith), hn]; linarith

theorem tan_le {a : ℝ} (ha : IsDouble a) (h2 : |a| ≤ 3) : |Real.tan a| ≤ 2 ^ (55 : ℤ) := by
  have hd : IsDouble |a| := by
    rcases abs_cases a with ⟨h, -⟩ | ⟨h, -⟩ <;> rw [h]
    exacts [ha, ha.neg]
  have h0 := abs_nonneg a
  have e : |Real.cos a| = |Real.sin (Real.pi / 2 - |a|)| := by
    rw [Real.sin_pi_div_two_sub, Real.cos_abs]
  generalize |a| = b at *
  have hg := half_pi_gap hd h0
  have p1 := Real.pi_gt_d20
  have p2 := Real.pi_lt_d20
  have hd2 : |Real.pi / 2 - b| ≤ Real.pi / 2 := by rw [abs_le]; constructor <;> linarith
  have hc : 2 / Real.pi * |Real.pi / 2 - b| ≤ |Real.cos a| := by
    rw [e]
    generalize Real.pi / 2 - b = d at *
    rcases abs_cases d with ⟨h, h0⟩ | ⟨h, h0⟩
    · rw [h] at hd2 ⊢
      exact (Real.mul_le_sin h0 hd2).trans (le_abs_self _)
    · rw [h] at hd2 ⊢
      have := Real.mul_le_sin (x := -d) (by linarith) hd2
      rw [Real.sin_neg] at this
      exact this.trans (neg_le_abs _)
  have hp : (1 : ℝ) / 2 ≤ 2 / Real.pi := by
    rw [div_le_div_iff₀ (by norm_num) (by linarith)]; linarith
  have hk : (2 : ℝ) ^ (-55 : ℤ) ≤ |Real.cos a| := by
    refine le_trans ?_ hc
    calc (2 : ℝ) ^ (-55 : ℤ) = 1 / 2 * 2 ^ (-54 : ℤ) := by norm_num
      _ ≤ _ := mul_le_mul hp hg (two_zpow_pos _).le (by linarith)
  rw [Real.tan_eq_sin_div_cos, abs_div, div_le_iff₀ ((two_zpow_pos _).trans_le hk)]
  have := Real.abs_sin_le_one a
  have h3 : (2 : ℝ) ^ (55 : ℤ) * 2 ^ (-55 : ℤ) = 1 := by norm_num
  calc |Real.sin a| ≤ 2 ^ (55 : ℤ) * 2 ^ (-55 : ℤ) := by rw [h3]; exact this
    _ ≤ _ := mul_le_mul_of_nonneg_left hk (two_zpow_pos _).le

end Verif.Double
