import Verif.DoubleHeat
import Verif.DoubleBaseLemmas

/-! # Relative and absolute errors of computed products, sums and powers -/

set_option linter.unusedSectionVars false

namespace Verif.Double

/-- `a` is computed for `b` with at most `k` roundings, and `b` is zero or not too small and not too large. -/
def Rel (k m : ℕ) (a b : ℝ) : Prop := Close k a b ∧ (b = 0 ∨ ((2 : ℝ) ^ (-(m : ℤ)) ≤ |b| ∧ |b| ≤ (2 : ℝ) ^ (m : ℤ)))

theorem Rel.mono {k l m n : ℕ} {a b : ℝ} (h : Rel k m a b) (hk : k ≤ l) (hm : m ≤ n) : Rel l n a b := by
  refine ⟨h.1.mono hk, h.2.imp_right fun ⟨h1, h2⟩ => ⟨le_trans (two_zpow_le (by omega)) h1, h2.trans (two_zpow_le (by omega))⟩⟩

theorem Rel.exact {m : ℕ} {a : ℝ} (h : a = 0 ∨ ((2 : ℝ) ^ (-(m : ℤ)) ≤ |a| ∧ |a| ≤ (2 : ℝ) ^ (m : ℤ))) : Rel 0 m a a :=
  ⟨Close.refl a, h⟩

/-- The number computed for a number of ordinary size is not subnormal. -/
theorem Rel.ordinary {k m : ℕ} {a b : ℝ} (h : Rel k m a b) (hk : k ≤ 2 ^ 50) (hm : m ≤ 1000) :
    a = 0 ∨ (2 : ℝ) ^ (-1022 : ℤ) ≤ |a| := by
  rcases h.2 with h0 | ⟨h1, -⟩
  · left; exact h.1.zero_iff.2 h0
  · right
    have h2 := h.1.abs_ge hk
    have h3 : (2 : ℝ) ^ (-1022 : ℤ) ≤ 2 ^ (-(m : ℤ)) / 2 := by
      rw [le_div_iff₀ (by norm_num), show (2 : ℝ) ^ (-1022 : ℤ) * 2 = 2 ^ (-1021 : ℤ) by
        rw [show (-1021 : ℤ) = -1022 + 1 by norm_num, zpow_add₀ (by norm_num), zpow_one]]
      exact two_zpow_le (by omega)
    linarith

theorem Rel.rnd {k m : ℕ} {a b : ℝ} (h : Rel k m a b) (hk : k ≤ 2 ^ 50) (hm : m ≤ 1000) :
    Rel (k + 1) m (rnd a) b := by
  refine ⟨?_, h.2⟩
  rcases h.ordinary hk hm with h0 | h1
  · have hb := h.1.zero_iff.1 h0
    rw [h0, hb, rnd_zero]; exact (Close.refl 0).mono (by omega)
  · exact h.1.rnd h1

theorem Rel.mul_raw {k l m n : ℕ} {a b c d : ℝ} (h : Rel k m a b) (h' : Rel l n c d) :
    Rel (k + l) (m + n) (a * c) (b * d) := by
  refine ⟨h.1.mul h'.1, ?_⟩
  rcases h.2 with h0 | ⟨h1, h2⟩
  · left; rw [h0, zero_mul]
  rcases h'.2 with h0 | ⟨h3, h4⟩
  · left; rw [h0, mul_zero]
  right
  rw [abs_mul]
  constructor
  · rw [show (-((m + n : ℕ) : ℤ)) = -(m : ℤ) + -(n : ℤ) by push_cast; ring, zpow_add₀ (by norm_num)]
    exact mul_le_mul h1 h3 (two_zpow_pos _).le (abs_nonneg _)
  · rw [show ((m + n : ℕ) : ℤ) = (m : ℤ) + n by push_cast; ring, zpow_add₀ (by norm_num)]
    exact mul_le_mul h2 h4 (abs_nonneg _) (two_zpow_pos _).le

theorem Rel.inv {k m : ℕ} {a b : ℝ} (h : Rel k m a b) : Rel k m a⁻¹ b⁻¹ := by
  refine ⟨h.1.inv, ?_⟩
  rcases h.2 with h0 | ⟨h1, h2⟩
  · left; rw [h0, inv_zero]
  · right
    have hb := (two_zpow_pos (-(m : ℤ))).trans_le h1
    rw [abs_inv]
    constructor
    · rw [zpow_neg]; exact inv_anti₀ hb h2
    · rw [← inv_inv ((2 : ℝ) ^ (m : ℤ)), ← zpow_neg]; exact inv_anti₀ (two_zpow_pos _) h1

/-- A product. -/
theorem Rel.mul {k l m n : ℕ} {a b c d : ℝ} (h : Rel k m a b) (h' : Rel l n c d) (hk : k + l ≤ 2 ^ 50)
    (hm : m + n ≤ 1000) : Rel (k + l + 1) (m + n) (Double.rnd (a * c)) (b * d) := (h.mul_raw h').rnd hk hm

/-- A quotient. -/
theorem Rel.div {k l m n : ℕ} {a b c d : ℝ} (h : Rel k m a b) (h' : Rel l n c d) (hk : k + l ≤ 2 ^ 50)
    (hm : m + n ≤ 1000) : Rel (k + l + 1) (m + n) (Double.rnd (a / c)) (b / d) := by
  rw [div_eq_mul_inv, div_eq_mul_inv]; exact h.mul h'.inv hk hm

theorem Close.add {k : ℕ} {a b c d : ℝ} (h : Close k a b) (h' : Close k c d) (hb : 0 ≤ b) (hd : 0 ≤ d) :
    Close k (a + c) (b + d) := by
  obtain ⟨t, rfl, h1, h2⟩ := h
  obtain ⟨s, rfl, h3, h4⟩ := h'
  rcases (add_nonneg hb hd).lt_or_eq with hp | hp
  · refine ⟨(b * t + d * s) / (b + d), by field_simp, ?_, ?_⟩
    · rw [le_div_iff₀ hp]; nlinarith
    · rw [div_mul_eq_mul_div, div_le_one hp]
      nlinarith [mul_le_mul_of_nonneg_left h2 hb, mul_le_mul_of_nonneg_left h4 hd]
  · have b0 : b = 0 := by linarith
    have d0 : d = 0 := by linarith
    rw [b0, d0]; simpa using (Close.refl 0).mono (Nat.zero_le k)

theorem Close.nonneg {k : ℕ} {a b : ℝ} (h : Close k a b) (hb : 0 ≤ b) : 0 ≤ a := by
  obtain ⟨t, rfl, h1, -⟩ := h
  exact mul_nonneg hb ((pow_pos one_sub_u_pos k).le.trans h1)

/-- A sum of numbers that are not negative. -/
theorem Rel.add {k m : ℕ} {a b c d : ℝ} (h : Rel k m a b) (h' : Rel k m c d) (hb : 0 ≤ b) (hd : 0 ≤ d)
    (hk : k ≤ 2 ^ 50) (hm : m + 1 ≤ 1000) : Rel (k + 1) (m + 1) (Double.rnd (a + c)) (b + d) := by
  refine Rel.rnd ⟨h.1.add h'.1 hb hd, ?_⟩ hk hm
  have e : (2 : ℝ) ^ (((m + 1 : ℕ)) : ℤ) = 2 ^ (m : ℤ) * 2 := by
    push_cast; rw [zpow_add₀ (by norm_num), zpow_one]
  have e' : (2 : ℝ) ^ (-((m + 1 : ℕ) : ℤ)) ≤ 2 ^ (-(m : ℤ)) := two_zpow_le (by push_cast; omega)
  have p := two_zpow_pos (m : ℤ)
  rcases h.2 with h0 | ⟨h1, h2⟩ <;> rcases h'.2 with h0' | ⟨h3, h4⟩
  · left; rw [h0, h0', add_zero]
  · right; rw [h0, zero_add, e]; exact ⟨e'.trans h3, by linarith⟩
  · right; rw [h0', add_zero, e]; exact ⟨e'.trans h1, by linarith⟩
  · right
    rw [abs_of_nonneg hb] at h1 h2
    rw [abs_of_nonneg hd] at h3 h4
    rw [abs_of_nonneg (add_nonneg hb hd), e]
    exact ⟨by linarith, by linarith⟩

/-- A rounded literal. -/
theorem Rel.literal {m : ℕ} {a : ℝ} (h0 : (2 : ℝ) ^ (-(m : ℤ)) ≤ a) (h1 : a ≤ (2 : ℝ) ^ (m : ℤ)) (hm : m ≤ 1000) :
    Rel 1 m (Double.rnd a) a := by
  have p := (two_zpow_pos (-(m : ℤ))).trans_le h0
  exact (Rel.exact (Or.inr ⟨by rwa [abs_of_pos p], by rwa [abs_of_pos p]⟩)).rnd (by norm_num) hm

/-- The function of a library. -/
theorem Rel.faithful {k m : ℕ} {r a b : ℝ} (h : Rel k m a b) (hr : Faithful r a) (hk : k ≤ 2 ^ 50) (hm : m ≤ 1000) :
    Rel (k + 3) m r b := by
  refine ⟨?_, h.2⟩
  rcases h.ordinary hk hm with h0 | h1
  · have hb := h.1.zero_iff.1 h0
    have : r = 0 := by rw [h0] at hr; exact hr.exact isDouble_zero
    rw [this, hb]; exact (Close.refl 0).mono (by omega)
  · rw [add_comm]; exact (hr.close h1).trans h.1

theorem Close.rpow {k : ℕ} {a b y : ℝ} (c : ℕ) (h : Close k a b) (hb : 0 ≤ b) (hy0 : 0 ≤ y) (hy : y ≤ c) :
    Close (c * k) (a ^ y) (b ^ y) := by
  obtain ⟨t, rfl, h1, h2⟩ := h
  have pk := pow_pos one_sub_u_pos k
  have pk1 : (1 - u) ^ k ≤ 1 := pow_le_one₀ one_sub_u_pos.le one_sub_u_le
  have t0 : 0 < t := pk.trans_le h1
  have a2 : ((1 - u) ^ k) ^ (c : ℝ) ≤ ((1 - u) ^ k) ^ y := Real.rpow_le_rpow_of_exponent_ge pk pk1 hy
  have a3 : (1 - u) ^ (c * k) = ((1 - u) ^ k) ^ (c : ℝ) := by rw [Real.rpow_natCast, ← pow_mul, mul_comm]
  refine ⟨t ^ y, Real.mul_rpow hb t0.le, ?_, ?_⟩
  · have a1 : ((1 - u) ^ k) ^ y ≤ t ^ y := Real.rpow_le_rpow pk.le h1 hy0
    rw [a3]; exact a2.trans a1
  · have a1 : (t * (1 - u) ^ k) ^ y ≤ 1 := Real.rpow_le_one (mul_pos t0 pk).le h2 hy0
    rw [Real.mul_rpow t0.le pk.le] at a1
    rw [a3]
    exact (mul_le_mul_of_nonneg_left a2 (Real.rpow_pos_of_pos t0 y).le).trans a1

/-- Powers keep the size ordinary. -/
theorem Rel.rpow {k m : ℕ} {a b y : ℝ} (c : ℕ) (h : Rel k m a b) (hb : 0 ≤ b) (hy0 : 0 < y) (hy : y ≤ c) :
    Rel (c * k) (c * m) (a ^ y) (b ^ y) := by
  refine ⟨h.1.rpow c hb hy0.le hy, ?_⟩
  rcases h.2 with h0 | ⟨h1, h2⟩
  · left; rw [h0, Real.zero_rpow hy0.ne']
  · right
    rw [abs_of_nonneg hb] at h1 h2
    rw [abs_of_nonneg (Real.rpow_nonneg hb y)]
    have e1 : (2 : ℝ) ^ (((c * m : ℕ)) : ℤ) = ((2 : ℝ) ^ (m : ℤ)) ^ (c : ℝ) := by
      rw [Real.rpow_natCast, ← zpow_natCast ((2 : ℝ) ^ (m : ℤ)) c, ← zpow_mul]; congr 1; push_cast; ring
    have m1 : (1 : ℝ) ≤ (2 : ℝ) ^ (m : ℤ) := one_le_zpow₀ (by norm_num) (by omega)
    have u1 : b ^ y ≤ ((2 : ℝ) ^ (m : ℤ)) ^ y := Real.rpow_le_rpow hb h2 hy0.le
    have u2 : ((2 : ℝ) ^ (m : ℤ)) ^ y ≤ ((2 : ℝ) ^ (m : ℤ)) ^ (c : ℝ) := Real.rpow_le_rpow_of_exponent_le m1 hy
    have e2 : (2 : ℝ) ^ (-((c * m : ℕ) : ℤ)) = ((2 : ℝ) ^ (-(m : ℤ))) ^ (c : ℝ) := by
      rw [Real.rpow_natCast, ← zpow_natCast ((2 : ℝ) ^ (-(m : ℤ))) c, ← zpow_mul]; congr 1; push_cast; ring
    have p' := two_zpow_pos (-(m : ℤ))
    have m2 : (2 : ℝ) ^ (-(m : ℤ)) ≤ 1 := by
      have := two_zpow_le (a := -(m : ℤ)) (b := 0) (by omega); simpa using this
    have l1 : ((2 : ℝ) ^ (-(m : ℤ))) ^ y ≤ b ^ y := Real.rpow_le_rpow p'.le h1 hy0.le
    have l2 : ((2 : ℝ) ^ (-(m : ℤ))) ^ (c : ℝ) ≤ ((2 : ℝ) ^ (-(m : ℤ))) ^ y :=
      Real.rpow_le_rpow_of_exponent_ge p' m2 hy
    exact ⟨by rw [e2]; exact l2.trans l1, by rw [e1]; exact u1.trans u2⟩

/-- A rounded exponent changes a power by little. -/
theorem Rel.exponent {m : ℕ} {b y z : ℝ} (h : b = 0 ∨ ((2 : ℝ) ^ (-(m : ℤ)) ≤ |b| ∧ |b| ≤ (2 : ℝ) ^ (m : ℤ)))
    (hb : 0 ≤ b) (hy : 0 < y) (hz : 0 < z) (hyz : |z - y| ≤ u) : Close m (b ^ z) (b ^ y) := by
  rcases hb.eq_or_lt with h0 | hp
  · rw [← h0, Real.zero_rpow hy.ne', Real.zero_rpow hz.ne']; exact (Close.refl 0).mono (Nat.zero_le m)
  · have hu := u_pos
    obtain ⟨h1, h2⟩ := h.resolve_left hp.ne'
    rw [abs_of_pos hp] at h1 h2
    have hlog : |Real.log b| ≤ m := by
      have l2 : Real.log 2 ≤ 1 := by have := Real.log_le_sub_one_of_pos (x := 2) (by norm_num); linarith
      have l2' : 0 < Real.log 2 := Real.log_pos (by norm_num)
      have a1 := Real.log_le_log hp h2
      have a2 := Real.log_le_log (two_zpow_pos _) h1
      rw [Real.log_zpow] at a1 a2
      push_cast at a1 a2
      have hm : (0 : ℝ) ≤ m := Nat.cast_nonneg m
      rw [abs_le]
      constructor <;> nlinarith
    have e1 : (1 - u) ≤ Real.exp (-u) := by have := Real.add_one_le_exp (-u); linarith
    have e2 : (1 - u) ^ m ≤ Real.exp (-(m * u)) := by
      calc (1 - u) ^ m ≤ Real.exp (-u) ^ m := pow_le_pow_left₀ one_sub_u_pos.le e1 m
        _ = Real.exp (-(m * u)) := by rw [← Real.exp_nat_mul]; congr 1; ring
    have hs : |Real.log b * (z - y)| ≤ m * u := by
      rw [abs_mul]; exact mul_le_mul hlog hyz (abs_nonneg _) (Nat.cast_nonneg m)
    rw [abs_le] at hs
    refine ⟨Real.exp (Real.log b * (z - y)), ?_, ?_, ?_⟩
    · rw [Real.rpow_def_of_pos hp, Real.rpow_def_of_pos hp, ← Real.exp_add]; congr 1; ring
    · exact e2.trans (Real.exp_le_exp.2 (by linarith [hs.1]))
    · calc Real.exp (Real.log b * (z - y)) * (1 - u) ^ m
          ≤ Real.exp (m * u) * Real.exp (-(m * u)) :=
            mul_le_mul (Real.exp_le_exp.2 hs.2) e2 (pow_nonneg one_sub_u_pos.le m) (Real.exp_pos _).le
        _ = 1 := by rw [← Real.exp_add]; simp

/-- A relative error as a number of roundings. -/
theorem close_of_error_nat {n : ℕ} {a b : ℝ} (h : |a - b| ≤ n * u * |b|) (hn : n ≤ 2 ^ 50) : Close (2 * n) a b := by
  have hu := u_pos
  have hn' : (n : ℝ) * u ≤ 1 / 8 := by
    have h1 : (n : ℝ) ≤ 2 ^ 50 := by exact_mod_cast hn
    have h3 : (2 : ℝ) ^ 50 * u = 1 / 8 := by unfold u; norm_num
    nlinarith
  have hn0 : 0 ≤ (n : ℝ) * u := by positivity
  rcases eq_or_ne b 0 with rfl | hb
  · have : a = 0 := by simpa using h
    rw [this]; exact (Close.refl 0).mono (Nat.zero_le _)
  · have key : (1 - u) ^ (2 * n) * (1 + 2 * (n * u)) ≤ 1 := by
      have h1 := one_add_mul_le_pow (a := u) (by linarith) (2 * n)
      have h2 : (1 - u) ^ (2 * n) * (1 + u) ^ (2 * n) ≤ 1 := by
        rw [← mul_pow]; exact pow_le_one₀ (by have := u_small; nlinarith) (by nlinarith)
      have h3 := pow_nonneg one_sub_u_pos.le (2 * n)
      push_cast at h1
      nlinarith [mul_le_mul_of_nonneg_left h1 h3]
    have hq : |a / b - 1| ≤ n * u := by
      have : a / b - 1 = (a - b) / b := by field_simp
      rw [this, abs_div, div_le_iff₀ (abs_pos.2 hb)]; exact h
    rw [abs_le] at hq
    have hp := pow_nonneg one_sub_u_pos.le (2 * n)
    refine ⟨a / b, by field_simp, ?_, ?_⟩
    · have : (1 - u) ^ (2 * n) ≤ 1 - n * u := by
        have : (1 : ℝ) ≤ (1 - n * u) * (1 + 2 * (n * u)) := by nlinarith
        by_contra hc
        push Not at hc
        nlinarith
      linarith [hq.1]
    · nlinarith [mul_le_mul_of_nonneg_right hq.2 hp]

theorem Rel.of_error {n m : ℕ} {a b : ℝ} (h : |a - b| ≤ n * u * |b|) (hn : n ≤ 2 ^ 50)
    (h0 : (2 : ℝ) ^ (-(m : ℤ)) ≤ b) (h1 : b ≤ (2 : ℝ) ^ (m : ℤ)) : Rel (2 * n) m a b := by
  have p := (two_zpow_pos (-(m : ℤ))).trans_le h0
  exact ⟨close_of_error_nat h hn, Or.inr (by rw [abs_of_pos p]; exact ⟨h0, h1⟩)⟩

/-! ## Absolute errors -/

/-- `a` is computed for `b`, of size at most `M`, with an error of at most `e` units of `2^-53`. -/
def Ab (e M a b : ℝ) : Prop := |a - b| ≤ e * u ∧ |b| ≤ M

theorem tiny_small : (2 : ℝ) ^ (-1075 : ℤ) ≤ u / 1000000 := by
  have h : (2 : ℝ) ^ (-1075 : ℤ) ≤ 2 ^ (-73 : ℤ) := two_zpow_le (by norm_num)
  refine h.trans ?_
  unfold u; norm_num

theorem Ab.rnd {e M a b : ℝ} (h : Ab e M a b) (he : e ≤ 10 ^ 9) : Ab (e + M + 1 / 1000) M (rnd a) b := by
  refine ⟨?_, h.2⟩
  have h1 := rnd_error_le a
  have h2 := tiny_small
  generalize (2 : ℝ) ^ (-1075 : ℤ) = η at *
  have hu := u_pos
  have hu' := u_small
  obtain ⟨h3, h4⟩ := h
  have h5 : |a| ≤ M + e * u := by
    have := abs_sub_abs_le_abs_sub a b; linarith
  have h6 : |Double.rnd a - b| ≤ |Double.rnd a - a| + |a - b| := abs_sub_le _ _ _
  have h7 : u * |a| ≤ u * (M + e * u) := mul_le_mul_of_nonneg_left h5 hu.le
  have h8 : u * (e * u) ≤ u / 2000 := by
    have : e * u ≤ 1 / 2000 := by nlinarith
    nlinarith
  nlinarith

theorem Ab.add {d e M N a b x y : ℝ} (h : Ab d M a x) (h' : Ab e N b y) (he : d + e ≤ 10 ^ 9) :
    Ab (d + e + (M + N) + 1 / 1000) (M + N) (Double.rnd (a + b)) (x + y) := by
  refine Ab.rnd ⟨?_, (abs_add_le _ _).trans (add_le_add h.2 h'.2)⟩ he
  rw [show a + b - (x + y) = (a - x) + (b - y) by ring, add_mul]
  exact (abs_add_le _ _).trans (add_le_add h.1 h'.1)

theorem Ab.sub {d e M N a b x y : ℝ} (h : Ab d M a x) (h' : Ab e N b y) (he : d + e ≤ 10 ^ 9) :
    Ab (d + e + (M + N) + 1 / 1000) (M + N) (Double.rnd (a - b)) (x - y) := by
  refine Ab.rnd ⟨?_, (abs_sub _ _).trans (add_le_add h.2 h'.2)⟩ he
  rw [show a - b - (x - y) = (a - x) - (b - y) by ring, add_mul]
  exact (abs_sub _ _).trans (add_le_add h.1 h'.1)

theorem Ab.mul {d e M N a b x y : ℝ} (h : Ab d M a x) (h' : Ab e N b y) (hd0 : 0 ≤ d) (he0 : 0 ≤ e)
    (hd : d * e ≤ 10 ^ 12) (hs : d * N + M * e ≤ 10 ^ 8) :
    Ab (d * N + M * e + 1 / 1000 + M * N + 1 / 1000) (M * N) (Double.rnd (a * b)) (x * y) := by
  have hu := u_pos
  have hu' := u_small
  obtain ⟨h1, h2⟩ := h
  obtain ⟨h3, h4⟩ := h'
  have hM : 0 ≤ M := (abs_nonneg _).trans h2
  refine Ab.rnd ⟨?_, by rw [abs_mul]; exact mul_le_mul h2 h4 (abs_nonneg _) hM⟩ (by linarith)
  have e1 : a * b - x * y = (a - x) * y + x * (b - y) + (a - x) * (b - y) := by ring
  have f1 : |(a - x) * y| ≤ d * u * N := by rw [abs_mul]; exact mul_le_mul h1 h4 (abs_nonneg _) (by positivity)
  have f2 : |x * (b - y)| ≤ M * (e * u) := by rw [abs_mul]; exact mul_le_mul h2 h3 (abs_nonneg _) hM
  have f3 : |(a - x) * (b - y)| ≤ d * u * (e * u) := by
    rw [abs_mul]; exact mul_le_mul h1 h3 (abs_nonneg _) (by positivity)
  have f4 : d * u * (e * u) ≤ 1 / 1000 * u := by
    have : d * e * u ≤ 1 / 1000 := by nlinarith
    nlinarith
  rw [e1]
  have g1 := abs_add_le ((a - x) * y + x * (b - y)) ((a - x) * (b - y))
  have g2 := abs_add_le ((a - x) * y) (x * (b - y))
  nlinarith

theorem Ab.mono {d e M N a x : ℝ} (h : Ab d M a x) (hd : d ≤ e) (hM : M ≤ N) : Ab e N a x :=
  ⟨h.1.trans (mul_le_mul_of_nonneg_right hd u_pos.le), h.2.trans hM⟩

theorem Ab.exact {M a : ℝ} (h : |a| ≤ M) : Ab 0 M a a := ⟨by simp, h⟩

theorem Rel.ab {k m : ℕ} {a b M : ℝ} (h : Rel k m a b) (hM : |b| ≤ M) (hk : k ≤ 2 ^ 50) : Ab (2 * k * M) M a b := by
  refine ⟨?_, hM⟩
  have h1 := h.1.error (hk.trans (by norm_num))
  have hu := u_pos
  have h2 : 2 * (k : ℝ) * u * |b| ≤ 2 * k * u * M := mul_le_mul_of_nonneg_left hM (by positivity)
  nlinarith

theorem Ab.rel {e M a b : ℝ} {n m : ℕ} (h : Ab e M a b) (h0 : 0 < b) (hn : e ≤ n * b) (hn' : n ≤ 2 ^ 50)
    (hb0 : (2 : ℝ) ^ (-(m : ℤ)) ≤ b) (hb1 : b ≤ (2 : ℝ) ^ (m : ℤ)) : Rel (2 * n) m a b := by
  refine Rel.of_error ?_ hn' hb0 hb1
  rw [abs_of_pos h0]
  have hu := u_pos
  have := h.1
  nlinarith

theorem Ab.square {e M a x : ℝ} {r : ℝ} (h : Ab e M a x) (hr : Faithful r (a ^ 2)) (he0 : 0 ≤ e) (he : e * e ≤ 10 ^ 12)
    (hs : M * e ≤ 10 ^ 8) : Ab (2 * (M * e) + 2 * M ^ 2 + 1 / 100) (M ^ 2) r (x ^ 2) := by
  have hu := u_pos
  have hu' := u_small
  obtain ⟨h1, h2⟩ := h
  have hM : 0 ≤ M := (abs_nonneg _).trans h2
  have hx2 : x ^ 2 ≤ M ^ 2 := by rw [← sq_abs]; exact pow_le_pow_left₀ (abs_nonneg _) h2 2
  refine ⟨?_, by rwa [abs_of_nonneg (sq_nonneg x)]⟩
  have h3 := hr.error_le
  have h4 : (2 : ℝ) ^ (-1074 : ℤ) ≤ u / 500000 := by
    have e : (2 : ℝ) ^ (-1074 : ℤ) = 2 ^ (-1075 : ℤ) * 2 := by
      rw [show (-1074 : ℤ) = -1075 + 1 by norm_num, zpow_add₀ (by norm_num), zpow_one]
    rw [e]; linarith [tiny_small]
  generalize (2 : ℝ) ^ (-1074 : ℤ) = η at *
  rw [abs_of_nonneg (sq_nonneg a)] at h3
  have e1 : a ^ 2 - x ^ 2 = 2 * (x * (a - x)) + (a - x) ^ 2 := by ring
  have f1 : |x * (a - x)| ≤ M * (e * u) := by rw [abs_mul]; exact mul_le_mul h2 h1 (abs_nonneg _) hM
  have f2 : (a - x) ^ 2 ≤ (e * u) ^ 2 := by rw [← sq_abs]; exact pow_le_pow_left₀ (abs_nonneg _) h1 2
  have f3 : (e * u) ^ 2 ≤ u / 1000 := by
    have : e * e * u ≤ 1 / 1000 := by nlinarith
    nlinarith
  have f4 : M * (e * u) * (2 * u) ≤ u / 1000 := by
    have : M * e * u ≤ 1 / 2000 := by nlinarith
    nlinarith
  rw [abs_le] at f1
  have g1 : |a ^ 2 - x ^ 2| ≤ 2 * (M * (e * u)) + u / 1000 := by
    rw [e1, abs_le]; constructor <;> nlinarith [sq_nonneg (a - x)]
  have g2 : a ^ 2 ≤ M ^ 2 + (2 * (M * (e * u)) + u / 1000) := by
    have := le_abs_self (a ^ 2 - x ^ 2); linarith
  have g3 : |r - x ^ 2| ≤ |r - a ^ 2| + |a ^ 2 - x ^ 2| := abs_sub_le _ _ _
  have g4 : 2 * u * a ^ 2 ≤ 2 * u * (M ^ 2 + (2 * (M * (e * u)) + u / 1000)) := mul_le_mul_of_nonneg_left g2 (by linarith)
  have g5 : u * u ≤ u := by nlinarith
  nlinarith

/-- A computed power with a rounded exponent. -/
theorem Rel.powr (L : HeatLibrary) {k m : ℕ} {a b y z : ℝ} (c : ℕ) (h : Rel k m a b) (ha : IsDouble a) (hz : IsDouble z)
    (hb : 0 ≤ b) (hy : 0 < y) (hz0 : 0 < z) (hzc : z ≤ c) (hyc : y ≤ c) (hyz : |z - y| ≤ u) (hk : c * k ≤ 2 ^ 40)
    (hm : c * m ≤ 1000) (hm' : m ≤ 1000) : Rel (c * k + 3 + m) (c * m) (L.powr a z) (b ^ y) := by
  have h1 := h.rpow c hb hz0 hzc
  have h2 := h1.faithful (L.powr_faithful a z ha hz (h.1.nonneg hb) hz0) (hk.trans (by norm_num)) hm
  exact ⟨h2.1.trans (Rel.exponent h.2 hb hy hz0 hyz), (h.rpow c hb hy hyc).2⟩

end Verif.Double
