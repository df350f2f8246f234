import Verif.Double
import Mathlib.Algebra.Order.Field.Power
import Mathlib.Algebra.Order.Round
import Mathlib.Tactic.Linarith
import Mathlib.Tactic.Ring
import Mathlib.Tactic.FieldSimp
import Mathlib.Tactic.Positivity
import Mathlib.Tactic.NormNum

/-!
# Facts about rounding to `double`
-/

namespace Verif.Double

/-! ## The nearest integer -/

theorem floor_le_nearest (x : ℝ) : ⌊x⌋ ≤ nearestInt x ∧ nearestInt x ≤ ⌊x⌋ + 1 := by
  unfold nearestInt; split_ifs <;> omega

theorem nearestInt_near (x : ℝ) : |(nearestInt x : ℝ) - x| ≤ 1 / 2 := by
  have h1 := Int.floor_le x
  have h2 := Int.lt_floor_add_one x
  unfold nearestInt
  split_ifs <;> push_cast <;> rw [abs_le] <;> constructor <;> linarith

theorem nearestInt_intCast (n : ℤ) : nearestInt (n : ℝ) = n := by
  unfold nearestInt
  rw [Int.floor_intCast, if_pos (by norm_num)]

theorem nearestInt_mono {a b : ℝ} (h : a ≤ b) : nearestInt a ≤ nearestInt b := by
  have hf := Int.floor_mono h
  rcases hf.lt_or_eq with hl | he
  · have := (floor_le_nearest a).2
    have := (floor_le_nearest b).1
    omega
  · unfold nearestInt
    rw [he]
    split_ifs <;> first | omega | (exfalso; linarith)

theorem nearestInt_neg (x : ℝ) : nearestInt (-x) = -nearestInt x := by
  rcases eq_or_ne (⌊x⌋ : ℝ) x with h | h
  · rw [← h, nearestInt_intCast, ← Int.cast_neg, nearestInt_intCast]
  · have h1 := lt_of_le_of_ne (Int.floor_le x) h
    have h2 := Int.lt_floor_add_one x
    have hf : ⌊-x⌋ = -⌊x⌋ - 1 := by
      rw [Int.floor_eq_iff]; push_cast; constructor <;> linarith
    unfold nearestInt
    rw [hf]
    push_cast
    split_ifs <;> first | omega | (exfalso; linarith)

theorem nearestInt_zero : nearestInt 0 = 0 := by simpa using nearestInt_intCast 0

theorem le_nearestInt {n : ℤ} {x : ℝ} (h : (n : ℝ) ≤ x) : n ≤ nearestInt x := by
  have := nearestInt_mono h; rwa [nearestInt_intCast] at this

theorem nearestInt_le {n : ℤ} {x : ℝ} (h : x ≤ (n : ℝ)) : nearestInt x ≤ n := by
  have := nearestInt_mono h; rwa [nearestInt_intCast] at this

/-! ## Places -/

theorem two_zpow_pos (e : ℤ) : (0 : ℝ) < 2 ^ e := by positivity

theorem two_zpow_le {a b : ℤ} (h : a ≤ b) : (2 : ℝ) ^ a ≤ 2 ^ b := zpow_le_zpow_right₀ (by norm_num) h

theorem lastPlace_ge (x : ℝ) : -1074 ≤ lastPlace x := le_max_right _ _

theorem lastPlace_neg (x : ℝ) : lastPlace (-x) = lastPlace x := by unfold lastPlace; rw [abs_neg]

/-- A number has at most 53 digits from its last place on. -/
theorem abs_lt_place (x : ℝ) : |x| < 2 ^ (lastPlace x + 53) := by
  have h := Int.lt_zpow_succ_log_self (b := 2) (by norm_num) |x|
  push_cast at h
  refine h.trans_le (two_zpow_le ?_)
  have : Int.log 2 |x| - 52 ≤ lastPlace x := le_max_left _ _
  omega

/-- Unless the last place is the lowest there is, a number has 53 digits. -/
theorem place_le_abs {x : ℝ} (h0 : x ≠ 0) (h : -1074 < lastPlace x) : (2 : ℝ) ^ (lastPlace x + 52) ≤ |x| := by
  have h1 := Int.zpow_log_le_self (b := 2) (by norm_num) (abs_pos.mpr h0)
  have he : lastPlace x + 52 = Int.log 2 |x| := by
    unfold lastPlace at h ⊢
    rcases max_choice (Int.log 2 |x| - 52) (-1074) with hm | hm <;> rw [hm] at h ⊢ <;> omega
  rw [he]
  exact_mod_cast h1

theorem lastPlace_mono {x y : ℝ} (hx : x ≠ 0) (h : |x| ≤ |y|) : lastPlace x ≤ lastPlace y := by
  unfold lastPlace
  have := Int.log_mono_right (b := 2) (abs_pos.mpr hx) h
  omega

/-! ## Rounding -/

theorem rnd_zero : rnd 0 = 0 := by unfold rnd; simp [nearestInt_zero]

theorem rnd_neg (x : ℝ) : rnd (-x) = -rnd x := by
  unfold rnd
  rw [lastPlace_neg, neg_div, nearestInt_neg]; push_cast; ring

/-- The error is at most half a unit in the last place. -/
theorem rnd_error (x : ℝ) : |rnd x - x| ≤ 2 ^ lastPlace x / 2 := by
  have hp := two_zpow_pos (lastPlace x)
  have h := nearestInt_near (x / 2 ^ lastPlace x)
  have e : rnd x - x = (nearestInt (x / 2 ^ lastPlace x) - x / 2 ^ lastPlace x) * 2 ^ lastPlace x := by
    unfold rnd; field_simp
  rw [e, abs_mul, abs_of_pos hp]
  nlinarith

theorem rnd_isDouble (x : ℝ) : IsDouble (rnd x) := by
  refine ⟨_, lastPlace x, ?_, lastPlace_ge x, rfl⟩
  have hp := two_zpow_pos (lastPlace x)
  have h := abs_lt_place x
  rw [zpow_add₀ (by norm_num)] at h
  have h2 : |x / 2 ^ lastPlace x| ≤ ((2 ^ 53 : ℤ) : ℝ) := by
    rw [abs_div, abs_of_pos hp, div_le_iff₀ hp]
    push_cast
    have : (2 : ℝ) ^ (53 : ℤ) = 2 ^ 53 := by norm_num
    rw [this] at h
    linarith
  rw [abs_le] at h2 ⊢
  refine ⟨le_nearestInt ?_, nearestInt_le h2.2⟩
  push_cast at h2 ⊢
  exact h2.1

theorem intCast_zpow_split {m e k : ℤ} (h : k ≤ e) : ((m : ℝ) * 2 ^ e) / 2 ^ k = ((m * 2 ^ (e - k).toNat : ℤ) : ℝ) := by
  have hk := two_zpow_pos k
  rw [div_eq_iff hk.ne']
  push_cast
  rw [mul_assoc, ← zpow_natCast, ← zpow_add₀ (by norm_num : (2 : ℝ) ≠ 0), Int.toNat_of_nonneg (by omega)]
  congr 2; omega

theorem rnd_of_multiple {x : ℝ} {n : ℤ} (h : x = n * 2 ^ lastPlace x) : rnd x = x := by
  have hp := two_zpow_pos (lastPlace x)
  have h' : x / 2 ^ lastPlace x = n := by rw [div_eq_iff hp.ne']; exact h
  unfold rnd
  rw [h', nearestInt_intCast, ← h]

theorem intCast_zpow {m e k : ℤ} (h : k ≤ e) : (m : ℝ) * 2 ^ e = ((m * 2 ^ (e - k).toNat : ℤ) : ℝ) * 2 ^ k := by
  push_cast
  rw [mul_assoc, ← zpow_natCast, ← zpow_add₀ (by norm_num : (2 : ℝ) ≠ 0), Int.toNat_of_nonneg (by omega)]
  congr 2; omega

/-- A `double` that is not zero is a multiple of its last place. -/
theorem isDouble_multiple {x : ℝ} (h : IsDouble x) : ∃ n : ℤ, x = n * 2 ^ lastPlace x := by
  obtain ⟨m, e, hm, he, hx⟩ := h
  rcases eq_or_ne x 0 with h0 | h0
  · exact ⟨0, by simpa using h0⟩
  rcases le_or_gt (lastPlace x) e with hle | hlt
  · exact ⟨_, hx.trans (intCast_zpow hle)⟩
  · have hl := place_le_abs h0 (by omega)
    have hm' : |(m : ℝ)| ≤ 2 ^ 53 := by exact_mod_cast hm
    generalize lastPlace x = E at *
    have hu : |x| ≤ 2 ^ (E + 52) := by
      rw [hx, abs_mul, abs_of_pos (two_zpow_pos e)]
      calc |(m : ℝ)| * 2 ^ e ≤ 2 ^ 53 * 2 ^ e := mul_le_mul_of_nonneg_right hm' (two_zpow_pos e).le
        _ = (2 : ℝ) ^ (53 + e) := by rw [zpow_add₀ (by norm_num)]; norm_num
        _ ≤ _ := two_zpow_le (by omega)
    have hE := le_antisymm hu hl
    have hsplit : (2 : ℝ) ^ (E + 52) = ((2 ^ 52 : ℤ) : ℝ) * 2 ^ E := by
      rw [zpow_add₀ (by norm_num)]; push_cast; norm_num; ring
    rcases abs_choice x with hc | hc
    · exact ⟨2 ^ 52, by rw [← hsplit, ← hE, hc]⟩
    · exact ⟨-2 ^ 52, by rw [Int.cast_neg, neg_mul, ← hsplit, ← hE, hc, neg_neg]⟩

/-- A `double` is left alone. -/
theorem rnd_of_isDouble {x : ℝ} (h : IsDouble x) : rnd x = x := by
  obtain ⟨n, hn⟩ := isDouble_multiple h
  exact rnd_of_multiple hn

theorem rnd_rnd (x : ℝ) : rnd (rnd x) = rnd x := rnd_of_isDouble (rnd_isDouble x)

theorem rnd_nonneg {x : ℝ} (h : 0 ≤ x) : 0 ≤ rnd x := by
  have hp := two_zpow_pos (lastPlace x)
  have : (0 : ℤ) ≤ nearestInt (x / 2 ^ lastPlace x) := le_nearestInt (by push_cast; positivity)
  unfold rnd
  have : (0 : ℝ) ≤ nearestInt (x / 2 ^ lastPlace x) := by exact_mod_cast this
  positivity

theorem rnd_mono_pos {x y : ℝ} (hx : 0 < x) (h : x ≤ y) : rnd x ≤ rnd y := by
  have hy : 0 < y := hx.trans_le h
  have hE : lastPlace x ≤ lastPlace y := lastPlace_mono hx.ne' (by rwa [abs_of_pos hx, abs_of_pos hy])
  rcases hE.lt_or_eq with hlt | he
  · have h1 : rnd x ≤ 2 ^ (lastPlace x + 53) := by
      have h := abs_lt_place x
      have hp := two_zpow_pos (lastPlace x)
      rw [abs_of_pos hx] at h
      have : x / 2 ^ lastPlace x ≤ ((2 ^ 53 : ℤ) : ℝ) := by
        rw [div_le_iff₀ hp]
        push_cast
        rw [zpow_add₀ (by norm_num)] at h
        have e : (2 : ℝ) ^ (53 : ℤ) = 2 ^ 53 := by norm_num
        rw [e] at h; linarith
      have h2 : ((nearestInt (x / 2 ^ lastPlace x) : ℤ) : ℝ) ≤ 2 ^ 53 := by exact_mod_cast nearestInt_le this
      unfold rnd
      calc _ ≤ (2 : ℝ) ^ 53 * 2 ^ lastPlace x := mul_le_mul_of_nonneg_right h2 hp.le
        _ = _ := by rw [zpow_add₀ (by norm_num)]; norm_num; ring
    have h2 : (2 : ℝ) ^ (lastPlace y + 52) ≤ rnd y := by
      have h := place_le_abs hy.ne' (by have := lastPlace_ge x; omega)
      have hp := two_zpow_pos (lastPlace y)
      rw [abs_of_pos hy] at h
      have : ((2 ^ 52 : ℤ) : ℝ) ≤ y / 2 ^ lastPlace y := by
        rw [le_div_iff₀ hp]
        push_cast
        rw [zpow_add₀ (by norm_num)] at h
        have e : (2 : ℝ) ^ (52 : ℤ) = 2 ^ 52 := by norm_num
        rw [e] at h; linarith
      have h2 : (2 : ℝ) ^ 52 ≤ ((nearestInt (y / 2 ^ lastPlace y) : ℤ) : ℝ) := by exact_mod_cast le_nearestInt this
      unfold rnd
      calc _ = (2 : ℝ) ^ 52 * 2 ^ lastPlace y := by rw [zpow_add₀ (by norm_num)]; norm_num; ring
        _ ≤ _ := mul_le_mul_of_nonneg_right h2 hp.le
    exact h1.trans ((two_zpow_le (by omega)).trans h2)
  · unfold rnd
    rw [he]
    have hp := two_zpow_pos (lastPlace y)
    refine mul_le_mul_of_nonneg_right ?_ hp.le
    exact_mod_cast nearestInt_mono (div_le_div_of_nonneg_right h hp.le)

/-- Rounding keeps the order. -/
theorem rnd_mono {x y : ℝ} (h : x ≤ y) : rnd x ≤ rnd y := by
  rcases lt_or_ge 0 x with hx | hx
  · exact rnd_mono_pos hx h
  rcases lt_or_ge y 0 with hy | hy
  · have := rnd_mono_pos (x := -y) (y := -x) (by linarith) (by linarith)
    rw [rnd_neg, rnd_neg] at this; linarith
  · have h1 : 0 ≤ rnd (-x) := rnd_nonneg (by linarith)
    rw [rnd_neg] at h1
    linarith [rnd_nonneg hy]

theorem rnd_nonpos {x : ℝ} (h : x ≤ 0) : rnd x ≤ 0 := by
  have := rnd_mono h; rwa [rnd_zero] at this

theorem rnd_abs (x : ℝ) : rnd |x| = |rnd x| := by
  rcases abs_cases x with ⟨h, h0⟩ | ⟨h, h0⟩
  · rw [h, abs_of_nonneg (rnd_nonneg h0)]
  · rw [h, rnd_neg, abs_of_nonpos (rnd_nonpos h0.le)]

theorem le_rnd {d x : ℝ} (hd : IsDouble d) (h : d ≤ x) : d ≤ rnd x := by
  have := rnd_mono h; rwa [rnd_of_isDouble hd] at this

theorem rnd_le {d x : ℝ} (hd : IsDouble d) (h : x ≤ d) : rnd x ≤ d := by
  have := rnd_mono h; rwa [rnd_of_isDouble hd] at this

/-- No other `double` is nearer. -/
theorem rnd_nearest (x : ℝ) {y : ℝ} (hy : IsDouble y) : |rnd x - x| ≤ |y - x| := by
  rcases eq_or_ne x 0 with h0 | h0
  · rw [h0, rnd_zero]; simp
  -- it is enough to look at a multiple `z` of the last place that is not farther than `y`
  have key : ∀ n : ℤ, |rnd x - x| ≤ |(n : ℝ) * 2 ^ lastPlace x - x| := by
    intro n
    have hp := two_zpow_pos (lastPlace x)
    rcases eq_or_ne n (nearestInt (x / 2 ^ lastPlace x)) with he | hne
    · rw [he]; rfl
    · have h1 := rnd_error x
      have h2 : (1 : ℝ) ≤ |(n : ℝ) - nearestInt (x / 2 ^ lastPlace x)| := by
        have : (1 : ℤ) ≤ |n - nearestInt (x / 2 ^ lastPlace x)| := Int.one_le_abs (sub_ne_zero.mpr hne)
        exact_mod_cast this
      have h3 : 2 ^ lastPlace x ≤ |(n : ℝ) * 2 ^ lastPlace x - rnd x| := by
        have : (n : ℝ) * 2 ^ lastPlace x - rnd x = (n - nearestInt (x / 2 ^ lastPlace x)) * 2 ^ lastPlace x := by
          unfold rnd; ring
        rw [this, abs_mul, abs_of_pos hp]; nlinarith
      have h4 : |(n : ℝ) * 2 ^ lastPlace x - rnd x| ≤ |(n : ℝ) * 2 ^ lastPlace x - x| + |rnd x - x| := by
        rw [abs_sub_comm (rnd x) x]; exact abs_sub_le _ _ _
      linarith
  obtain ⟨m, e, hm, he, hye⟩ := hy
  rcases le_or_gt (lastPlace x) e with hle | hlt
  · rw [hye, intCast_zpow hle]; exact key _
  · -- `y` is smaller than `x` in size, and the power of two below `x` is between
    have hl := place_le_abs h0 (by omega)
    have hm' : |(m : ℝ)| ≤ 2 ^ 53 := by exact_mod_cast hm
    have hyl : |y| ≤ 2 ^ (lastPlace x + 52) := by
      rw [hye, abs_mul, abs_of_pos (two_zpow_pos e)]
      calc |(m : ℝ)| * 2 ^ e ≤ 2 ^ 53 * 2 ^ e := mul_le_mul_of_nonneg_right hm' (two_zpow_pos e).le
        _ = (2 : ℝ) ^ (53 + e) := by rw [zpow_add₀ (by norm_num)]; norm_num
        _ ≤ _ := two_zpow_le (by omega)
    have hsplit : (2 : ℝ) ^ (lastPlace x + 52) = ((2 ^ 52 : ℤ) : ℝ) * 2 ^ lastPlace x := by
      rw [zpow_add₀ (by norm_num)]; push_cast; norm_num; ring
    rw [abs_le] at hyl
    rcases lt_or_gt_of_ne h0 with hneg | hpos
    · rw [abs_of_neg hneg] at hl
      refine (key (-2 ^ 52)).trans ?_
      rw [Int.cast_neg, neg_mul, ← hsplit, abs_of_nonneg (by linarith), abs_of_nonneg (by linarith)]
      linarith
    · rw [abs_of_pos hpos] at hl
      refine (key (2 ^ 52)).trans ?_
      rw [← hsplit, abs_of_nonpos (by linarith), abs_of_nonpos (by linarith)]
      linarith

/-! ## Errors -/

/-- Half a unit in the last place of one: `2 ^ (-53)`. -/
noncomputable def u : ℝ := 2 ^ (-53 : ℤ)

theorem u_pos : 0 < u := two_zpow_pos _

theorem u_small : u < 1 / 9000000000000000 := by unfold u; norm_num

/-- Away from the smallest numbers the relative error is at most `2 ^ (-53)`. -/
theorem rnd_relative {x : ℝ} (h : (2 : ℝ) ^ (-1022 : ℤ) ≤ |x|) : |rnd x - x| ≤ u * |x| := by
  have h0 : x ≠ 0 := by
    rintro rfl
    rw [abs_zero] at h
    exact absurd (two_zpow_pos (-1022)) (not_lt.mpr h)
  have hlog : lastPlace x = Int.log 2 |x| - 52 := by
    have : -1022 ≤ Int.log 2 |x| := (Int.zpow_le_iff_le_log (b := 2) (by norm_num) (abs_pos.mpr h0)).mp (by exact_mod_cast h)
    unfold lastPlace; omega
  have h1 := rnd_error x
  have h2 := Int.zpow_log_le_self (b := 2) (by norm_num) (abs_pos.mpr h0)
  push_cast at h2
  have h3 : (2 : ℝ) ^ lastPlace x / 2 = u * 2 ^ Int.log 2 |x| := by
    rw [hlog, u, ← zpow_add₀ (by norm_num), div_eq_mul_inv, ← zpow_neg_one, ← zpow_add₀ (by norm_num)]
    congr 1; omega
  rw [h3] at h1
  nlinarith [u_pos]

/-- In any case the error is relative or below the smallest number. -/
theorem rnd_error_le (x : ℝ) : |rnd x - x| ≤ u * |x| + 2 ^ (-1075 : ℤ) := by
  have hu := u_pos
  rcases le_or_gt ((2 : ℝ) ^ (-1022 : ℤ)) |x| with h | h
  · have := rnd_relative h
    have := two_zpow_pos (-1075)
    linarith
  · rcases eq_or_ne x 0 with h0 | h0
    · rw [h0, rnd_zero]; have := two_zpow_pos (-1075); simp [this.le]
    have hlog : lastPlace x = -1074 := by
      have : Int.log 2 |x| < -1022 := (Int.lt_zpow_iff_log_lt (b := 2) (by norm_num) (abs_pos.mpr h0)).mp (by exact_mod_cast h)
      unfold lastPlace; omega
    have h1 := rnd_error x
    rw [hlog] at h1
    have h3 : (2 : ℝ) ^ (-1074 : ℤ) / 2 = 2 ^ (-1075 : ℤ) := by
      rw [div_eq_mul_inv, ← zpow_neg_one, ← zpow_add₀ (by norm_num)]; norm_num
    rw [h3] at h1
    have : 0 ≤ u * |x| := by positivity
    linarith

/-- A multiple of the smallest number. -/
def IsMultiple (x : ℝ) : Prop := ∃ n : ℤ, x = n * 2 ^ (-1074 : ℤ)

theorem IsDouble.multiple {x : ℝ} (h : IsDouble x) : IsMultiple x := by
  obtain ⟨m, e, -, he, hx⟩ := h
  exact ⟨_, hx.trans (intCast_zpow he)⟩

theorem IsMultiple.add {x y : ℝ} (hx : IsMultiple x) (hy : IsMultiple y) : IsMultiple (x + y) := by
  obtain ⟨m, rfl⟩ := hx; obtain ⟨n, rfl⟩ := hy
  exact ⟨m + n, by push_cast; ring⟩

theorem IsMultiple.neg {x : ℝ} (hx : IsMultiple x) : IsMultiple (-x) := by
  obtain ⟨m, rfl⟩ := hx
  exact ⟨-m, by push_cast; ring⟩

theorem IsDouble.neg {x : ℝ} (hx : IsDouble x) : IsDouble (-x) := by
  obtain ⟨m, e, hm, he, rfl⟩ := hx
  exact ⟨-m, e, by rwa [abs_neg], he, by push_cast; ring⟩

/-- Sums and differences have a relative error only. -/
theorem rnd_relative_multiple {x : ℝ} (h : IsMultiple x) : |rnd x - x| ≤ u * |x| := by
  rcases le_or_gt ((2 : ℝ) ^ (-1022 : ℤ)) |x| with hx | hx
  · exact rnd_relative hx
  · have hu := u_pos
    have : rnd x = x := by
      rcases eq_or_ne x 0 with h0 | h0
      · rw [h0, rnd_zero]
      obtain ⟨n, hn⟩ := h
      have hlog : lastPlace x = -1074 := by
        have : Int.log 2 |x| < -1022 := (Int.lt_zpow_iff_log_lt (b := 2) (by norm_num) (abs_pos.mpr h0)).mp (by exact_mod_cast hx)
        unfold lastPlace; omega
      exact rnd_of_multiple (n := n) (by rw [hlog]; exact hn)
    rw [this, sub_self, abs_zero]; positivity

theorem rnd_add_relative {x y : ℝ} (hx : IsDouble x) (hy : IsDouble y) : |rnd (x + y) - (x + y)| ≤ u * |x + y| :=
  rnd_relative_multiple (hx.multiple.add hy.multiple)

theorem rnd_sub_relative {x y : ℝ} (hx : IsDouble x) (hy : IsDouble y) : |rnd (x - y) - (x - y)| ≤ u * |x - y| := by
  rw [sub_eq_add_neg]; exact rnd_add_relative hx hy.neg

/-- The difference of two different numbers is not rounded to zero. -/
theorem rnd_sub_pos {x y : ℝ} (hx : IsDouble x) (hy : IsDouble y) (h : x < y) : 0 < rnd (y - x) := by
  have h1 := rnd_sub_relative hy hx
  have hu := u_pos
  have hu' := u_small
  rw [abs_of_pos (sub_pos.mpr h), abs_le] at h1
  have : 0 < y - x := sub_pos.mpr h
  nlinarith [h1.1]

/-- Integers up to `2 ^ 53` are numbers. -/
theorem isDouble_int {n : ℤ} (h : |n| ≤ 2 ^ 53) : IsDouble n := ⟨n, 0, h, by norm_num, by simp⟩

theorem isDouble_zero : IsDouble 0 := by simpa using isDouble_int (n := 0) (by norm_num)

theorem isDouble_one : IsDouble 1 := by simpa using isDouble_int (n := 1) (by norm_num)

theorem nearestInt_eq {x : ℝ} {n : ℤ} (h : |x - n| < 1 / 2) : nearestInt x = n := by
  have h1 := nearestInt_near x
  have h2 : |(nearestInt x : ℝ) - n| < 1 := by
    have := abs_sub_le (nearestInt x : ℝ) x n
    linarith
  have h3 : |nearestInt x - n| < 1 := by exact_mod_cast h2
  have := Int.abs_lt_one_iff.mp h3
  omega

theorem lastPlace_eq {x : ℝ} {e : ℤ} (he : -1074 ≤ e) (h1 : 2 ^ (e + 52) ≤ |x|) (h2 : |x| < 2 ^ (e + 53)) :
    lastPlace x = e := by
  have h0 : 0 < |x| := (two_zpow_pos _).trans_le h1
  have a : e + 52 ≤ Int.log 2 |x| := (Int.zpow_le_iff_le_log (b := 2) (by norm_num) h0).mp (by exact_mod_cast h1)
  have b : Int.log 2 |x| < e + 53 := (Int.lt_zpow_iff_log_lt (b := 2) (by norm_num) h0).mp (by exact_mod_cast h2)
  unfold lastPlace; omega

/-- How to find a rounded value. -/
theorem rnd_eq {x : ℝ} (m e : ℤ) (he : -1074 ≤ e) (h1 : 2 ^ (e + 52) ≤ |x|) (h2 : |x| < 2 ^ (e + 53))
    (h : |x / 2 ^ e - m| < 1 / 2) : rnd x = m * 2 ^ e := by
  unfold rnd
  rw [lastPlace_eq he h1 h2, nearestInt_eq h]

/-- The same for a tie. -/
theorem rnd_eq_tie {x : ℝ} (m e : ℤ) (he : -1074 ≤ e) (h1 : 2 ^ (e + 52) ≤ |x|) (h2 : |x| < 2 ^ (e + 53))
    (hm : m % 2 = 0) (h : |x / 2 ^ e - m| = 1 / 2) : rnd x = m * 2 ^ e := by
  unfold rnd
  rw [lastPlace_eq he h1 h2]
  congr 2
  generalize x / 2 ^ e = t at h
  rcases abs_choice (t - m) with hc | hc <;> rw [hc] at h
  · have hf : ⌊t⌋ = m := by rw [Int.floor_eq_iff]; constructor <;> linarith
    unfold nearestInt
    rw [hf, if_neg (by linarith), if_neg (by linarith), if_pos hm]
  · have hf : ⌊t⌋ = m - 1 := by rw [Int.floor_eq_iff]; push_cast; constructor <;> linarith
    unfold nearestInt
    rw [hf, if_neg (by push_cast; linarith), if_neg (by push_cast; linarith), if_neg (by omega)]
    omega

/-! ## Numbers that agree up to some roundings -/

/-- `a` is `b` up to `k` roundings. -/
def Close (k : ℕ) (a b : ℝ) : Prop := ∃ t : ℝ, a = b * t ∧ (1 - u) ^ k ≤ t ∧ t * (1 - u) ^ k ≤ 1

theorem one_sub_u_pos : 0 < 1 - u := by have := u_small; linarith

theorem one_sub_u_le : 1 - u ≤ 1 := by have := u_pos; linarith

theorem Close.refl (a : ℝ) : Close 0 a a := ⟨1, by simp⟩

theorem Close.mono {k l : ℕ} {a b : ℝ} (h : Close k a b) (hkl : k ≤ l) : Close l a b := by
  obtain ⟨t, ht, h1, h2⟩ := h
  have hp := pow_le_pow_of_le_one one_sub_u_pos.le one_sub_u_le hkl
  have h0 : 0 < t := (pow_pos one_sub_u_pos k).trans_le h1
  exact ⟨t, ht, hp.trans h1, (mul_le_mul_of_nonneg_left hp h0.le).trans h2⟩

theorem Close.mul {k l : ℕ} {a b c d : ℝ} (h : Close k a b) (h' : Close l c d) : Close (k + l) (a * c) (b * d) := by
  obtain ⟨t, rfl, h1, h2⟩ := h
  obtain ⟨s, rfl, h3, h4⟩ := h'
  have pk := pow_pos one_sub_u_pos k
  have pl := pow_pos one_sub_u_pos l
  have t0 : 0 < t := pk.trans_le h1
  have s0 : 0 < s := pl.trans_le h3
  refine ⟨t * s, by ring, ?_, ?_⟩
  · rw [pow_add]; exact mul_le_mul h1 h3 pl.le t0.le
  · rw [pow_add]
    calc t * s * ((1 - u) ^ k * (1 - u) ^ l) = (t * (1 - u) ^ k) * (s * (1 - u) ^ l) := by ring
      _ ≤ 1 * 1 := mul_le_mul h2 h4 (by positivity) (by norm_num)
      _ = 1 := one_mul 1

theorem Close.inv {k : ℕ} {a b : ℝ} (h : Close k a b) : Close k a⁻¹ b⁻¹ := by
  obtain ⟨t, rfl, h1, h2⟩ := h
  have pk := pow_pos one_sub_u_pos k
  have t0 : 0 < t := pk.trans_le h1
  refine ⟨t⁻¹, by rw [mul_inv], ?_, ?_⟩
  · rw [le_inv_comm₀ pk t0]
    rw [inv_eq_one_div, le_div_iff₀ pk]; exact h2
  · rw [inv_mul_le_iff₀ t0]; linarith

theorem Close.trans {k l : ℕ} {a b c : ℝ} (h : Close k a b) (h' : Close l b c) : Close (k + l) a c := by
  obtain ⟨t, rfl, h1, h2⟩ := h
  obtain ⟨s, rfl, h3, h4⟩ := h'
  have pk := pow_pos one_sub_u_pos k
  have pl := pow_pos one_sub_u_pos l
  have t0 : 0 < t := pk.trans_le h1
  have s0 : 0 < s := pl.trans_le h3
  refine ⟨s * t, by ring, ?_, ?_⟩
  · rw [pow_add, mul_comm]; exact mul_le_mul h3 h1 pk.le s0.le
  · rw [pow_add]
    calc s * t * ((1 - u) ^ k * (1 - u) ^ l) = (t * (1 - u) ^ k) * (s * (1 - u) ^ l) := by ring
      _ ≤ 1 * 1 := mul_le_mul h2 h4 (by positivity) (by norm_num)
      _ = 1 := one_mul 1

theorem Close.symm {k : ℕ} {a b : ℝ} (h : Close k a b) : Close k b a := by
  obtain ⟨t, rfl, h1, h2⟩ := h
  have pk := pow_pos one_sub_u_pos k
  have t0 : 0 < t := pk.trans_le h1
  refine ⟨t⁻¹, by field_simp, ?_, ?_⟩
  · rw [le_inv_comm₀ pk t0]
    rw [inv_eq_one_div, le_div_iff₀ pk]; exact h2
  · rw [inv_mul_le_iff₀ t0]; linarith

theorem Close.div {k l : ℕ} {a b c d : ℝ} (h : Close k a b) (h' : Close l c d) : Close (k + l) (a / c) (b / d) := by
  rw [div_eq_mul_inv, div_eq_mul_inv]; exact h.mul h'.inv

theorem Close.neg {k : ℕ} {a b : ℝ} (h : Close k a b) : Close k (-a) (-b) := by
  obtain ⟨t, rfl, h1, h2⟩ := h
  exact ⟨t, by ring, h1, h2⟩

theorem close_of_error {a b : ℝ} (h : |a - b| ≤ u * |b|) : Close 1 a b := by
  have hu := u_pos
  have hu' := u_small
  rcases eq_or_ne b 0 with rfl | hb
  · rw [abs_zero, mul_zero, sub_zero] at h
    have := abs_eq_zero.mp (le_antisymm h (abs_nonneg _))
    exact ⟨1, by simp [this], by simpa using hu.le, by simpa using hu.le⟩
  · refine ⟨a / b, by field_simp, ?_, ?_⟩
    all_goals
      have h1 : |a / b - 1| ≤ u := by
        have : a / b - 1 = (a - b) / b := by field_simp
        rw [this, abs_div, div_le_iff₀ (abs_pos.mpr hb)]; exact h
      rw [abs_le] at h1
      rw [pow_one]
    · linarith [h1.1]
    · nlinarith [h1.2]

theorem Close.rnd {k : ℕ} {a b : ℝ} (h : Close k a b) (ha : (2 : ℝ) ^ (-1022 : ℤ) ≤ |a|) :
    Close (k + 1) (rnd a) b := by
  rw [add_comm]; exact (close_of_error (rnd_relative ha)).trans h

theorem Close.zero_iff {k : ℕ} {a b : ℝ} (h : Close k a b) : a = 0 ↔ b = 0 := by
  obtain ⟨t, rfl, h1, -⟩ := h
  have t0 : 0 < t := (pow_pos one_sub_u_pos k).trans_le h1
  constructor
  · intro h; rcases mul_eq_zero.mp h with h | h
    · exact h
    · linarith
  · rintro rfl; simp

/-- The error in usual terms. -/
theorem Close.error {k : ℕ} {a b : ℝ} (h : Close k a b) (hk : k ≤ 2 ^ 52) : |a - b| ≤ 2 * k * u * |b| := by
  obtain ⟨t, rfl, h1, h2⟩ := h
  have hu := u_pos
  have hb := one_add_mul_le_pow (a := -u) (by have := u_small; linarith) k
  have hk' : (k : ℝ) * u ≤ 1 / 2 := by
    have h1 : (k : ℝ) ≤ 2 ^ 52 := by exact_mod_cast hk
    have h2 : (2 : ℝ) ^ 52 * u = 1 / 2 := by unfold u; norm_num
    nlinarith
  have hb' : 1 - k * u ≤ (1 - u) ^ k := by rw [sub_eq_add_neg 1 u]; linarith
  have pk := pow_pos one_sub_u_pos k
  have t0 : 0 < t := pk.trans_le h1
  have ht : |t - 1| ≤ 2 * k * u := by
    rw [abs_le]
    constructor
    · have : 0 ≤ (k : ℝ) * u := by positivity
      linarith
    · have h3 : t * (1 - k * u) ≤ 1 := (mul_le_mul_of_nonneg_left hb' t0.le).trans h2
      have : 0 ≤ (k : ℝ) * u := by positivity
      by_contra hc
      push Not at hc
      nlinarith
  calc |b * t - b| = |b| * |t - 1| := by rw [← abs_mul]; congr 1; ring
    _ ≤ |b| * (2 * k * u) := mul_le_mul_of_nonneg_left ht (abs_nonneg b)
    _ = _ := by ring

theorem Close.abs_ge {k : ℕ} {a b : ℝ} (h : Close k a b) (hk : k ≤ 2 ^ 50) : |b| / 2 ≤ |a| := by
  have h1 := h.error (hk.trans (by norm_num))
  have h2 : (k : ℝ) ≤ 2 ^ 50 := by exact_mod_cast hk
  have h3 : (2 : ℝ) ^ 50 * u = 1 / 8 := by unfold u; norm_num
  have hu := u_pos
  have h4 : 2 * k * u ≤ 1 / 2 := by nlinarith
  have h5 := abs_sub_abs_le_abs_sub b a
  rw [abs_sub_comm] at h5
  have h6 : 2 * k * u * |b| ≤ 1 / 2 * |b| := mul_le_mul_of_nonneg_right h4 (abs_nonneg b)
  linarith

end Verif.Double
