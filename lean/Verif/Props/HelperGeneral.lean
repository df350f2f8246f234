import Verif.Props.HelperFormat
import Mathlib.Algebra.Order.Field.Power

/-!
# Numbers written with significant digits (C172)
-/

set_option linter.unusedSectionVars false

namespace Verif.Props

open Verif Verif.Helper

/-! ## Trailing zeros -/

theorem allDigits_of_concat {s : List Char} {c : Char} (h : AllDigits (s ++ [c])) : AllDigits s ∧ isDigit c = true :=
  ⟨fun d hd => h d (by simp [hd]), allDigits_def.1 h c (by simp)⟩

theorem rdrop_spec (b : List Char) (h : AllDigits b) : AllDigits (b.rdropWhile (· = '0')) ∧
    (b.rdropWhile (· = '0')).getLast? ≠ some '0' ∧ (b.rdropWhile (· = '0')).length ≤ b.length ∧
    (numeral (b.rdropWhile (· = '0')) : ℚ) / 10 ^ (b.rdropWhile (· = '0')).length = numeral b / 10 ^ b.length := by
  induction b using List.reverseRecOn with
  | nil => simp [AllDigits]
  | append_singleton s c ih =>
    rw [List.rdropWhile_concat]
    obtain ⟨h1, h2⟩ := allDigits_of_concat h
    split_ifs with hc
    · obtain ⟨i1, i2, i3, i4⟩ := ih h1
      refine ⟨i1, i2, by simp; omega, ?_⟩
      rw [i4]
      have : c = '0' := by simpa using hc
      subst this
      rw [digitsValue_concat, List.length_append, List.length_singleton, pow_succ]
      have h10 : (10 : ℚ) ^ s.length ≠ 0 := by positivity
      have : ('0'.toNat - 48) = 0 := rfl
      rw [this]
      push_cast
      field_simp
      ring
    · refine ⟨h, ?_, le_rfl, rfl⟩
      simp only [List.getLast?_concat, ne_eq, Option.some.injEq]
      simpa using hc

theorem rdrop_point (a b : List Char) : (a ++ '.' :: b).rdropWhile (· = '0') = a ++ '.' :: b.rdropWhile (· = '0') := by
  induction b using List.reverseRecOn with
  | nil =>
    have : a ++ '.' :: [] = a ++ ['.'] := rfl
    rw [this, List.rdropWhile_concat]
    simp
  | append_singleton s c ih =>
    have : a ++ '.' :: (s ++ [c]) = (a ++ '.' :: s) ++ [c] := by simp
    rw [this, List.rdropWhile_concat, List.rdropWhile_concat]
    split_ifs with hc
    · exact ih
    · simp

theorem strip_point {a b : List Char} (hb : AllDigits b) : stripZeros (a ++ '.' :: b) =
    a ++ (if b.rdropWhile (· = '0') = [] then [] else '.' :: b.rdropWhile (· = '0')) := by
  unfold stripZeros
  rw [if_pos (by simp)]
  simp only
  rw [rdrop_point]
  obtain ⟨h1, -, -, -⟩ := rdrop_spec b hb
  generalize b.rdropWhile (· = '0') = t at *
  rcases List.eq_nil_or_concat' t with rfl | ⟨s, c, rfl⟩
  · rw [if_pos rfl, if_pos (by simp)]
    simp
  · rw [if_neg (c := s ++ [c] = []) (by simp)]
    have h2 := (allDigits_of_concat h1).2
    have e : a ++ '.' :: (s ++ [c]) = (a ++ '.' :: s) ++ [c] := by simp
    rw [if_neg]
    rw [e, List.getLast?_concat]
    intro h
    cases h
    exact absurd h2 (by decide)

theorem strip_spec (n p : ℕ) : ∃ a b, AllDigits a ∧ a ≠ [] ∧ AllDigits b ∧ b.getLast? ≠ some '0' ∧
    stripZeros (pointChars n p) = a ++ (if b = [] then [] else '.' :: b) ∧
    (n : ℚ) / 10 ^ p = numeral a + numeral b / 10 ^ b.length := by
  obtain ⟨a1, a2, a3⟩ := natChars_spec (n / 10 ^ p)
  obtain ⟨b1, b2, b3⟩ := padChars_spec p n
  by_cases hp : p = 0
  · subst hp
    refine ⟨natChars (n / 10 ^ 0), [], a1, a2, by simp [AllDigits], by simp, ?_, ?_⟩
    · rw [pointChars, if_pos rfl, if_pos rfl, List.append_nil, stripZeros, if_neg (digits_point a1)]
    · rw [a3]; simp [numeral]
  · obtain ⟨r1, r2, -, r4⟩ := rdrop_spec _ b1
    refine ⟨natChars (n / 10 ^ p), _, a1, a2, r1, r2, ?_, ?_⟩
    · rw [pointChars, if_neg hp, strip_point b1]
    · rw [r4, a3, b2, b3, digitsValue_mod]

theorem strip_spells (n p : ℕ) : SpellsMantissa (stripZeros (pointChars n p)) (n / 10 ^ p) := by
  obtain ⟨a, b, ha, ha0, hb, -, e, hv⟩ := strip_spec n p
  refine ⟨a, b, ha, hb, fun h => ha0 h.1, ?_, hv⟩
  rw [e]
  split_ifs with h
  · exact Or.inl ⟨h, by simp⟩
  · exact Or.inr rfl

theorem exponent_spells (k : ℤ) : SpellsExponent (exponentChars k) k := by
  obtain ⟨a1, a2, a3⟩ := natChars_spec k.natAbs
  have z : AllDigits ('0' :: natChars k.natAbs) ∧ numeral ('0' :: natChars k.natAbs) = k.natAbs := by
    refine ⟨?_, ?_⟩
    · intro c hc
      rcases List.mem_cons.1 hc with rfl | h
      · decide
      · exact a1 c h
    · have : numeral ('0' :: natChars k.natAbs) = numeral (natChars k.natAbs) := by
        rw [← digitsValue_eq, ← digitsValue_eq]; rfl
      rw [this, a3]
  refine Or.inr ⟨'e', [if k < 0 then '-' else '+'],
    if k.natAbs < 10 then '0' :: natChars k.natAbs else natChars k.natAbs, if k < 0 then -1 else 1, Or.inl rfl, ?_, ?_, ?_,
    rfl, ?_⟩
  · split_ifs
    · exact Or.inr (Or.inr ⟨rfl, rfl⟩)
    · exact Or.inr (Or.inl ⟨rfl, rfl⟩)
  · split_ifs
    · exact z.1
    · exact a1
  · split_ifs
    · simp
    · exact a2
  · have : numeral (if k.natAbs < 10 then '0' :: natChars k.natAbs else natChars k.natAbs) = k.natAbs := by
      split_ifs
      · exact z.2
      · exact a3
    rw [this]
    split_ifs <;> omega

/-! ## Rounding to significant digits -/

theorem significand_spec {x : ℚ} (hx : x ≠ 0) {P : ℕ} (hP : 1 ≤ P) :
    10 ^ (P - 1) ≤ (significand x P).1 ∧ (significand x P).1 < 10 ^ P ∧
    ((significand x P).1 : ℚ) * 10 ^ ((significand x P).2 - (P - 1 : ℕ)) =
      roundEven (|x| / 10 ^ (Int.log 10 |x| - (P - 1 : ℕ))) * 10 ^ (Int.log 10 |x| - (P - 1 : ℕ)) := by
  have hx0 : 0 < |x| := abs_pos.2 hx
  set k := Int.log 10 |x| with hk
  have l1 : ((10 : ℕ) : ℚ) ^ k ≤ |x| := Int.zpow_log_le_self (by norm_num) hx0
  have l2 : |x| < ((10 : ℕ) : ℚ) ^ (k + 1) := Int.lt_zpow_succ_log_self (by norm_num) _
  push_cast at l1 l2
  set d : ℚ := 10 ^ (k - (P - 1 : ℕ)) with hd
  have hd0 : 0 < d := by positivity
  have e1 : (10 : ℚ) ^ k = 10 ^ (P - 1) * d := by
    rw [hd, ← zpow_natCast, ← zpow_add₀ (by norm_num)]
    congr 1
    ring
  have e2 : (10 : ℚ) ^ (k + 1) = 10 ^ P * d := by
    rw [hd, ← zpow_natCast, ← zpow_add₀ (by norm_num)]
    congr 1
    push_cast [hP]
    ring
  have near := roundEven_near (x := |x| / d) (by positivity)
  rw [abs_le] at near
  have m1 : (10 : ℚ) ^ (P - 1) ≤ |x| / d := by rw [le_div_iff₀ hd0, ← e1]; exact l1
  have m2 : |x| / d < (10 : ℚ) ^ P := by rw [div_lt_iff₀ hd0, ← e2]; exact l2
  have n1 : 10 ^ (P - 1) ≤ roundEven (|x| / d) := by
    have : ((10 ^ (P - 1) : ℕ) : ℚ) < roundEven (|x| / d) + 1 := by push_cast; linarith
    have : 10 ^ (P - 1) < roundEven (|x| / d) + 1 := by exact_mod_cast this
    omega
  have n2 : roundEven (|x| / d) ≤ 10 ^ P := by
    have : (roundEven (|x| / d) : ℚ) < ((10 ^ P : ℕ) : ℚ) + 1 := by push_cast; linarith
    have : roundEven (|x| / d) < 10 ^ P + 1 := by exact_mod_cast this
    omega
  have hpow : 10 ^ P = 10 * 10 ^ (P - 1) := by
    rw [← pow_succ']
    congr 1
    omega
  unfold significand
  rw [if_neg hx]
  simp only
  rw [← hk, ← hd]
  split_ifs with h
  · refine ⟨le_rfl, ?_, ?_⟩
    · have : 0 < 10 ^ (P - 1) := by positivity
      show 10 ^ (P - 1) < 10 ^ P
      omega
    · rw [h]
      show ((10 ^ (P - 1) : ℕ) : ℚ) * 10 ^ (k + 1 - (P - 1 : ℕ)) = _
      have : (10 : ℚ) ^ (k + 1 - (P - 1 : ℕ)) = 10 * d := by
        rw [hd, show k + 1 - ((P - 1 : ℕ) : ℤ) = 1 + (k - (P - 1 : ℕ)) by ring, zpow_add₀ (by norm_num), zpow_one]
      rw [this, hpow]
      push_cast
      ring
  · exact ⟨n1, lt_of_le_of_ne n2 h, rfl⟩

/-- The number written with `P` significant digits. -/
def generalValue (x : ℚ) (P : ℕ) : ℚ :=
  signOf x * ((significand x P).1 * 10 ^ ((significand x P).2 - (P - 1 : ℕ)))

theorem generalText_spells (x : ℚ) {P : ℕ} (hP : 1 ≤ P) : Spells (generalText x P) (generalValue x P) := by
  unfold generalText
  simp only
  split_ifs with h
  · refine ⟨signChars x, _, [], signOf x, _, 0, by rw [List.append_nil], signChars_spells x, strip_spells _ _,
      Or.inl ⟨rfl, rfl⟩, ?_⟩
    have e : ((((P - 1 : ℕ) : ℤ) - (significand x P).2).toNat : ℤ) = (P - 1 : ℕ) - (significand x P).2 :=
      Int.toNat_of_nonneg (by omega)
    rw [generalValue, zpow_zero, mul_one, div_eq_mul_inv, ← zpow_natCast, e, ← zpow_neg, neg_sub]
  · refine ⟨signChars x, _, exponentChars _, signOf x, _, _, by rw [List.append_assoc], signChars_spells x, strip_spells _ _,
      exponent_spells _, ?_⟩
    rw [generalValue, mul_assoc, zpow_sub₀ (by norm_num), zpow_natCast]
    ring

theorem general_text (x : ℚ) {P : ℕ} (hP : 1 ≤ P) : doubleToString x P false = generalText x P := by
  have h : ¬ ((P : ℤ) < 0) := by omega
  have h' : ¬ (P = 0) := by omega
  simp [doubleToString, usedPrecision, h, h']

/-- The spacing of the numbers with `P` significant digits around `x`. -/
theorem generalValue_near {x : ℚ} (hx : x ≠ 0) {P : ℕ} (hP : 1 ≤ P) : ∃ d : ℚ, 0 < d ∧
    (∃ k : ℤ, d = 10 ^ k) ∧ 10 ^ (P - 1) * d ≤ |x| ∧ |x| < 10 ^ P * d ∧
    (∃ n : ℤ, generalValue x P = n * d) ∧ |generalValue x P - x| ≤ 1 / 2 * d := by
  obtain ⟨-, -, h3⟩ := significand_spec hx hP
  have hx0 : 0 < |x| := abs_pos.2 hx
  have l1 : ((10 : ℕ) : ℚ) ^ (Int.log 10 |x|) ≤ |x| := Int.zpow_log_le_self (by norm_num) hx0
  have l2 : |x| < ((10 : ℕ) : ℚ) ^ (Int.log 10 |x| + 1) := Int.lt_zpow_succ_log_self (by norm_num) _
  push_cast at l1 l2
  set k := Int.log 10 |x| with hk
  have hd0 : (0 : ℚ) < 10 ^ (k - (P - 1 : ℕ)) := by positivity
  refine ⟨10 ^ (k - (P - 1 : ℕ)), hd0, ⟨_, rfl⟩, ?_, ?_, ?_, ?_⟩
  · rw [← zpow_natCast, ← zpow_add₀ (by norm_num)]
    refine le_trans (le_of_eq ?_) l1
    congr 1
    ring
  · rw [← zpow_natCast, ← zpow_add₀ (by norm_num)]
    refine lt_of_lt_of_eq l2 ?_
    congr 1
    push_cast [hP]
    ring
  · refine ⟨signOf x * roundEven (|x| / 10 ^ (k - (P - 1 : ℕ))), ?_⟩
    rw [generalValue, h3]
    push_cast
    ring
  · have near := roundEven_near (x := |x| / 10 ^ (k - (P - 1 : ℕ))) (by positivity)
    have e : generalValue x P - x = signOf x * ((roundEven (|x| / 10 ^ (k - (P - 1 : ℕ))) -
        |x| / 10 ^ (k - (P - 1 : ℕ))) * 10 ^ (k - (P - 1 : ℕ))) := by
      have q := signOf_mul_abs x
      rw [generalValue, h3, sub_mul, div_mul_cancel₀ _ hd0.ne', mul_sub, q]
    rw [e, abs_mul, abs_signOf, one_mul, abs_mul, abs_of_pos hd0]
    gcongr

theorem generalValue_zero (P : ℕ) : generalValue 0 P = 0 := by
  simp [generalValue, significand]

/-- A number of at most `P` significant digits. -/
def Significant (P : ℕ) (v : ℚ) : Prop := ∃ m k : ℤ, |m| < 10 ^ P ∧ v = m * 10 ^ k

theorem significant_value (x : ℚ) {P : ℕ} (hP : 1 ≤ P) : Significant P (generalValue x P) := by
  by_cases hx : x = 0
  · subst hx
    exact ⟨0, 0, by rw [abs_zero]; positivity, by rw [generalValue_zero]; simp⟩
  · obtain ⟨h1, h2, -⟩ := significand_spec hx hP
    refine ⟨signOf x * (significand x P).1, (significand x P).2 - (P - 1 : ℕ), ?_, ?_⟩
    · rw [abs_mul]
      have : |signOf x| = 1 := by unfold signOf; split_ifs <;> rfl
      rw [this, one_mul, abs_of_nonneg (by positivity)]
      exact_mod_cast h2
    · rw [generalValue]
      push_cast
      ring

theorem generalValue_nearest (x : ℚ) {P : ℕ} (hP : 1 ≤ P) {u : ℚ} (hu : Significant P u) :
    |generalValue x P - x| ≤ |u - x| := by
  by_cases hx : x = 0
  · subst hx
    rw [generalValue_zero]
    simp
  · obtain ⟨d, hd0, ⟨k, hk⟩, l1, -, ⟨n, hn⟩, hnear⟩ := generalValue_near hx hP
    rw [hn] at hnear ⊢
    have key := nearest_of_half hd0 hnear
    obtain ⟨m, j, hm, rfl⟩ := hu
    by_cases hj : k ≤ j
    · have e : ((m * 10 ^ (j - k).toNat : ℤ) : ℚ) * d = m * 10 ^ j := by
        rw [hk]
        push_cast
        rw [mul_assoc, ← zpow_natCast, ← zpow_add₀ (by norm_num)]
        congr 2
        omega
      have := key (m * 10 ^ (j - k).toNat)
      rwa [e] at this
    · -- below the spacing: not larger than the least number with P digits
      have h1 : |(m : ℚ) * 10 ^ j| ≤ 10 ^ (P - 1) * d := by
        rw [abs_mul, abs_of_pos (a := (10 : ℚ) ^ j) (by positivity)]
        have hm' : |(m : ℚ)| ≤ 10 ^ P := by exact_mod_cast hm.le
        have hj' : (10 : ℚ) ^ j ≤ 10 ^ (k - 1) := zpow_le_zpow_right₀ (by norm_num) (by omega)
        have e : (10 : ℚ) ^ P * 10 ^ (k - 1) = 10 ^ (P - 1) * d := by
          rw [hk, ← zpow_natCast, ← zpow_natCast, ← zpow_add₀ (by norm_num), ← zpow_add₀ (by norm_num)]
          congr 1
          push_cast [hP]
          ring
        rw [← e]
        gcongr
      have h2 := key (signOf x * 10 ^ (P - 1))
      have h3 : |((signOf x * 10 ^ (P - 1) : ℤ) : ℚ) * d - x| = |x| - 10 ^ (P - 1) * d := by
        have q := signOf_mul_abs x
        have : ((signOf x * 10 ^ (P - 1) : ℤ) : ℚ) * d - x = signOf x * (10 ^ (P - 1) * d - |x|) := by
          rw [mul_sub, q]; push_cast; ring
        rw [this, abs_mul, abs_signOf, one_mul, abs_of_nonpos (by linarith)]
        ring
      have h4 : |x| - |(m : ℚ) * 10 ^ j| ≤ |(m : ℚ) * 10 ^ j - x| := by
        rw [abs_sub_comm]
        exact abs_sub_abs_le_abs_sub _ _
      linarith

/-- C172: without fixed decimals the text is the decimal numeral of the number nearest to the value among all those of
at most `precision` significant digits. -/
theorem C172_nearest (x : ℚ) {P : ℕ} (hP : 1 ≤ P) : ∃ v, Spells (doubleToString x P false) v ∧ Significant P v ∧
    ∀ u, Significant P u → |v - x| ≤ |u - x| := by
  refine ⟨generalValue x P, ?_, significant_value x hP, fun u hu => generalValue_nearest x hP hu⟩
  rw [general_text x hP]
  exact generalText_spells x hP

/-- C172: the error is at most half a unit of the last significant digit. -/
theorem C172_error {x v : ℚ} {P : ℕ} (hP : 1 ≤ P) (h : Spells (doubleToString x P false) v) :
    |v - x| ≤ 1 / 2 * |x| / 10 ^ (P - 1) := by
  rw [general_text x hP] at h
  rw [C170_one_value h (generalText_spells x hP)]
  by_cases hx : x = 0
  · subst hx
    rw [generalValue_zero]
    simp
  · obtain ⟨d, hd0, -, l1, -, -, hnear⟩ := generalValue_near hx hP
    refine hnear.trans ?_
    rw [le_div_iff₀ (by positivity)]
    linarith

/-- C172: a larger value is not written as a smaller number. -/
theorem C172_order {x y v w : ℚ} {P : ℕ} (hP : 1 ≤ P) (hv : Spells (doubleToString x P false) v)
    (hw : Spells (doubleToString y P false) w) (h : x ≤ y) : v ≤ w := by
  rcases h.eq_or_lt with rfl | h
  · exact (C170_one_value hv hw).le
  · obtain ⟨v', q1, q2, q3⟩ := C172_nearest x hP
    obtain ⟨w', r1, r2, r3⟩ := C172_nearest y hP
    rw [C170_one_value hv q1, C170_one_value hw r1]
    exact nearest_mono (S := Significant P) q2 r2 q3 r3 h

/-- C172: the text has digits before the decimal point, none or some after it, the last of which is not a zero, and then
possibly an exponent. -/
theorem C172_shape (x : ℚ) {P : ℕ} (hP : 1 ≤ P) : ∃ a b e k, AllDigits a ∧ a ≠ [] ∧ AllDigits b ∧ b.getLast? ≠ some '0' ∧
    SpellsExponent e k ∧
    doubleToString x P false = (if x < 0 then ['-'] else []) ++ (a ++ (if b = [] then [] else '.' :: b)) ++ e := by
  rw [general_text x hP]
  unfold generalText
  simp only
  split_ifs with h h'
  all_goals
    first
    | obtain ⟨a, b, h1, h2, h3, h4, h5, -⟩ := strip_spec (significand x P).1 (((P - 1 : ℕ) : ℤ) - (significand x P).2).toNat
      exact ⟨a, b, [], 0, h1, h2, h3, h4, Or.inl ⟨rfl, rfl⟩, by rw [h5, signChars]; simp [*]⟩
    | obtain ⟨a, b, h1, h2, h3, h4, h5, -⟩ := strip_spec (significand x P).1 (P - 1)
      exact ⟨a, b, _, _, h1, h2, h3, h4, exponent_spells (significand x P).2, by rw [h5, signChars]; simp [*]⟩

/-- A number with a significand of 53 bits, as every finite double is. -/
def Bits53 (x : ℚ) : Prop := ∃ m e : ℤ, |m| < 2 ^ 53 ∧ x = m * 2 ^ e

theorem bits_apart {x y : ℚ} {m n e f : ℤ} (hm : |m| < 2 ^ 53) (hx : x = m * 2 ^ e) (hy : y = n * 2 ^ f) (hef : e ≤ f)
    (hne : x ≠ y) : |x| ≤ (2 ^ 53 - 1) * |x - y| := by
  have h2 : (0 : ℚ) < 2 ^ e := by positivity
  have hd : x - y = ((m - n * 2 ^ (f - e).toNat : ℤ) : ℚ) * 2 ^ e := by
    rw [hx, hy]
    push_cast
    rw [sub_mul, mul_assoc (n : ℚ), ← zpow_natCast, ← zpow_add₀ (by norm_num)]
    congr 3
    omega
  have hz : m - n * 2 ^ (f - e).toNat ≠ 0 := by
    intro h
    rw [h, Int.cast_zero, zero_mul] at hd
    exact hne (sub_eq_zero.1 hd)
  have h1 : (1 : ℚ) ≤ |((m - n * 2 ^ (f - e).toNat : ℤ) : ℚ)| := by exact_mod_cast Int.one_le_abs hz
  have hm' : |(m : ℚ)| ≤ 2 ^ 53 - 1 := by
    have : |m| ≤ 2 ^ 53 - 1 := by omega
    exact_mod_cast this
  rw [hd, hx, abs_mul, abs_mul, abs_of_pos h2, ← mul_assoc]
  have h3 : (2 : ℚ) ^ 53 - 1 ≤ (2 ^ 53 - 1) * |((m - n * 2 ^ (f - e).toNat : ℤ) : ℚ)| :=
    le_mul_of_one_le_right (by norm_num) h1
  gcongr
  exact hm'.trans h3

theorem bits_both {x y : ℚ} (hx : Bits53 x) (hy : Bits53 y) (hne : x ≠ y) :
    |x| ≤ 2 ^ 53 * |x - y| ∧ |y| ≤ 2 ^ 53 * |x - y| := by
  obtain ⟨m, e, hm, ex⟩ := hx
  obtain ⟨n, f, hn, ey⟩ := hy
  have t1 : |x| ≤ |x - y| + |y| := by
    have := abs_add_le (x - y) y
    rwa [sub_add_cancel] at this
  have t2 : |y| ≤ |x - y| + |x| := by
    have := abs_add_le (y - x) x
    rw [sub_add_cancel, abs_sub_comm] at this
    exact this
  have t3 := abs_nonneg (x - y)
  rcases le_total e f with h | h
  · have := bits_apart hm ex ey h hne
    constructor <;> linarith
  · have := bits_apart hn ey ex h hne.symm
    rw [abs_sub_comm y x] at this
    constructor <;> linarith

/-- C172: with 17 digits or more, different doubles have different texts. -/
theorem C172_distinct {x y : ℚ} (hx : Bits53 x) (hy : Bits53 y) {P : ℕ} (hP : 17 ≤ P)
    (h : doubleToString x P false = doubleToString y P false) : x = y := by
  by_contra hne
  have hP1 : 1 ≤ P := by omega
  obtain ⟨v, hv, -, -⟩ := C172_nearest x hP1
  have e1 := C172_error hP1 hv
  have e2 := C172_error hP1 (h ▸ hv)
  obtain ⟨b1, b2⟩ := bits_both hx hy hne
  have hpow : (10 : ℚ) ^ 16 ≤ 10 ^ (P - 1) := pow_le_pow_right₀ (by norm_num) (by omega)
  have f1 : |v - x| ≤ 1 / 2 * |x| / 10 ^ 16 := e1.trans (by gcongr)
  have f2 : |v - y| ≤ 1 / 2 * |y| / 10 ^ 16 := e2.trans (by gcongr)
  have t : |x - y| ≤ |v - x| + |v - y| := by
    have := abs_sub_le x v y
    rwa [abs_sub_comm x v] at this
  have pos : 0 < |x - y| := abs_pos.2 (sub_ne_zero.2 hne)
  norm_num at f1 f2 b1 b2
  linarith

theorem bounded_of_nearest {T x v : ℚ} (hx : |x| ≤ T) (h1 : |v - x| ≤ |T - x|) (h2 : |v - x| ≤ |-T - x|) : |v| ≤ T := by
  rw [abs_le] at hx
  rw [abs_of_nonneg (show 0 ≤ T - x by linarith)] at h1
  rw [abs_of_nonpos (show -T - x ≤ 0 by linarith)] at h2
  rw [abs_le] at h1 h2 ⊢
  constructor <;> linarith

/-- C172: the text of a number up to 10^308 is a number again, whatever the precision. -/
theorem C172_numeric_partial {x : ℚ} (hx : |x| ≤ 10 ^ 308) {P : ℕ} (hP : 1 ≤ P) :
    isNumeric (doubleToString x P false) = true := by
  obtain ⟨v, hv, -, hn⟩ := C172_nearest x hP
  have h10 : (1 : ℤ) < 10 ^ P := one_lt_pow₀ (by norm_num) (by omega)
  have e : (10 : ℚ) ^ (308 : ℤ) = 10 ^ 308 := zpow_natCast 10 308
  have s1 : Significant P (10 ^ 308) := ⟨1, 308, by rwa [abs_one], by rw [Int.cast_one, one_mul, e]⟩
  have s2 : Significant P (-10 ^ 308) :=
    ⟨-1, 308, by rwa [abs_neg, abs_one], by rw [Int.cast_neg, Int.cast_one, neg_one_mul, e]⟩
  refine numeric_of_spells hv (lt_of_le_of_lt (bounded_of_nearest hx (hn _ s1) (hn _ s2)) ?_)
  decide +kernel

/-- C172: with 17 digits or more the text of every finite double is a number again. -/
theorem C172_numeric_digits {x : ℚ} (hx : |x| ≤ 2 ^ 1024 - 2 ^ 971) {P : ℕ} (hP : 17 ≤ P) :
    isNumeric (doubleToString x P false) = true := by
  have hP1 : 1 ≤ P := by omega
  obtain ⟨v, hv, -, -⟩ := C172_nearest x hP1
  have e1 := C172_error hP1 hv
  have hpow : (10 : ℚ) ^ 16 ≤ 10 ^ (P - 1) := pow_le_pow_right₀ (by norm_num) (by omega)
  have f1 : |v - x| ≤ 1 / 2 * |x| / 10 ^ 16 := e1.trans (by gcongr)
  have h2 : |v| ≤ |v - x| + |x| := by
    have := abs_add_le (v - x) x
    rwa [sub_add_cancel] at this
  refine numeric_of_spells hv ?_
  have h3 : (2 : ℚ) ^ 971 = 2 ^ 970 * 2 := pow_succ 2 970
  have h4 : (2 : ℚ) ^ 1024 = 2 ^ 970 * 2 ^ 54 := pow_add 2 970 54
  have h5 : (0 : ℚ) < 2 ^ 970 := by positivity
  rw [h3] at hx
  rw [h4] at hx ⊢
  clear h3 h4
  generalize (2 : ℚ) ^ 970 = a at *
  norm_num at f1 hx ⊢
  linarith

/-- C172: the largest double rounded to 15 digits is too large to be read. -/
theorem C172_numeric_fails : isNumeric (doubleToString (2 ^ 1024 - 2 ^ 971) 15 false) = false ∧
    doubleToString (2 ^ 1024 - 2 ^ 971) 15 false = "1.79769313486232e+308".toList := by
  decide +kernel

/-- C172: 16 digits are not enough to tell two doubles apart. -/
theorem C172_distinct_fails : ∃ x y : ℚ, Bits53 x ∧ Bits53 y ∧ x ≠ y ∧
    doubleToString x 16 false = doubleToString y 16 false :=
  ⟨7205759403792794 * 2 ^ (-56 : ℤ), 7205759403792795 * 2 ^ (-56 : ℤ), ⟨7205759403792794, -56, by decide, by norm_num⟩,
    ⟨7205759403792795, -56, by decide, by norm_num⟩, by norm_num, by decide +kernel⟩

/-- Values and their texts. -/
example : doubleToString (1 / 10) 6 false = "0.1".toList ∧ doubleToString (-123456789) 6 false = "-1.23457e+08".toList ∧
    doubleToString (1 / 30000) 3 false = "3.33e-05".toList ∧ doubleToString 0 6 false = "0".toList ∧
    doubleToString (9999996 / 10) 6 false = "1e+06".toList ∧ Bits53 (3 / 4) := by
  refine ⟨by decide +kernel, by decide +kernel, by decide +kernel, by decide +kernel, by decide +kernel, 3, -2, by decide, ?_⟩
  norm_num

end Verif.Props
