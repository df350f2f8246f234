import Verif.Props.HelperText
import Mathlib.Tactic.Linarith
import Mathlib.Tactic.FieldSimp
import Mathlib.Tactic.Ring
import Mathlib.Tactic.NormNum
import Mathlib.Tactic.Positivity
import Mathlib.Tactic.IntervalCases

/-!
# Numbers written as text (C171, C172)
-/

set_option linter.unusedSectionVars false

namespace Verif.Props

open Verif Verif.Helper

/-! ## Digits -/

theorem toNat_digitChar (n : ℕ) : (digitChar n).toNat = 48 + n % 10 := by
  have h : n % 10 < 10 := Nat.mod_lt _ (by norm_num)
  unfold digitChar
  generalize n % 10 = k at h
  interval_cases k <;> rfl

theorem isDigit_digitChar (n : ℕ) : isDigit (digitChar n) = true := by
  have h : n % 10 < 10 := Nat.mod_lt _ (by norm_num)
  simp only [isDigit, toNat_digitChar, Bool.and_eq_true, decide_eq_true_eq]
  omega

theorem digitsValue_concat (s : List Char) (c : Char) : numeral (s ++ [c]) = 10 * numeral s + (c.toNat - 48) := by
  simp only [← digitsValue_eq]
  simp [digitsValue]

theorem digitsValue_concat_digit (s : List Char) (n : ℕ) :
    numeral (s ++ [digitChar n]) = 10 * numeral s + n % 10 := by
  rw [digitsValue_concat, toNat_digitChar]
  omega

theorem allDigits_concat {s : List Char} (hs : AllDigits s) (n : ℕ) : AllDigits (s ++ [digitChar n]) := by
  intro c hc
  rcases List.mem_append.1 hc with h | h
  · exact hs c h
  · rw [List.mem_singleton] at h
    rw [h]
    exact (isDigit_iff _).1 (isDigit_digitChar n)

theorem natChars_spec (n : ℕ) : AllDigits (natChars n) ∧ natChars n ≠ [] ∧ numeral (natChars n) = n := by
  induction n using Nat.strong_induction_on with
  | _ n ih =>
    rw [natChars]
    split_ifs with h
    · refine ⟨allDigits_concat (s := []) (by simp [AllDigits]) n, by simp, ?_⟩
      have := digitsValue_concat_digit [] n
      rw [List.nil_append] at this
      rw [this]
      have z : numeral [] = 0 := rfl
      rw [z]
      omega
    · obtain ⟨h1, h2, h3⟩ := ih (n / 10) (by omega)
      refine ⟨allDigits_concat h1 n, by simp, ?_⟩
      rw [digitsValue_concat_digit, h3]
      omega

theorem padChars_spec : ∀ p n : ℕ, AllDigits (padChars p n) ∧ (padChars p n).length = p ∧
    numeral (padChars p n) = n % 10 ^ p
  | 0, n => ⟨by simp [padChars, AllDigits], rfl, by simp [padChars, numeral, Nat.mod_one]⟩
  | p + 1, n => by
    obtain ⟨h1, h2, h3⟩ := padChars_spec p (n / 10)
    rw [padChars]
    refine ⟨allDigits_concat h1 n, by simp [h2], ?_⟩
    rw [digitsValue_concat_digit, h3, pow_succ']
    rw [Nat.mod_mul]
    omega

theorem digitsValue_mod (n p : ℕ) : ((n / 10 ^ p : ℕ) : ℚ) + ((n % 10 ^ p : ℕ) : ℚ) / 10 ^ p = n / 10 ^ p := by
  have h : ((n : ℕ) : ℚ) = (10 : ℚ) ^ p * ((n / 10 ^ p : ℕ) : ℚ) + ((n % 10 ^ p : ℕ) : ℚ) := by
    exact_mod_cast (Nat.div_add_mod n (10 ^ p)).symm
  have h10 : (10 : ℚ) ^ p ≠ 0 := by positivity
  rw [eq_div_iff h10, add_mul, div_mul_cancel₀ _ h10]
  linarith

theorem pointChars_spells (n p : ℕ) : SpellsMantissa (pointChars n p) (n / 10 ^ p) := by
  obtain ⟨a1, a2, a3⟩ := natChars_spec (n / 10 ^ p)
  obtain ⟨b1, b2, b3⟩ := padChars_spec p n
  refine ⟨natChars (n / 10 ^ p), padChars p n, a1, b1, fun h => a2 h.1, ?_, ?_⟩
  · unfold pointChars
    split_ifs with h
    · subst h
      exact Or.inl ⟨rfl, by simp⟩
    · exact Or.inr rfl
  · rw [a3, b2, b3, digitsValue_mod]

theorem roundEven_near {x : ℚ} (hx : 0 ≤ x) : |(roundEven x : ℚ) - x| ≤ 1 / 2 := by
  have h0 : (0 : ℤ) ≤ ⌊x⌋ := Int.floor_nonneg.2 hx
  have e : ((⌊x⌋.toNat : ℕ) : ℚ) = (⌊x⌋ : ℚ) := by
    have : ((⌊x⌋.toNat : ℕ) : ℤ) = ⌊x⌋ := Int.toNat_of_nonneg h0
    exact_mod_cast congrArg (fun z : ℤ => (z : ℚ)) this
  have h1 := Int.floor_le x
  have h2 := Int.lt_floor_add_one x
  unfold roundEven
  simp only
  rw [← e] at h1 h2
  split_ifs <;> push_cast <;> rw [abs_le] <;> constructor <;> linarith

/-- The sign written before a number. -/
def signOf (x : ℚ) : ℤ := if x < 0 then -1 else 1

theorem signChars_spells (x : ℚ) : SpellsSign (signChars x) (signOf x) := by
  unfold signChars signOf
  split_ifs
  · exact Or.inr (Or.inr ⟨rfl, rfl⟩)
  · exact Or.inl ⟨rfl, rfl⟩

theorem signOf_mul_abs (x : ℚ) : (signOf x : ℚ) * |x| = x := by
  unfold signOf
  split_ifs with h
  · rw [abs_of_neg h]; push_cast; ring
  · rw [abs_of_nonneg (not_lt.1 h)]; push_cast; ring

theorem abs_signOf (x : ℚ) : |(signOf x : ℚ)| = 1 := by
  unfold signOf
  split_ifs <;> simp

/-! ## Fixed decimals -/

/-- The number written with `p` decimals. -/
def fixedValue (x : ℚ) (p : ℕ) : ℚ := signOf x * (roundEven (|x| * 10 ^ p) / 10 ^ p)

theorem fixedText_spells (x : ℚ) (p : ℕ) : Spells (fixedText x p) (fixedValue x p) := by
  refine ⟨signChars x, pointChars (roundEven (|x| * 10 ^ p)) p, [], signOf x, _, 0, ?_, signChars_spells x,
    pointChars_spells _ _, Or.inl ⟨rfl, rfl⟩, ?_⟩
  · simp [fixedText]
  · simp [fixedValue]

theorem fixedValue_near (x : ℚ) (p : ℕ) : |fixedValue x p - x| ≤ 1 / 2 / 10 ^ p := by
  have h10 : (0 : ℚ) < 10 ^ p := by positivity
  have h := roundEven_near (x := |x| * 10 ^ p) (by positivity)
  have e : fixedValue x p - x = signOf x * ((roundEven (|x| * 10 ^ p) - |x| * 10 ^ p) / 10 ^ p) := by
    have hx := signOf_mul_abs x
    rw [fixedValue, sub_div, mul_div_cancel_right₀ _ h10.ne', mul_sub, hx]
  rw [e, abs_mul, abs_signOf, one_mul, abs_div, abs_of_pos h10]
  gcongr

/-- Integers are at least one apart. -/
theorem nearest_of_half {x d : ℚ} (hd : 0 < d) {n : ℤ} (h : |n * d - x| ≤ 1 / 2 * d) (m : ℤ) : |n * d - x| ≤ |m * d - x| := by
  by_cases e : m = n
  · rw [e]
  · have h1 : (1 : ℚ) ≤ |((m - n : ℤ) : ℚ)| := by
      have : (1 : ℤ) ≤ |m - n| := Int.one_le_abs (sub_ne_zero.2 e)
      exact_mod_cast this
    have h2 : d ≤ |m * d - n * d| := by
      rw [← sub_mul, abs_mul, abs_of_pos hd]
      push_cast at h1
      nlinarith
    have h3 : |m * d - n * d| ≤ |m * d - x| + |n * d - x| := by
      have := abs_sub_le (m * d) x (n * d)
      rw [abs_sub_comm x] at this
      exact this
    linarith

theorem fixedValue_int (x : ℚ) (p : ℕ) : ∃ n : ℤ, fixedValue x p = n * (1 / 10 ^ p) :=
  ⟨signOf x * roundEven (|x| * 10 ^ p), by rw [fixedValue]; push_cast; ring⟩

theorem nearest_mono {S : ℚ → Prop} {x y v w : ℚ} (hv : S v) (hw : S w) (h1 : ∀ u, S u → |v - x| ≤ |u - x|)
    (h2 : ∀ u, S u → |w - y| ≤ |u - y|) (hxy : x < y) : v ≤ w := by
  by_contra h
  rw [not_le] at h
  have a := h1 w hw
  have b := h2 v hv
  rw [← sq_le_sq] at a b
  nlinarith

/-- C171: with fixed decimals the text is the decimal numeral of the number nearest to the value among those with
`precision` decimals. -/
theorem C171_nearest (x : ℚ) (p : ℕ) : ∃ v, Spells (doubleToString x p true) v ∧ (∃ n : ℤ, v = n / 10 ^ p) ∧
    ∀ m : ℤ, |v - x| ≤ |m / 10 ^ p - x| := by
  have e : doubleToString x p true = fixedText x p := by
    have h : ¬ ((p : ℤ) < 0) := by omega
    simp [doubleToString, usedPrecision, h]
  obtain ⟨n, hn⟩ := fixedValue_int x p
  refine ⟨fixedValue x p, e ▸ fixedText_spells x p, ⟨n, by rw [hn]; ring⟩, fun m => ?_⟩
  have h := fixedValue_near x p
  rw [hn] at h ⊢
  rw [← mul_one_div (m : ℚ)]
  exact nearest_of_half (x := x) (d := 1 / 10 ^ p) (by positivity) (n := n) (by rw [mul_one_div (1 / 2 : ℚ)]; exact h) m

theorem signChars_point (x : ℚ) : '.' ∉ signChars x := by
  unfold signChars
  split_ifs <;> simp

theorem digits_point {s : List Char} (h : AllDigits s) : '.' ∉ s := fun q => absurd (allDigits_def.1 h '.' q) (by decide)

/-- C171: the text has exactly the decimals asked for, and a decimal point if and only if there are any. -/
theorem C171_decimals (x : ℚ) (p : ℕ) : ∃ a b, AllDigits b ∧ b.length = p ∧ '.' ∉ a ∧
    doubleToString x p true = a ++ (if p = 0 then [] else '.' :: b) := by
  have e : doubleToString x p true = fixedText x p := by
    have h : ¬ ((p : ℤ) < 0) := by omega
    simp [doubleToString, usedPrecision, h]
  obtain ⟨b1, b2, -⟩ := padChars_spec p (roundEven (|x| * 10 ^ p))
  refine ⟨signChars x ++ natChars (roundEven (|x| * 10 ^ p) / 10 ^ p), _, b1, b2, ?_, ?_⟩
  · rw [List.mem_append]
    rintro (h | h)
    · exact signChars_point x h
    · exact digits_point (natChars_spec _).1 h
  · rw [e, fixedText, pointChars, List.append_assoc]

/-- C171: the error is at most half of the last decimal. -/
theorem C171_error {x v : ℚ} {p : ℕ} (h : Spells (doubleToString x p true) v) : |v - x| ≤ 1 / 2 / 10 ^ p := by
  have e : doubleToString x p true = fixedText x p := by
    have h : ¬ ((p : ℤ) < 0) := by omega
    simp [doubleToString, usedPrecision, h]
  rw [e] at h
  rw [C170_one_value h (fixedText_spells x p)]
  exact fixedValue_near x p

/-- C171: a larger value is not written as a smaller number. -/
theorem C171_order {x y v w : ℚ} {p : ℕ} (hv : Spells (doubleToString x p true) v) (hw : Spells (doubleToString y p true) w)
    (h : x ≤ y) : v ≤ w := by
  rcases h.eq_or_lt with rfl | h
  · exact (C170_one_value hv hw).le
  · obtain ⟨v', q1, q2, q3⟩ := C171_nearest x p
    obtain ⟨w', r1, r2, r3⟩ := C171_nearest y p
    rw [C170_one_value hv q1, C170_one_value hw r1]
    refine nearest_mono (S := fun u => ∃ n : ℤ, u = n / 10 ^ p) q2 r2 ?_ ?_ h
    · rintro _ ⟨m, rfl⟩; exact q3 m
    · rintro _ ⟨m, rfl⟩; exact r3 m

theorem numeric_of_spells {s : List Char} {v : ℚ} (h : Spells s v) (hv : |v| < 2 ^ 1024 - 2 ^ 970) : isNumeric s = true :=
  (C170_numeric s).2 ⟨[], s, [], v, by simp, by simp [AllSpace], h, by simp [AllSpace], hv⟩

/-- C171: the text of a finite double is a number again. -/
theorem C171_numeric {x : ℚ} (hx : |x| ≤ 2 ^ 1024 - 2 ^ 971) (p : ℕ) : isNumeric (doubleToString x p true) = true := by
  obtain ⟨v, hv, -, -⟩ := C171_nearest x p
  have h := C171_error hv
  have h1 : (1 : ℚ) / 2 / 10 ^ p ≤ 1 := by
    rw [div_le_one (by positivity)]
    have : (1 : ℚ) ≤ 10 ^ p := one_le_pow₀ (by norm_num)
    linarith
  have h2 : |v| ≤ |v - x| + |x| := by
    have := abs_add_le (v - x) x
    rwa [sub_add_cancel] at this
  refine numeric_of_spells hv ?_
  have h3 : (2 : ℚ) ^ 971 = 2 ^ 970 * 2 := pow_succ 2 970
  have h4 : (1 : ℚ) < 2 ^ 970 := one_lt_pow₀ (by norm_num) (by norm_num)
  rw [h3] at hx
  clear h3
  have h5 := h.trans h1
  generalize (2 : ℚ) ^ 970 = a at *
  generalize (2 : ℚ) ^ 1024 = b at *
  linarith

/-- A value, its text and the number that the text stands for; a small negative value is written as minus zero. -/
example : doubleToString (-5555 / 1000) 2 true = "-5.56".toList ∧ doubleToString (5 / 2) 0 true = "2".toList ∧
    doubleToString (-1 / 1000) 2 true = "-0.00".toList := by
  decide +kernel

end Verif.Props
