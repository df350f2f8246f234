import Verif.HelperText
import Mathlib.Data.Nat.Digits.Defs
import Mathlib.Tactic.IntervalCases

/-!
# Numbers as text (C170, C171, C172)
-/

set_option linter.unusedSectionVars false

namespace Verif.Props

open Verif Verif.Helper

/-! ## Decimal numerals -/

/-- A text of decimal digits only. -/
def AllDigits (s : List Char) : Prop := ∀ c ∈ s, c ∈ ['0', '1', '2', '3', '4', '5', '6', '7', '8', '9']

/-- The natural number that a text of digits stands for, the last digit counting once, the one before ten times, … -/
def numeral (s : List Char) : ℕ := Nat.ofDigits 10 (s.reverse.map fun c => c.toNat - '0'.toNat)

/-- An optional sign, with its factor. -/
def SpellsSign (s : List Char) (σ : ℤ) : Prop := s = [] ∧ σ = 1 ∨ s = ['+'] ∧ σ = 1 ∨ s = ['-'] ∧ σ = -1

/-- Digits, possibly with one decimal point among them, before or after them. -/
def SpellsMantissa (s : List Char) (m : ℚ) : Prop :=
  ∃ a b, AllDigits a ∧ AllDigits b ∧ ¬ (a = [] ∧ b = []) ∧ (b = [] ∧ s = a ∨ s = a ++ '.' :: b) ∧
    m = numeral a + numeral b / 10 ^ b.length

/-- Nothing, or the letter e and an integer. -/
def SpellsExponent (s : List Char) (k : ℤ) : Prop :=
  s = [] ∧ k = 0 ∨ ∃ c a b σ, (c = 'e' ∨ c = 'E') ∧ SpellsSign a σ ∧ AllDigits b ∧ b ≠ [] ∧ s = c :: (a ++ b) ∧
    k = σ * numeral b

/-- The text `s` is the decimal numeral of the number `v`. -/
def Spells (s : List Char) (v : ℚ) : Prop :=
  ∃ a b c σ m k, s = a ++ (b ++ c) ∧ SpellsSign a σ ∧ SpellsMantissa b m ∧ SpellsExponent c k ∧ v = σ * m * 10 ^ k

/-- A text of white space only. -/
def AllSpace (s : List Char) : Prop := ∀ c ∈ s, c ∈ [' ', '\t', '\n', '\x0b', '\x0c', '\r']

theorem isDigit_iff (c : Char) : isDigit c = true ↔ c ∈ ['0', '1', '2', '3', '4', '5', '6', '7', '8', '9'] := by
  constructor
  · intro h
    simp only [isDigit, Bool.and_eq_true, decide_eq_true_eq] at h
    obtain ⟨h1, h2⟩ := h
    have e : c = Char.ofNat c.toNat := (Char.ofNat_toNat c).symm
    rw [e]
    generalize c.toNat = n at h1 h2
    interval_cases n <;> decide
  · intro h
    simp only [List.mem_cons, List.not_mem_nil, or_false] at h
    rcases h with rfl | rfl | rfl | rfl | rfl | rfl | rfl | rfl | rfl | rfl <;> rfl

theorem isSpace_iff (c : Char) : isSpace c = true ↔ c ∈ [' ', '\t', '\n', '\x0b', '\x0c', '\r'] := by
  constructor
  · intro h
    simp only [isSpace, Bool.or_eq_true, Bool.and_eq_true, decide_eq_true_eq] at h
    have e : c = Char.ofNat c.toNat := (Char.ofNat_toNat c).symm
    rw [e]
    rcases h with h | ⟨h1, h2⟩
    · rw [h]; decide
    · generalize c.toNat = n at h1 h2
      interval_cases n <;> decide
  · intro h
    simp only [List.mem_cons, List.not_mem_nil, or_false] at h
    rcases h with rfl | rfl | rfl | rfl | rfl | rfl <;> rfl

theorem allDigits_def {s : List Char} : AllDigits s ↔ ∀ c ∈ s, isDigit c = true := by
  simp only [AllDigits, isDigit_iff]

theorem allSpace_def {s : List Char} : AllSpace s ↔ ∀ c ∈ s, isSpace c = true := by
  simp only [AllSpace, isSpace_iff]

theorem digitsValue_eq (s : List Char) : digitsValue s = numeral s := by
  induction s using List.reverseRecOn with
  | nil => rfl
  | append_singleton s c ih =>
    unfold numeral at ih ⊢
    rw [List.reverse_append, List.reverse_singleton, List.singleton_append, List.map_cons, Nat.ofDigits_cons, ← ih]
    simp only [digitsValue, List.foldl_append, List.foldl_cons, List.foldl_nil]
    have : '0'.toNat = 48 := rfl
    rw [this, add_comm]

/-- A text that does not go on with a digit. -/
def NoDigit (s : List Char) : Prop := ∀ c cs, s = c :: cs → isDigit c = false

theorem allDigits_cons {c : Char} {s : List Char} (h : AllDigits (c :: s)) : isDigit c = true ∧ AllDigits s :=
  ⟨allDigits_def.1 h c (by simp), fun d hd => h d (by simp [hd])⟩

theorem takeWhile_digits {a b : List Char} (ha : AllDigits a) (hb : NoDigit b) :
    (a ++ b).takeWhile isDigit = a ∧ (a ++ b).dropWhile isDigit = b := by
  rw [List.takeWhile_append_of_pos (allDigits_def.1 ha), List.dropWhile_append_of_pos (allDigits_def.1 ha)]
  cases b with
  | nil => simp
  | cons c cs =>
    have := hb c cs rfl
    simp [this]

theorem takeWhile_allDigits (s : List Char) : AllDigits (s.takeWhile isDigit) :=
  allDigits_def.2 fun _ h => List.mem_takeWhile_imp h

theorem isDigit_ne {c d : Char} (h : isDigit c = true) (hd : isDigit d = false) : c ≠ d := by
  rintro rfl
  rw [h] at hd
  cases hd

theorem space_other {c : Char} (h : isSpace c = true) :
    isDigit c = false ∧ c ≠ '.' ∧ c ≠ 'e' ∧ c ≠ 'E' ∧ c ≠ '+' ∧ c ≠ '-' := by
  refine ⟨?_, ?_, ?_, ?_, ?_, ?_⟩
  · simp only [isSpace, isDigit, Bool.or_eq_true, decide_eq_true_eq, Bool.and_eq_true] at h ⊢
    rw [Bool.and_eq_false_iff]
    simp only [decide_eq_false_iff_not]
    omega
  all_goals
    rintro rfl
    exact absurd h (by decide)

/-! ## Reading -/

theorem extractLoop_cons (m p e : Bool) (c : Char) (cs : List Char) : extractLoop m p e (c :: cs) =
    if isDigit c = true then (c :: (extractLoop true p e cs).1, (extractLoop true p e cs).2)
    else if c = '.' ∧ p = false ∧ e = false then (c :: (extractLoop m true e cs).1, (extractLoop m true e cs).2)
    else if (c = 'e' ∨ c = 'E') ∧ e = false ∧ m = true then
      match cs with
      | [] => ([c], [])
      | d :: ds =>
        if d = '+' ∨ d = '-' then (c :: d :: (extractLoop m p true ds).1, (extractLoop m p true ds).2)
        else (c :: (extractLoop m p true (d :: ds)).1, (extractLoop m p true (d :: ds)).2)
    else ([], c :: cs) := by
  cases cs <;> rfl

theorem extractLoop_append : ∀ (m p e : Bool) (s : List Char), (extractLoop m p e s).1 ++ (extractLoop m p e s).2 = s
  | _, _, _, [] => rfl
  | m, p, e, c :: cs => by
    rw [extractLoop_cons]
    split_ifs with h1 h2 h3
    · simp [extractLoop_append true p e cs]
    · simp [extractLoop_append m true e cs]
    · cases cs with
      | nil => rfl
      | cons d ds =>
        simp only
        split_ifs
        · simp [extractLoop_append m p true ds]
        · have := extractLoop_append m p true (d :: ds)
          simp only [List.cons_append, this]
    · rfl
termination_by _ _ _ s => s.length

theorem extract_append (s : List Char) : (extract s).1 ++ (extract s).2 = s := by
  cases s with
  | nil => rfl
  | cons c cs =>
    rw [extract]
    split_ifs
    · simp [extractLoop_append]
    · exact extractLoop_append _ _ _ _

theorem readSign_spells (s : List Char) : ∃ a, s = a ++ (readSign s).2 ∧ SpellsSign a (readSign s).1 := by
  cases s with
  | nil => exact ⟨[], rfl, Or.inl ⟨rfl, rfl⟩⟩
  | cons c cs =>
    rw [readSign]
    split_ifs with h1 h2
    · exact ⟨['-'], by simp [h1], Or.inr (Or.inr ⟨rfl, rfl⟩)⟩
    · exact ⟨['+'], by simp [h2], Or.inr (Or.inl ⟨rfl, rfl⟩)⟩
    · exact ⟨[], rfl, Or.inl ⟨rfl, rfl⟩⟩

theorem readExponent_spells {s : List Char} {k : ℤ} (h : readExponent s = some k) : SpellsExponent s k := by
  cases s with
  | nil => cases h; exact Or.inl ⟨rfl, rfl⟩
  | cons c cs =>
    rw [readExponent] at h
    simp only [digitsValue_eq] at h
    split_ifs at h with h1 h2
    cases h
    obtain ⟨a, e, hs⟩ := readSign_spells cs
    refine Or.inr ⟨c, a, (readSign cs).2, (readSign cs).1, h1, hs, ?_, h2.1, by rw [← e], rfl⟩
    exact allDigits_def.2 (List.all_eq_true.1 h2.2)

theorem readFraction_spells (s : List Char) :
    (s = (readFraction s).2 ∧ (readFraction s).1 = []) ∨ s = '.' :: ((readFraction s).1 ++ (readFraction s).2) ∧
      AllDigits (readFraction s).1 := by
  cases s with
  | nil => exact Or.inl ⟨rfl, rfl⟩
  | cons c cs =>
    rw [readFraction]
    split_ifs with h
    · exact Or.inr ⟨by simp [h], takeWhile_allDigits cs⟩
    · exact Or.inl ⟨rfl, rfl⟩

theorem strtod_spells {s : List Char} {v : ℚ} (h : strtod s = some v) : Spells s v := by
  unfold strtod at h
  simp only [digitsValue_eq] at h
  split_ifs at h with h0
  cases hk : readExponent (readFraction ((readSign s).2.dropWhile isDigit)).2 with
  | none => rw [hk] at h; cases h
  | some k =>
    rw [hk] at h
    cases h
    obtain ⟨a, e, hs⟩ := readSign_spells s
    have hx := readExponent_spells hk
    have hd := List.takeWhile_append_dropWhile (p := isDigit) (l := (readSign s).2)
    rcases readFraction_spells ((readSign s).2.dropWhile isDigit) with ⟨f1, f2⟩ | ⟨f1, f2⟩
    · refine ⟨a, (readSign s).2.takeWhile isDigit, _, _, _, k, ?_, hs, ⟨_, [], takeWhile_allDigits _, by simp [AllDigits],
        fun q => h0 ⟨q.1, f2⟩, Or.inl ⟨rfl, rfl⟩, rfl⟩, hx, by rw [f2]⟩
      rw [← f1, hd]
      exact e
    · refine ⟨a, (readSign s).2.takeWhile isDigit ++ '.' :: (readFraction ((readSign s).2.dropWhile isDigit)).1, _, _, _, k,
        ?_, hs, ⟨_, _, takeWhile_allDigits _, f2, h0, Or.inr rfl, rfl⟩, hx, rfl⟩
      rw [List.append_assoc, List.cons_append, ← f1, hd]
      exact e

theorem extractLoop_exponent (m p : Bool) : ∀ s : List Char,
    extractLoop m p true s = (s.takeWhile isDigit, s.dropWhile isDigit)
  | [] => rfl
  | c :: cs => by
    rw [extractLoop_cons]
    by_cases h : isDigit c = true
    · rw [if_pos h]
      have : extractLoop true p true cs = (cs.takeWhile isDigit, cs.dropWhile isDigit) := by
        clear h
        revert cs
        suffices ∀ (m : Bool) (cs : List Char), extractLoop m p true cs = (cs.takeWhile isDigit, cs.dropWhile isDigit) from
          fun cs => this true cs
        intro m cs
        exact extractLoop_exponent m p cs
      rw [this]
      simp [h]
    · rw [if_neg h, if_neg (by simp), if_neg (by simp)]
      simp [h]

theorem extractLoop_digits (p e : Bool) : ∀ (m : Bool) (a s : List Char), AllDigits a →
    extractLoop m p e (a ++ s) = (a ++ (extractLoop (m || !a.isEmpty) p e s).1, (extractLoop (m || !a.isEmpty) p e s).2)
  | m, [], s, _ => by simp
  | m, c :: a, s, h => by
    obtain ⟨h1, h2⟩ := allDigits_cons h
    rw [List.cons_append, extractLoop_cons, if_pos h1, extractLoop_digits p e true a s h2]
    simp

theorem extractLoop_space {m p : Bool} {s : List Char} (h : AllSpace s) : extractLoop m p false s = ([], s) := by
  cases s with
  | nil => rfl
  | cons c cs =>
    obtain ⟨h1, h2, h3, h4, -, -⟩ := space_other (allSpace_def.1 h c (by simp))
    rw [extractLoop_cons, if_neg (by rw [h1]; decide), if_neg (by simp [h2]), if_neg (by simp [h3, h4])]

theorem noDigit_space {s : List Char} (h : AllSpace s) : NoDigit s := by
  rintro c cs rfl
  exact (space_other (allSpace_def.1 h c (by simp))).1

theorem extractLoop_tail {p : Bool} {c s : List Char} {k : ℤ} (hc : SpellsExponent c k) (hs : AllSpace s) :
    extractLoop true p false (c ++ s) = (c, s) := by
  rcases hc with ⟨rfl, -⟩ | ⟨x, a, b, σ, hx, ha, hb, hb0, rfl, -⟩
  · exact extractLoop_space hs
  · have hx1 : isDigit x = false := by rcases hx with rfl | rfl <;> decide
    have hx2 : x ≠ '.' := by rcases hx with rfl | rfl <;> decide
    obtain ⟨t1, t2⟩ := takeWhile_digits hb (noDigit_space hs)
    rw [List.cons_append, extractLoop_cons, if_neg (by rw [hx1]; decide), if_neg (by simp [hx2]), if_pos ⟨hx, rfl, rfl⟩]
    rcases ha with ⟨rfl, -⟩ | ⟨rfl, -⟩ | ⟨rfl, -⟩
    · cases b with
      | nil => exact absurd rfl hb0
      | cons d ds =>
        have hd := (allDigits_cons hb).1
        rw [List.nil_append, List.cons_append]
        simp only
        rw [if_neg (by
          rintro (rfl | rfl)
          · exact absurd hd (by decide)
          · exact absurd hd (by decide)), ← List.cons_append, extractLoop_exponent, t1, t2]
    · simp only [List.cons_append, List.nil_append]
      rw [if_pos (Or.inl trivial), extractLoop_exponent, t1, t2]
    · simp only [List.cons_append, List.nil_append]
      rw [if_pos (Or.inr trivial), extractLoop_exponent, t1, t2]

theorem noDigit_exponent {c : List Char} {k : ℤ} (hc : SpellsExponent c k) : NoDigit c := by
  rcases hc with ⟨rfl, -⟩ | ⟨x, a, b, σ, hx, -, -, -, rfl, -⟩
  · rintro c cs h; cases h
  · rintro c cs h
    cases h
    rcases hx with rfl | rfl <;> decide

theorem extractLoop_mantissa {b c s : List Char} {m : ℚ} {k : ℤ} (hb : SpellsMantissa b m) (hc : SpellsExponent c k)
    (hs : AllSpace s) : extractLoop false false false (b ++ c ++ s) = (b ++ c, s) := by
  obtain ⟨x, y, hx, hy, h0, h | rfl, -⟩ := hb
  · obtain ⟨rfl, rfl⟩ := h
    have : (b.isEmpty) = false := by
      rw [List.isEmpty_eq_false_iff]; exact fun q => h0 ⟨q, rfl⟩
    rw [List.append_assoc, extractLoop_digits _ _ _ _ _ hx, this]
    simp only [Bool.not_false, Bool.or_true]
    rw [extractLoop_tail hc hs]
  · have e : (x ++ '.' :: y) ++ c ++ s = x ++ ('.' :: (y ++ (c ++ s))) := by simp
    have hm : (!x.isEmpty || !y.isEmpty) = true := by
      cases x with
      | nil => cases y with
        | nil => exact absurd ⟨rfl, rfl⟩ h0
        | cons => rfl
      | cons => rfl
    rw [e, extractLoop_digits _ _ _ _ _ hx, extractLoop_cons, if_neg (by decide), if_pos ⟨rfl, rfl, rfl⟩,
      extractLoop_digits _ _ _ _ _ hy, Bool.false_or, hm, extractLoop_tail hc hs]
    simp

theorem mantissa_head {b : List Char} {m : ℚ} (hb : SpellsMantissa b m) :
    ∃ d ds, b = d :: ds ∧ d ≠ '+' ∧ d ≠ '-' ∧ isSpace d = false := by
  obtain ⟨x, y, hx, hy, h0, h, -⟩ := hb
  have dig : ∀ d, isDigit d = true → d ≠ '+' ∧ d ≠ '-' ∧ isSpace d = false := by
    intro d hd
    refine ⟨?_, ?_, ?_⟩
    · rintro rfl; exact absurd hd (by decide)
    · rintro rfl; exact absurd hd (by decide)
    · by_contra q
      rw [Bool.not_eq_false] at q
      rw [(space_other q).1] at hd
      cases hd
  cases x with
  | nil =>
    rcases h with ⟨rfl, rfl⟩ | rfl
    · exact absurd ⟨rfl, rfl⟩ h0
    · exact ⟨'.', y, rfl, by decide, by decide, by decide⟩
  | cons d ds =>
    obtain ⟨q1, q2, q3⟩ := dig d (allDigits_cons hx).1
    rcases h with ⟨rfl, rfl⟩ | rfl
    · exact ⟨d, ds, rfl, q1, q2, q3⟩
    · exact ⟨d, _, rfl, q1, q2, q3⟩

theorem readSign_of {a b : List Char} {σ : ℤ} (ha : SpellsSign a σ) (hb : ∀ d ds, b = d :: ds → d ≠ '+' ∧ d ≠ '-') :
    readSign (a ++ b) = (σ, b) := by
  rcases ha with ⟨rfl, rfl⟩ | ⟨rfl, rfl⟩ | ⟨rfl, rfl⟩
  · cases b with
    | nil => rfl
    | cons d ds =>
      obtain ⟨h1, h2⟩ := hb d ds rfl
      rw [List.nil_append, readSign, if_neg h2, if_neg h1]
  · rfl
  · rfl

theorem extract_spells {t s : List Char} {v : ℚ} (ht : Spells t v) (hs : AllSpace s) : extract (t ++ s) = (t, s) := by
  obtain ⟨a, b, c, σ, m, k, rfl, ha, hb, hc, -⟩ := ht
  obtain ⟨d, ds, hd, d1, d2, -⟩ := mantissa_head hb
  have key := extractLoop_mantissa hb hc hs
  rcases ha with ⟨rfl, -⟩ | ⟨rfl, -⟩ | ⟨rfl, -⟩
  · subst hd
    simp only [List.nil_append, List.cons_append] at key ⊢
    rw [extract, if_neg (by rintro (h | h); exacts [d1 h, d2 h])]
    exact key
  · simp only [List.cons_append, List.nil_append]
    rw [extract, if_pos (Or.inl rfl), key]
  · simp only [List.cons_append, List.nil_append]
    rw [extract, if_pos (Or.inr rfl), key]

theorem readExponent_of {c : List Char} {k : ℤ} (hc : SpellsExponent c k) : readExponent c = some k := by
  rcases hc with ⟨rfl, rfl⟩ | ⟨x, a, b, σ, hx, ha, hb, hb0, rfl, rfl⟩
  · rfl
  · rw [readExponent, if_pos hx]
    have : readSign (a ++ b) = (σ, b) := readSign_of ha (by
      rintro d ds rfl
      have hd := (allDigits_cons hb).1
      constructor
      · rintro rfl; exact absurd hd (by decide)
      · rintro rfl; exact absurd hd (by decide))
    simp only [this]
    rw [if_pos ⟨hb0, List.all_eq_true.2 (allDigits_def.1 hb)⟩, digitsValue_eq]

theorem strtod_of {t : List Char} {v : ℚ} (ht : Spells t v) : strtod t = some v := by
  obtain ⟨a, b, c, σ, m, k, rfl, ha, hb, hc, rfl⟩ := ht
  obtain ⟨d, ds, hd, d1, d2, -⟩ := mantissa_head hb
  have e1 : readSign (a ++ (b ++ c)) = (σ, b ++ c) := readSign_of ha (by
    rw [hd]; rintro _ _ h; cases h; exact ⟨d1, d2⟩)
  have nc := noDigit_exponent hc
  obtain ⟨x, y, hx, hy, h0, h | rfl, rfl⟩ := hb
  · obtain ⟨rfl, rfl⟩ := h
    obtain ⟨t1, t2⟩ := takeWhile_digits hx nc
    have f : readFraction c = ([], c) := by
      cases c with
      | nil => rfl
      | cons q qs =>
        rw [readFraction, if_neg]
        rintro rfl
        rcases hc with ⟨h, -⟩ | ⟨x, a, b, σ, hx, -, -, -, h, -⟩
        · cases h
        · cases h
          rcases hx with h | h <;> exact absurd h (by decide)
    unfold strtod
    simp only [e1, t1, t2, f]
    rw [if_neg (by simpa using h0), readExponent_of hc]
    simp only [digitsValue_eq]
  · have e2 : (x ++ '.' :: y) ++ c = x ++ ('.' :: (y ++ c)) := by simp
    obtain ⟨t1, t2⟩ := takeWhile_digits hx (b := '.' :: (y ++ c)) (by rintro _ _ h; cases h; decide)
    obtain ⟨t3, t4⟩ := takeWhile_digits hy nc
    unfold strtod
    simp only [e1]
    simp only [e2, t1, t2, readFraction, if_true, t3, t4]
    rw [if_neg h0, readExponent_of hc]
    simp only [digitsValue_eq]

theorem skipSpace_of {a b : List Char} (ha : AllSpace a) (hb : ∀ d ds, b = d :: ds → isSpace d = false) :
    skipSpace (a ++ b) = b := by
  unfold skipSpace
  rw [List.dropWhile_append_of_pos (allSpace_def.1 ha)]
  cases b with
  | nil => rfl
  | cons d ds => simp [hb d ds rfl]

theorem spells_head {t s : List Char} {v : ℚ} (ht : Spells t v) : ∀ d ds, t ++ s = d :: ds → isSpace d = false := by
  obtain ⟨a, b, c, σ, m, k, rfl, ha, hb, -, -⟩ := ht
  obtain ⟨d, ds, rfl, -, -, h⟩ := mantissa_head hb
  rcases ha with ⟨rfl, -⟩ | ⟨rfl, -⟩ | ⟨rfl, -⟩
  · rintro _ _ q; cases q; exact h
  · rintro _ _ q; cases q; decide
  · rintro _ _ q; cases q; decide

/-- C170: `IsNumeric` accepts a text if and only if it is the decimal numeral of a number within the range of double
(digits with at most one decimal point, an optional sign before and an optional exponent after them), possibly with
white space before and after it. -/
theorem C170_numeric (s : List Char) : isNumeric s = true ↔
    ∃ a t b v, s = a ++ (t ++ b) ∧ AllSpace a ∧ Spells t v ∧ AllSpace b ∧ |v| < 2 ^ 1024 - 2 ^ 970 := by
  constructor
  · intro h
    unfold isNumeric at h
    simp only at h
    cases hv : strtod (extract (skipSpace s)).1 with
    | none => rw [hv] at h; cases h
    | some v =>
      rw [hv] at h
      simp only at h
      split_ifs at h with hl
      refine ⟨s.takeWhile isSpace, (extract (skipSpace s)).1, (extract (skipSpace s)).2, v, ?_, ?_, strtod_spells hv, ?_,
        not_le.1 hl⟩
      · rw [extract_append]
        exact (List.takeWhile_append_dropWhile).symm
      · exact allSpace_def.2 fun _ h => List.mem_takeWhile_imp h
      · rw [List.isEmpty_iff] at h
        unfold skipSpace at h
        exact allSpace_def.2 (List.dropWhile_eq_nil_iff.1 h)
  · rintro ⟨a, t, b, v, rfl, ha, ht, hb, hv⟩
    unfold isNumeric
    simp only
    rw [skipSpace_of ha (spells_head ht), extract_spells ht hb, strtod_of ht]
    simp only
    rw [if_neg (c := doubleLimit ≤ |v|) (not_le.2 hv)]
    have : skipSpace b = [] := List.dropWhile_eq_nil_iff.2 (allSpace_def.1 hb)
    rw [this]
    rfl

/-- A numeral stands for one number only. -/
theorem C170_one_value {s : List Char} {v w : ℚ} (hv : Spells s v) (hw : Spells s w) : v = w :=
  Option.some.inj ((strtod_of hv).symm.trans (strtod_of hw))

/-- Accepted and rejected texts. -/
example : ["-0.75", " 1e5 ", ".5", "5.", "+1E-3"].map (fun s => isNumeric s.toList) = [true, true, true, true, true] ∧
    ["-0.75a", "", ".", "1e", "1 2", "--1", "e5", "1e999"].map (fun s => isNumeric s.toList) =
      [false, false, false, false, false, false, false, false] := by
  decide +kernel

end Verif.Props
