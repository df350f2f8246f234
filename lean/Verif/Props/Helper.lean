import Mathlib.Data.List.Infix
import Mathlib.Algebra.Order.Field.Power
import Mathlib.Tactic.Positivity
import Mathlib.Tactic.FieldSimp
import Mathlib.Tactic.Ring
import Mathlib.Tactic.Linarith
import Verif.Helper

/-! # Properties of the helper functions (C36 – C39) -/

namespace Verif.Props
open Verif.Helper

/-! ## C36 -/

/-- C36: both given points are on the line. -/
theorem C36_linearY_endpoints (x1 y1 x2 y2 : ℝ) (h : x1 ≠ x2) :
    linearY x1 y1 x2 y2 x1 = y1 ∧ linearY x1 y1 x2 y2 x2 = y2 := by
  have : x2 - x1 ≠ 0 := sub_ne_zero.mpr h.symm
  unfold linearY
  constructor
  · simp
  · field_simp; ring

/-- C36: it is a straight line: the value is affine in `x`. -/
theorem C36_linearY_affine (x1 y1 x2 y2 : ℝ) (t u v : ℝ) :
    linearY x1 y1 x2 y2 ((1 - t) * u + t * v) =
      (1 - t) * linearY x1 y1 x2 y2 u + t * linearY x1 y1 x2 y2 v := by
  unfold linearY; ring

/-- C36: the order of the two points does not matter. -/
theorem C36_linearY_symmetric (x1 y1 x2 y2 x : ℝ) (h : x1 ≠ x2) :
    linearY x1 y1 x2 y2 x = linearY x2 y2 x1 y1 x := by
  have h1 : x2 - x1 ≠ 0 := sub_ne_zero.mpr h.symm
  have h2 : x1 - x2 ≠ 0 := sub_ne_zero.mpr h
  unfold linearY; field_simp; ring

/-- C36: between the two points the value is between the two values. -/
theorem C36_linearY_between (x1 y1 x2 y2 x : ℝ) (h : x1 < x2) (hx : x1 ≤ x) (hx' : x ≤ x2) :
    min y1 y2 ≤ linearY x1 y1 x2 y2 x ∧ linearY x1 y1 x2 y2 x ≤ max y1 y2 := by
  have hd : 0 < x2 - x1 := by linarith
  obtain ⟨t, ht0, ht1, rfl⟩ : ∃ t, 0 ≤ t ∧ t ≤ 1 ∧ x = (1 - t) * x1 + t * x2 :=
    ⟨(x - x1) / (x2 - x1), div_nonneg (by linarith) hd.le, (div_le_one hd).mpr (by linarith), by
      field_simp; ring⟩
  rw [C36_linearY_affine, (C36_linearY_endpoints x1 y1 x2 y2 h.ne).1,
    (C36_linearY_endpoints x1 y1 x2 y2 h.ne).2]
  have a1 := min_le_left y1 y2
  have a2 := min_le_right y1 y2
  have b1 := le_max_left y1 y2
  have b2 := le_max_right y1 y2
  constructor
  · nlinarith [mul_le_mul_of_nonneg_left a1 (by linarith : (0:ℝ) ≤ 1 - t),
      mul_le_mul_of_nonneg_left a2 ht0]
  · nlinarith [mul_le_mul_of_nonneg_left b1 (by linarith : (0:ℝ) ≤ 1 - t),
      mul_le_mul_of_nonneg_left b2 ht0]

example : linearY 0 10 4 20 1 = 12.5 := by norm_num [linearY]

/-! ## C37 -/

/-- Equality ignoring case. -/
def sameIgnoringCase (a b : List Char) : Prop := a.map Char.toLower = b.map Char.toLower

/-- C37 is false: a proper prefix compares equal one way round, and the comparison is not
antisymmetric. -/
theorem C37_prefix_compares_equal :
    compareStrings ['a'] ['a', 'b'] = 0 ∧ ¬ sameIgnoringCase ['a'] ['a', 'b'] ∧
    compareStrings ['a', 'b'] ['a'] = 1 := by
  refine ⟨by decide +kernel, ?_, by decide +kernel⟩
  intro h
  have := congrArg List.length h
  simp at this

theorem lower_eq_iff (a b : Char) : lower a = lower b ↔ a.toLower = b.toLower := by
  unfold lower
  exact ⟨fun h => Char.toNat_inj.mp h, fun h => by rw [h]⟩

theorem compareStrings_cons (a b : Char) (as bs : List Char) :
    compareStrings (a :: as) (b :: bs) =
      if lower a < lower b then -1 else if lower b < lower a then 1 else compareStrings as bs := by
  rw [compareStrings]

/-- C37, exactly what a zero means: the first string is a prefix of the second, ignoring case. -/
theorem C37_zero_iff_prefix_partial (a b : List Char) :
    compareStrings a b = 0 ↔ a.map Char.toLower <+: b.map Char.toLower := by
  induction a generalizing b with
  | nil => cases b <;> simp [compareStrings]
  | cons x xs ih =>
    cases b with
    | nil => simp [compareStrings]
    | cons y ys =>
      rw [compareStrings_cons]
      rw [List.map_cons, List.map_cons, List.cons_prefix_cons, ← lower_eq_iff, ← ih]
      split
      · constructor
        · intro h; exact absurd h (by decide)
        · rintro ⟨h, -⟩; omega
      · split
        · constructor
          · intro h; exact absurd h (by decide)
          · rintro ⟨h, -⟩; omega
        · constructor
          · intro h; exact ⟨by omega, h⟩
          · exact fun h => h.2

/-- C37, what holds: on strings of equal length the comparison is 0 exactly for equality ignoring case
and swapping the arguments negates it.  Missing: strings where one is a prefix of the other, for which
it is false. -/
theorem C37_equal_length_partial (a b : List Char) (h : a.length = b.length) :
    (compareStrings a b = 0 ↔ sameIgnoringCase a b) ∧ compareStrings b a = -compareStrings a b := by
  constructor
  · rw [C37_zero_iff_prefix_partial]
    constructor
    · intro hp; exact hp.eq_of_length (by simpa using h)
    · intro he; rw [sameIgnoringCase] at he; rw [he]
  · induction a generalizing b with
    | nil => cases b with
      | nil => simp [compareStrings]
      | cons _ _ => simp at h
    | cons x xs ih => cases b with
      | nil => simp at h
      | cons y ys =>
        rw [compareStrings_cons, compareStrings_cons, ih ys (by simpa using h)]
        split
        · rw [if_neg (by omega)]
        · split
          · rfl
          · rfl

/-- C37: when neither string is a prefix of the other (ignoring case), the comparison is never zero and
swapping negates it. -/
theorem C37_incomparable_partial (a b : List Char)
    (h1 : ¬ a.map Char.toLower <+: b.map Char.toLower)
    (h2 : ¬ b.map Char.toLower <+: a.map Char.toLower) :
    compareStrings a b ≠ 0 ∧ compareStrings b a = -compareStrings a b := by
  refine ⟨fun h => h1 ((C37_zero_iff_prefix_partial a b).mp h), ?_⟩
  induction a generalizing b with
  | nil => simp at h1
  | cons x xs ih => cases b with
    | nil => simp at h2
    | cons y ys =>
      rw [compareStrings_cons, compareStrings_cons]
      by_cases hl : lower x < lower y
      · rw [if_pos hl, if_neg (by omega), if_pos hl]; rfl
      · by_cases hg : lower y < lower x
        · rw [if_pos hg, if_neg hl, if_pos hg]
        · rw [if_neg hl, if_neg hg, if_neg hg, if_neg hl]
          have he : x.toLower = y.toLower := (lower_eq_iff x y).mp (by omega)
          rw [List.map_cons, List.map_cons, List.cons_prefix_cons] at h1 h2
          exact ih ys (fun hp => h1 ⟨he, hp⟩) (fun hp => h2 ⟨he.symm, hp⟩)

example : compareStrings ['H', 'i'] ['h', 'I'] = 0 ∧ compareStrings ['a', 'Z'] ['A', 'b'] = 1 := by
  decide +kernel

/-! ## C38 -/

/-- Joining items with a delimiter between them. -/
def join (d : Char) : List (List Char) → List Char
  | [] => []
  | [s] => s
  | s :: t :: rest => s ++ d :: join d (t :: rest)

/-- C38 is false: a trailing delimiter is lost. -/
theorem C38_trailing_delimiter_lost :
    join ',' (parse ',' ['a', ',']) ≠ ['a', ','] := by
  simp [parse, getline, join]

theorem getline_no_delimiter (d : Char) (s : List Char) : d ∉ (getline d s).1 := by
  induction s with
  | nil => simp [getline]
  | cons c cs ih =>
    simp only [getline]; split
    · simp
    · rename_i h
      simp only [List.mem_cons, not_or]
      exact ⟨fun e => h e.symm, ih⟩

theorem getline_spec (d : Char) (s : List Char) :
    (d ∈ s → s = (getline d s).1 ++ d :: (getline d s).2) ∧
    (d ∉ s → (getline d s).1 = s ∧ (getline d s).2 = []) := by
  induction s with
  | nil => simp [getline]
  | cons c cs ih =>
    simp only [getline]
    by_cases hc : c = d
    · subst hc; simp
    · simp only [if_neg hc, List.mem_cons, List.cons_append, List.cons.injEq, true_and, not_or]
      refine ⟨?_, ?_⟩
      · rintro (h | h)
        · exact absurd h.symm hc
        · exact ih.1 h
      · rintro ⟨_, h⟩
        exact ih.2 h

theorem parse_cons (d : Char) (c : Char) (cs : List Char) :
    parse d (c :: cs) = (getline d (c :: cs)).1 :: parse d (getline d (c :: cs)).2 := by
  rw [parse]

/-- C38: no item contains the delimiter. -/
theorem C38_items_without_delimiter (d : Char) (s : List Char) :
    ∀ item ∈ parse d s, d ∉ item := by
  induction hn : s.length using Nat.strong_induction_on generalizing s with
  | _ n ih =>
    cases s with
    | nil => simp [parse]
    | cons c cs =>
      rw [parse_cons]
      intro item hi
      rcases List.mem_cons.mp hi with rfl | hi
      · exact getline_no_delimiter d _
      · exact ih _ (hn ▸ getline_length_lt d c cs) _ rfl item hi

theorem parse_eq_nil (d : Char) (s : List Char) : parse d s = [] ↔ s = [] := by
  cases s with
  | nil => simp [parse]
  | cons c cs => rw [parse_cons]; simp

/-- C38, what holds: joining gives back the text, except that one delimiter at its very end is lost.
Missing: texts ending in the delimiter. -/
theorem C38_join_parse_partial (d : Char) (s : List Char) :
    s = join d (parse d s) ∨ s = join d (parse d s) ++ [d] := by
  induction hn : s.length using Nat.strong_induction_on generalizing s with
  | _ n ih =>
    cases s with
    | nil => left; simp [parse, join]
    | cons c cs =>
      rw [parse_cons]
      have hs := getline_spec d (c :: cs)
      have hl := getline_length_lt d c cs
      generalize c :: cs = s at *
      by_cases hd : d ∈ s
      · have h1 := hs.1 hd
        cases hr : (getline d s).2 with
        | nil =>
          right
          rw [hr] at h1
          simpa [parse, join] using h1
        | cons e es =>
          have := ih _ (hn ▸ hl) (getline d s).2 rfl
          rw [hr] at this h1
          cases hp : parse d (e :: es) with
          | nil => exact absurd ((parse_eq_nil d _).mp hp) (by simp)
          | cons p ps =>
            rw [hp] at this
            simp only [join]
            rcases this with h | h
            · left; rw [← h]; exact h1
            · right
              rw [List.append_assoc, List.cons_append, ← h]; exact h1
      · have h1 := hs.2 hd
        left
        rw [h1.2]
        simp [parse, join, h1.1]

/-- C38: if the text does not end in the delimiter, nothing is lost. -/
theorem C38_join_parse_no_trailing_partial (d : Char) (s : List Char) (h : s.getLast? ≠ some d) :
    join d (parse d s) = s := by
  rcases C38_join_parse_partial d s with e | e
  · exact e.symm
  · exact absurd (by rw [e]; simp) h

example : parse ',' ['a', ',', ',', 'b'] = [['a'], [], ['b']] := by simp [parse, getline]

/-! ## C39 -/

theorem roundAway_abs_sub (x : ℝ) : |(roundAway x : ℝ) - x| ≤ 1 / 2 := by
  unfold roundAway
  split
  · have h1 := Int.floor_le (x + 1 / 2)
    have h2 := Int.lt_floor_add_one (x + 1 / 2)
    rw [abs_le]; constructor <;> linarith
  · have h1 := Int.floor_le (-x + 1 / 2)
    have h2 := Int.lt_floor_add_one (-x + 1 / 2)
    push_cast
    rw [abs_le]; constructor <;> linarith

theorem roundAway_intCast (n : ℤ) : roundAway (n : ℝ) = n := by
  have h : ∀ m : ℤ, ⌊(m : ℝ) + 1 / 2⌋ = m := by
    intro m; rw [Int.floor_eq_iff]; constructor <;> linarith
  unfold roundAway
  split
  · exact h n
  · have := h (-n); push_cast at this; rw [this]; simp

/-- C39: a number moves by at most half a unit of the last place kept. -/
theorem C39_round_error (x : ℝ) (n : ℤ) : |roundTo x n - x| ≤ 0.5 * (10 : ℝ) ^ (-n) := by
  have hp : (0 : ℝ) < 10 ^ n := by positivity
  have h := roundAway_abs_sub (x * 10 ^ n)
  have : roundTo x n - x = ((roundAway (x * 10 ^ n) : ℝ) - x * 10 ^ n) * 10 ^ (-n) := by
    unfold roundTo; rw [zpow_neg]; field_simp
  rw [this, abs_mul, abs_of_pos (by positivity : (0 : ℝ) < 10 ^ (-n))]
  have : (0 : ℝ) < 10 ^ (-n) := by positivity
  have h2 := mul_le_mul_of_nonneg_right h this.le
  norm_num at h2 ⊢
  exact h2

/-- C39: the result has `n` decimals. -/
theorem C39_round_integral (x : ℝ) (n : ℤ) : ∃ k : ℤ, roundTo x n * (10 : ℝ) ^ n = k := by
  have hp : (10 : ℝ) ^ n ≠ 0 := by positivity
  exact ⟨_, div_mul_cancel₀ _ hp⟩

/-- C39: rounding again changes nothing; so numbers with `n` decimals are left alone. -/
theorem C39_round_idempotent (x : ℝ) (n : ℤ) : roundTo (roundTo x n) n = roundTo x n := by
  have hp : (10 : ℝ) ^ n ≠ 0 := by positivity
  obtain ⟨k, hk⟩ := C39_round_integral x n
  unfold roundTo at hk ⊢
  rw [hk, roundAway_intCast, ← hk]
  field_simp

/-- C39: rounding is odd: halves go away from zero on both sides. -/
theorem C39_round_neg (x : ℝ) (n : ℤ) : roundTo (-x) n = -roundTo x n := by
  have : ∀ y : ℝ, roundAway (-y) = -roundAway y := by
    intro y
    unfold roundAway
    rcases lt_trichotomy y 0 with h | h | h
    · rw [if_pos (by linarith), if_neg (by linarith)]; simp
    · subst h; norm_num
    · rw [if_neg (by linarith), if_pos h.le]; simp
  unfold roundTo
  rw [neg_mul, this]; push_cast; ring

/-- C39: rounding is monotone. -/
theorem C39_round_mono (x y : ℝ) (n : ℤ) (h : x ≤ y) : roundTo x n ≤ roundTo y n := by
  have key : ∀ a b : ℝ, a ≤ b → roundAway a ≤ roundAway b := by
    intro a b hab
    unfold roundAway
    split <;> split
    · exact Int.floor_mono (by linarith)
    · linarith
    · rename_i ha hb
      have h1 : (0 : ℤ) ≤ ⌊-a + 1 / 2⌋ := Int.floor_nonneg.mpr (by linarith)
      have h2 : (0 : ℤ) ≤ ⌊b + 1 / 2⌋ := Int.floor_nonneg.mpr (by linarith)
      omega
    · exact neg_le_neg (Int.floor_mono (by linarith))
  have hp : (0 : ℝ) < 10 ^ n := by positivity
  unfold roundTo
  have := key _ _ (mul_le_mul_of_nonneg_right h hp.le)
  exact (div_le_div_iff_of_pos_right hp).mpr (by exact_mod_cast this)

example : roundTo 2.5 0 = 3 ∧ roundTo (-2.5) 0 = -3 := by
  have h : roundTo 2.5 0 = 3 := by
    have : ⌊(2.5 : ℝ) + 1 / 2⌋ = 3 := by rw [Int.floor_eq_iff]; norm_num
    unfold roundTo roundAway
    norm_num at this ⊢
  exact ⟨h, by rw [C39_round_neg, h]⟩

end Verif.Props
