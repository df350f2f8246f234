import Mathlib.Algebra.Order.Archimedean.Real.Basic
import Mathlib.Algebra.Order.Round
import Mathlib.Algebra.Order.Floor.Ring

/-!
# Model of `base/helper.cc`

Strings are lists of characters.  `tolower` is the C-locale one (only `A`–`Z` change), which is
`Char.toLower`; bytes above 127, whose value as a negative `char` is locale and implementation
dependent, are outside the model.  `DoubleToString` (L28-40) and `IsNumeric` (L42-50) are in
`Verif/HelperText.lean`.
-/

namespace Verif.Helper

/-- `tolower` as a number, `helper.cc` L16, L18. -/
def lower (c : Char) : Nat := c.toLower.toNat

/-- `CompareStrings`, `base/helper.cc` L11-26.  When one string ends, L25 returns
`str1.length() > str2.length()` converted to `int`, that is 1 or 0. -/
def compareStrings : List Char → List Char → Int
  | a :: as, b :: bs =>
    if lower a < lower b then -1 else if lower b < lower a then 1 else compareStrings as bs
  | [], [] => 0
  | [], _ :: _ => 0
  | _ :: _, [] => 1

/-- One `std::getline` (L65): the characters before the first delimiter and those after it. -/
def getline (delimiter : Char) : List Char → List Char × List Char
  | [] => ([], [])
  | c :: cs => if c = delimiter then ([], cs) else ((c :: (getline delimiter cs).1), (getline delimiter cs).2)

theorem getline_length (d : Char) (s : List Char) : (getline d s).2.length ≤ s.length := by
  induction s with
  | nil => simp [getline]
  | cons c cs ih =>
    simp only [getline]; split
    · simp
    · simp only [List.length_cons]; omega

theorem getline_length_lt (d : Char) (c : Char) (cs : List Char) :
    (getline d (c :: cs)).2.length < (c :: cs).length := by
  have := getline_length d cs
  simp only [getline]; split <;> simp only [List.length_cons] <;> omega

/-- `Parse`, `base/helper.cc` L57-70: `getline` until extraction fails.  Extraction fails when there is
nothing left to extract, so a text ending in a delimiter yields no final empty item. -/
def parse (delimiter : Char) : List Char → List (List Char)
  | [] => []
  | c :: cs =>
    let r := getline delimiter (c :: cs)
    r.1 :: parse delimiter r.2
termination_by s => s.length
decreasing_by exact getline_length_lt _ _ _

/-- `LinearY`, `base/helper.cc` L52-55. -/
noncomputable def linearY (x1 y1 x2 y2 x : ℝ) : ℝ := y1 + (x - x1) * ((y2 - y1) / (x2 - x1))

/-- `std::round`: to the nearest integer, halves away from zero. -/
noncomputable def roundAway (x : ℝ) : ℤ := if 0 ≤ x then ⌊x + 1 / 2⌋ else -⌊-x + 1 / 2⌋

/-- `Round`, `base/helper.cc` L72-74. -/
noncomputable def roundTo (number : ℝ) (precision : ℤ) : ℝ :=
  (roundAway (number * (10 : ℝ) ^ precision) : ℝ) / (10 : ℝ) ^ precision

end Verif.Helper
