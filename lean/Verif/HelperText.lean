import Mathlib.Data.Int.Log
import Mathlib.Data.List.DropRight
import Mathlib.Data.Rat.Floor

/-!
# Model of the text functions of `base/helper.cc`

`IsNumeric` (L42-50) and `DoubleToString` (L28-40) are calls of the stream operators of the standard library.  They are
modelled as libstdc++ implements them in the C locale: `num_get::_M_extract_float` collects characters, `strtod` turns
them into a number, `num_put` formats like `printf`.  (Other libraries also read hexadecimal numbers, `inf` and `nan`.)
Values are rational numbers, as all finite doubles are; the negative zero, infinities and NaNs are not modelled.
The leading zeros that libstdc++ collects only once are kept, and so is the case of the exponent letter: `strtod` does
not care.
-/

namespace Verif.Helper

/-- `std::isspace` in the C locale. -/
def isSpace (c : Char) : Bool := c.toNat = 32 || (9 ≤ c.toNat && c.toNat ≤ 13)

/-- A decimal digit. -/
def isDigit (c : Char) : Bool := 48 ≤ c.toNat && c.toNat ≤ 57

/-- `std::ws`, the start of every formatted input, L49. -/
def skipSpace (s : List Char) : List Char := s.dropWhile isSpace

/-- The loop that collects the characters of a number, used by L49: the flags tell whether a digit, a decimal point and
an exponent have been seen.  Returns the characters collected and the rest of the stream. -/
def extractLoop (mantissa point exponent : Bool) : List Char → List Char × List Char
  | [] => ([], [])
  | c :: cs =>
    if isDigit c = true then
      (c :: (extractLoop true point exponent cs).1, (extractLoop true point exponent cs).2)
    else if c = '.' ∧ point = false ∧ exponent = false then
      (c :: (extractLoop mantissa true exponent cs).1, (extractLoop mantissa true exponent cs).2)
    else if (c = 'e' ∨ c = 'E') ∧ exponent = false ∧ mantissa = true then
      match cs with
      | [] => ([c], [])
      | d :: ds =>
        if d = '+' ∨ d = '-' then
          (c :: d :: (extractLoop mantissa point true ds).1, (extractLoop mantissa point true ds).2)
        else (c :: (extractLoop mantissa point true (d :: ds)).1, (extractLoop mantissa point true (d :: ds)).2)
    else ([], c :: cs)

/-- An optional sign and then the loop. -/
def extract : List Char → List Char × List Char
  | [] => ([], [])
  | c :: cs =>
    if c = '+' ∨ c = '-' then (c :: (extractLoop false false false cs).1, (extractLoop false false false cs).2)
    else extractLoop false false false (c :: cs)

/-- The number a list of digits stands for. -/
def digitsValue (s : List Char) : ℕ := s.foldl (fun n c => 10 * n + (c.toNat - 48)) 0

/-- An optional sign: its factor and what follows. -/
def readSign : List Char → ℤ × List Char
  | [] => (1, [])
  | c :: cs => if c = '-' then (-1, cs) else if c = '+' then (1, cs) else (1, c :: cs)

/-- The exponent in `strtod`: the rest of the text has to be empty or an `e` with a number. -/
def readExponent : List Char → Option ℤ
  | [] => some 0
  | c :: cs =>
    if c = 'e' ∨ c = 'E' then
      let r := readSign cs
      if r.2 ≠ [] ∧ r.2.all isDigit = true then some (r.1 * digitsValue r.2) else none
    else none

/-- The digits after the decimal point, if there is one, and what follows. -/
def readFraction : List Char → List Char × List Char
  | [] => ([], [])
  | c :: cs => if c = '.' then (cs.takeWhile isDigit, cs.dropWhile isDigit) else ([], c :: cs)

/-- `strtod` on a text it has to use up; the value before it is rounded to a double. -/
def strtod (s : List Char) : Option ℚ :=
  let r := readSign s
  let a := r.2.takeWhile isDigit
  let f := readFraction (r.2.dropWhile isDigit)
  if a = [] ∧ f.1 = [] then none
  else
    match readExponent f.2 with
    | none => none
    | some k => some (r.1 * (digitsValue a + digitsValue f.1 / 10 ^ f.1.length) * 10 ^ k)

/-- Numbers from here on are rounded to an infinity, and the extraction fails. -/
def doubleLimit : ℚ := 2 ^ 1024 - 2 ^ 970

/-- `IsNumeric`, `base/helper.cc` L42-50. -/
def isNumeric (s : List Char) : Bool :=
  let r := extract (skipSpace s)
  match strtod r.1 with
  | none => false
  | some v => if doubleLimit ≤ |v| then false else (skipSpace r.2).isEmpty

/-! ## Formatting -/

/-- A digit as a character. -/
def digitChar (n : ℕ) : Char := Char.ofNat (48 + n % 10)

/-- A natural number in decimal digits. -/
def natChars (n : ℕ) : List Char :=
  if h : n < 10 then [digitChar n] else natChars (n / 10) ++ [digitChar n]
termination_by n
decreasing_by omega

/-- The last `p` decimal digits of a natural number. -/
def padChars : ℕ → ℕ → List Char
  | 0, _ => []
  | p + 1, n => padChars p (n / 10) ++ [digitChar n]

/-- Rounding to the nearest integer, halves to the even one, of a number that is not negative. -/
def roundEven (x : ℚ) : ℕ :=
  let n := ⌊x⌋.toNat
  if x - n < 1 / 2 then n else if 1 / 2 < x - n then n + 1 else if n % 2 = 0 then n else n + 1

/-- The sign of a number. -/
def signChars (x : ℚ) : List Char := if x < 0 then ['-'] else []

/-- `n / 10 ^ p` with `p` decimals, without a decimal point if there are none. -/
def pointChars (n p : ℕ) : List Char :=
  natChars (n / 10 ^ p) ++ (if p = 0 then [] else '.' :: padChars p n)

/-- `%.*f`: the value with `p` decimals. -/
def fixedText (x : ℚ) (p : ℕ) : List Char := signChars x ++ pointChars (roundEven (|x| * 10 ^ p)) p

/-- The digits and the decimal exponent of a number rounded to `P` significant digits, as `%e` finds them. -/
def significand (x : ℚ) (P : ℕ) : ℕ × ℤ :=
  if x = 0 then (0, 0)
  else
    let k := Int.log 10 |x|
    let n := roundEven (|x| / 10 ^ (k - (P - 1 : ℕ)))
    if n = 10 ^ P then (10 ^ (P - 1), k + 1) else (n, k)

/-- Trailing zeros of a number with decimals, and then a trailing decimal point, are removed. -/
def stripZeros (s : List Char) : List Char :=
  if '.' ∈ s then
    let t := s.rdropWhile (· = '0')
    if t.getLast? = some '.' then t.dropLast else t
  else s

/-- The exponent in `%e`: a sign and at least two digits. -/
def exponentChars (k : ℤ) : List Char :=
  'e' :: (if k < 0 then '-' else '+') :: (if k.natAbs < 10 then '0' :: natChars k.natAbs else natChars k.natAbs)

/-- `%.*g`: the value with `P` significant digits, in fixed notation if the exponent is at least -4 and below `P`, in
scientific notation otherwise. -/
def generalText (x : ℚ) (P : ℕ) : List Char :=
  let r := significand x P
  if -4 ≤ r.2 ∧ r.2 < P then
    signChars x ++ stripZeros (pointChars r.1 ((P - 1 : ℕ) - r.2).toNat)
  else signChars x ++ stripZeros (pointChars r.1 (P - 1)) ++ exponentChars r.2

/-- The precision that is used: six digits if it is negative, and at least one significant digit (`isFixed` is false). -/
def usedPrecision (precision : ℤ) (isFixed : Bool) : ℕ :=
  if precision < 0 then 6 else if isFixed = false ∧ precision = 0 then 1 else precision.toNat

/-- `DoubleToString`, `base/helper.cc` L28-40. -/
def doubleToString (value : ℚ) (precision : ℤ) (isFixed : Bool) : List Char :=
  if isFixed = true then fixedText value (usedPrecision precision isFixed)
  else generalText value (usedPrecision precision isFixed)

end Verif.Helper
