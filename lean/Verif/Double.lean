import Mathlib.Algebra.Order.Archimedean.Real.Basic
import Mathlib.Algebra.Order.Floor.Ring
import Mathlib.Data.Int.Log

/-!
# Arithmetic of `double`

Most of the model uses exact real numbers for `double`.  Here are the numbers that a `double` can hold and the rounding
that IEEE 754 prescribes for the results of `+`, `-`, `*`, `/` and `sqrt`, so that functions can also be modelled with
every operation rounded.  Simplification: there is no largest number, so results that overflow to an infinity are not
modelled; there is one zero.
-/

namespace Verif.Double

/-- The numbers a `double` can hold: 53 binary digits, none of them below `2 ^ (-1074)`. -/
def IsDouble (x : ℝ) : Prop := ∃ m e : ℤ, |m| ≤ 2 ^ 53 ∧ -1074 ≤ e ∧ x = m * (2 : ℝ) ^ e

open Classical in
/-- The nearest integer, the even one of two. -/
noncomputable def nearestInt (x : ℝ) : ℤ :=
  if x - ⌊x⌋ < 1 / 2 then ⌊x⌋
  else if 1 / 2 < x - ⌊x⌋ then ⌊x⌋ + 1
  else if ⌊x⌋ % 2 = 0 then ⌊x⌋ else ⌊x⌋ + 1

/-- The place of the last binary digit that a `double` has for a number of this size. -/
noncomputable def lastPlace (x : ℝ) : ℤ := max (Int.log 2 |x| - 52) (-1074)

/-- The `double` for a real number: round to nearest, ties to even. -/
noncomputable def rnd (x : ℝ) : ℝ := nearestInt (x / 2 ^ lastPlace x) * (2 : ℝ) ^ lastPlace x

end Verif.Double
