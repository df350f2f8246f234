import Mathlib.Data.Real.Basic
import Mathlib.Algebra.Order.Field.Power
import Verif.Outcome

/-!
# Model of `base/polynomial.cc`

Coefficients are a list of reals.  The object caches the coefficients of its derivative behind a flag.
Assumed: the caller keeps the pointed-to coefficient vector alive.  `Derivative()` (L25-35), which copies raw
pointers, is modelled in `PolyHeap.lean`.  Not modelled: queries before any coefficients were given
(uninitialised pointer).
-/

namespace Verif.Poly

/-- The summation loop of `Polynomial::Y`, `base/polynomial.cc` L128-131, from `order` on. -/
def yLoop (x : ℝ) : ℕ → List ℝ → ℝ → ℝ
  | _, [], y => y
  | order, c :: cs, y => yLoop x (order + 1) cs (y + c * x ^ order)

/-- `Polynomial::Y`, `base/polynomial.cc` L124-134. -/
def evalY (coefficients : List ℝ) (x : ℝ) : ℝ := yLoop x 0 coefficients 0

/-- The loop of `Polynomial::UpdateDerivative`, L167-173, from `order` on. -/
def derivLoop : ℕ → List ℝ → List ℝ
  | _, [] => []
  | order, c :: cs => if order ≠ 0 then c * order :: derivLoop (order + 1) cs else derivLoop (order + 1) cs

/-- Coefficients of the derivative, `Polynomial::UpdateDerivative` L162-181. -/
def derivCoefficients (coefficients : List ℝ) : List ℝ := derivLoop 0 coefficients

/-- `Polynomial` (members L99-115 of `include/models/base/polynomial.h`): the coefficients pointed to, the
cached derivative coefficients and the flag. -/
structure Obj where
  coefficients : List ℝ
  derivative : List ℝ
  isUpdated : Bool

namespace Obj

/-- Constructor with coefficients, `polynomial.cc` L15-19. -/
def new (cs : List ℝ) : Obj := ⟨cs, [], false⟩

/-- `set_coefficients`, L140-144. -/
def setCoefficients (cs : List ℝ) (o : Obj) : Obj := { o with coefficients := cs, isUpdated := false }

/-- `IsUpdated`/`Update`, L146-160 (`UpdateDerivative` always succeeds). -/
def update (o : Obj) : Obj :=
  if o.isUpdated = false then { o with derivative := derivCoefficients o.coefficients, isUpdated := true }
  else o

/-- `Polynomial::Y`, L124-134: no cached data used. -/
def y (x : ℝ) (o : Obj) : ℝ := evalY o.coefficients x

/-- `Polynomial::Slope`, L41-48, with the object it leaves behind. -/
def slope (x : ℝ) (o : Obj) : ℝ × Obj := (evalY o.update.derivative x, o.update)

/-- `Polynomial::Validate`, L50-79, for non-null coefficients. -/
def validate (o : Obj) : Bool × Obj := (true, o.update)

open Classical in
/-- The loop of `Polynomial::X`, L105-119.  `point_function.x` and `point_derivative.x` start equal and
are always assigned together, so one `x` is kept.  `fuel` is `100 - iter`. -/
noncomputable def newton (shifted derivative : List ℝ) (precisionY : ℝ) : ℕ → ℝ → ℝ → ℝ
  | 0, x, _ => x
  | fuel + 1, x, y =>
    if precisionY < |y| then
      let y' := evalY shifted x
      let d := evalY derivative x
      let x' := if d ≠ 0 then x - y' / d else x
      newton shifted derivative precisionY fuel x' y'
    else x

/-- `Polynomial::X`, L83-122: throws on empty coefficients (`.at(0)`, L96). -/
noncomputable def solveX (y : ℝ) (decimalPrecisionY : ℤ) (xGuess : ℝ) (o : Obj) : Res ℝ × Obj :=
  let o := o.update
  let precisionY := 1 / (10 : ℝ) ^ decimalPrecisionY
  match o.coefficients with
  | [] => (.throws, o)
  | c :: cs => (.val (newton ((c - y) :: cs) o.derivative precisionY 100 xGuess (-999999)), o)

end Obj

/-- Calls on a polynomial object. -/
inductive Call where
  | setCoefficients (cs : List ℝ)
  | slope (x : ℝ)
  | solveX (y : ℝ) (d : ℤ) (guess : ℝ)
  | validate

/-- The object after a call. -/
noncomputable def Call.apply : Call → Obj → Obj
  | .setCoefficients cs, o => o.setCoefficients cs
  | .slope x, o => (o.slope x).2
  | .solveX y d g, o => (o.solveX y d g).2
  | .validate, o => o.validate.2

end Verif.Poly
