import Verif.Double
import Verif.Units
import Verif.Helper
import Verif.Vector
import Verif.Polynomial

/-!
# Model of `base/units.cc`, `base/helper.cc`, `base/polynomial.cc` and `base/vector.cc` in `double` arithmetic

The same functions as in `Verif/Units.lean`, `Verif/Helper.lean`, `Verif/Polynomial.lean` and `Verif/Vector.lean`, with
the result of every operation rounded.  A decimal literal is rounded too.  Comparisons, changes of sign and `std::abs`
are exact.  Of the mathematical functions of the C library the model assumes only that they are faithful: the result is
one of the two numbers next to the exact one, or the exact one if a `double` can hold it.
-/

namespace Verif.Double

open Verif.Units Verif.Helper

/-- There is no number between a result and the exact value. -/
def Faithful (r x : ℝ) : Prop :=
  IsDouble r ∧ (∀ d, IsDouble d → d ≤ x → d ≤ r) ∧ ∀ d, IsDouble d → x ≤ d → r ≤ d

/-- A C library: `std::pow` for an integral exponent, and `std::atan`. -/
structure Library where
  pow : ℝ → ℤ → ℝ
  atan : ℝ → ℝ
  pow_faithful : ∀ x n, IsDouble x → x ≠ 0 ∨ 0 ≤ n → Faithful (pow x n) (x ^ n)
  atan_faithful : ∀ x, IsDouble x → Faithful (atan x) (Real.arctan x)

variable (L : Library)

/-! ## Units -/

/-- `units::Convert`, `base/units.cc` L64-78. -/
noncomputable def convert (value factor : ℝ) (exponent : ℤ) (isNumerator : Bool) : ℝ :=
  let factorAdj := L.pow factor exponent
  let factorAdj := if isNumerator = false then rnd (1 / factorAdj) else factorAdj
  rnd (value * factorAdj)

/-- `ConvertAngle`, `units.cc` L80-91, constants L11-12 and `units.h` L114. -/
noncomputable def convertAngle (value : ℝ) (type : AngleType) (exponent : ℤ := 1) (isNumerator : Bool := true) : ℝ :=
  match type with
  | .degreesToRadians => convert L value (rnd (rnd 3.14159265358979 / 180)) exponent isNumerator
  | .radiansToDegrees => convert L value (rnd (180 / rnd 3.14159265358979)) exponent isNumerator
  | .null => -999999

/-- `ConvertForce`, `units.cc` L93-104, constants L15-16. -/
noncomputable def convertForce (value : ℝ) (type : ForceType) (exponent : ℤ := 1) (isNumerator : Bool := true) : ℝ :=
  match type with
  | .newtonsToPounds => convert L value (rnd (1 / rnd 4.4482216152605)) exponent isNumerator
  | .poundsToNewtons => convert L value (rnd 4.4482216152605) exponent isNumerator
  | .null => -999999

/-- `ConvertLength`, `units.cc` L106-137, constants L19-30. -/
noncomputable def convertLength (value : ℝ) (type : LengthType) (exponent : ℤ := 1) (isNumerator : Bool := true) : ℝ :=
  match type with
  | .centimetersToMeters => convert L value (rnd (1 / 100)) exponent isNumerator
  | .feetToInches => convert L value 12 exponent isNumerator
  | .feetToMeters => convert L value (rnd 0.3048) exponent isNumerator
  | .feetToMiles => convert L value (rnd (1 / 5280)) exponent isNumerator
  | .inchesToFeet => convert L value (rnd (1 / 12)) exponent isNumerator
  | .kilometersToMeters => convert L value 1000 exponent isNumerator
  | .metersToCentimeters => convert L value 100 exponent isNumerator
  | .metersToFeet => convert L value (rnd (1 / rnd 0.3048)) exponent isNumerator
  | .metersToKilometers => convert L value (rnd (1 / 1000)) exponent isNumerator
  | .metersToMillimeters => convert L value 1000 exponent isNumerator
  | .milesToFeet => convert L value 5280 exponent isNumerator
  | .millimetersToMeters => convert L value (rnd (1 / 1000)) exponent isNumerator
  | .null => -999999

/-- `ConvertStress`, `units.cc` L139-158, constants L33-38. -/
noncomputable def convertStress (value : ℝ) (type : StressType) (exponent : ℤ := 1) (isNumerator : Bool := true) : ℝ :=
  match type with
  | .megaPascalToPascal => convert L value 1000000 exponent isNumerator
  | .pascalToMegaPascal => convert L value (rnd (1 / 1000000)) exponent isNumerator
  | .pascalToPsf => convert L value (rnd (1 / rnd 47.88026)) exponent isNumerator
  | .psfToPascal => convert L value (rnd 47.88026) exponent isNumerator
  | .psfToPsi => convert L value (rnd (1 / 144)) exponent isNumerator
  | .psiToPsf => convert L value 144 exponent isNumerator
  | .null => -999999

/-- `ConvertTemperature`, `units.cc` L160-189, constants L41-49. -/
noncomputable def convertTemperature (value : ℝ) (type : TemperatureType) (exponent : ℤ := 1)
    (isNumerator : Bool := true) : ℝ :=
  match type with
  | .celsiusToFahrenheit => rnd (convert L value (rnd 1.8) exponent isNumerator + 32)
  | .celsiusToKelvin => rnd (value + rnd 273.15)
  | .fahrenheitToCelsius => convert L (rnd (value + -32)) (rnd (1 / rnd 1.8)) exponent isNumerator
  | .fahrenheitToRankine => rnd (value + rnd 459.67)
  | .kelvinToCelsius => rnd (value + -rnd 273.15)
  | .kelvinToRankine => convert L value (rnd 1.8) exponent isNumerator
  | .rankineToFahrenheit => rnd (value + -rnd 459.67)
  | .rankineToKelvin => convert L value (rnd (1 / rnd 1.8)) exponent isNumerator
  | .null => -999999

/-! ## Helper functions -/

/-- `LinearY`, `base/helper.cc` L52-55. -/
noncomputable def linearY (x1 y1 x2 y2 x : ℝ) : ℝ :=
  rnd (y1 + rnd (rnd (x - x1) * rnd (rnd (y2 - y1) / rnd (x2 - x1))))

/-- `Round`, `base/helper.cc` L72-74; `std::round` is exact. -/
noncomputable def roundTo (number : ℝ) (precision : ℤ) : ℝ :=
  rnd ((roundAway (rnd (number * L.pow 10 precision)) : ℝ) / L.pow 10 precision)

/-! ## Polynomials -/

/-- The summation loop of `Polynomial::Y`, `base/polynomial.cc` L128-131, from `order` on. -/
noncomputable def yLoop (x : ℝ) : ℕ → List ℝ → ℝ → ℝ
  | _, [], y => y
  | order, c :: cs, y => yLoop x (order + 1) cs (rnd (y + rnd (c * L.pow x order)))

/-- `Polynomial::Y`, `base/polynomial.cc` L124-134. -/
noncomputable def evalY (coefficients : List ℝ) (x : ℝ) : ℝ := yLoop L x 0 coefficients 0

/-! ## Vectors -/

/-- `Vector2d::Magnitude`, `base/vector.cc` L88-90; `sqrt` is correctly rounded. -/
noncomputable def magnitude (v : V2) : ℝ := rnd (Real.sqrt (rnd (L.pow v.x 2 + L.pow v.y 2)))

/-- `Vector3d::Magnitude`, `base/vector.cc` L184-186. -/
noncomputable def magnitude3 (v : V3) : ℝ :=
  rnd (Real.sqrt (rnd (rnd (L.pow v.x 2 + L.pow v.y 2) + L.pow v.z 2)))

/-- Radians to degrees as used in `vector.cc`: `ConvertAngle` with default exponent and flag. -/
noncomputable def toDegrees (r : ℝ) : ℝ := convertAngle L r .radiansToDegrees

open Classical in
/-- `Vector2d::Angle`, `base/vector.cc` L24-86.  Simplification: a quotient `y_ / x_` that is too large for a `double`
is not modelled as an infinity. -/
noncomputable def angle (v : V2) (isEnabledNegativeAngles : Bool := false) : ℝ :=
  if v.x = 0 ∧ v.y = 0 then -999999
  else
    let halfPi := rnd (rnd 3.14159265358979 / 2)
    let angle :=
      if v.x = 0 ∨ v.y = 0 then
        if v.x = 0 then
          if 0 < v.y then toDegrees L halfPi else toDegrees L (rnd (3 * halfPi))
        else if 0 < v.x then 0 else toDegrees L (rnd (2 * halfPi))
      else if 0 ≤ v.y then
        if 0 ≤ v.x then toDegrees L (L.atan (rnd (v.y / v.x)))
        else rnd (180 - toDegrees L |L.atan (rnd (v.y / v.x))|)
      else
        if v.x ≤ 0 then rnd (180 + toDegrees L |L.atan (rnd (v.y / v.x))|)
        else rnd (360 - toDegrees L |L.atan (rnd (v.y / v.x))|)
    if 180 < angle ∧ isEnabledNegativeAngles = true then rnd (angle - 360) else angle

end Verif.Double
