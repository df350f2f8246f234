import Verif.DoubleFinite

/-!
# Overflow in `base`

The functions of `Verif/DoubleBase.lean` once more with a largest number, as in `Verif/DoubleFinite.lean`.
-/

namespace Verif.Double.Finite

open Verif.Units Verif.Helper

variable (L : Library)

/-! ## Units -/

/-- `ConvertAngle`, `units.cc` L80-91, constants L11-12 and `units.h` L114. -/
noncomputable def convertAngle (value : ℝ) (type : AngleType) (exponent : ℤ := 1) (isNumerator : Bool := true) : Option ℝ :=
  match type with
  | .degreesToRadians => convert L value (rnd (rnd 3.14159265358979 / 180)) exponent isNumerator
  | .radiansToDegrees => convert L value (rnd (180 / rnd 3.14159265358979)) exponent isNumerator
  | .null => some (-999999)

/-- `ConvertForce`, `units.cc` L93-104, constants L15-16. -/
noncomputable def convertForce (value : ℝ) (type : ForceType) (exponent : ℤ := 1) (isNumerator : Bool := true) : Option ℝ :=
  match type with
  | .newtonsToPounds => convert L value (rnd (1 / rnd 4.4482216152605)) exponent isNumerator
  | .poundsToNewtons => convert L value (rnd 4.4482216152605) exponent isNumerator
  | .null => some (-999999)

/-- `ConvertLength`, `units.cc` L106-137, constants L19-30. -/
noncomputable def convertLength (value : ℝ) (type : LengthType) (exponent : ℤ := 1) (isNumerator : Bool := true) : Option ℝ :=
  match type with
  | .centimetersToMeters => convert L value (rnd (1 / 100)) exponent isNumerator
  | .feetToInches => convert L value 12 exponent isNumerator
  | .feetToMeters => convert L value (rnd 0.3048) exponent isNumerator
  | .feetToMiles => convert L value (rnd (1 / 5280)) exponent isNumerator
  | .inchesToFeet => convert L value (rnd (1 / 12)) exponent isNumerator
  | .kilometersToMeters => convert L value 1000 exponent isNumerator
  | .metersToCentimeters => convert L value 100 exponent isNumerator
  | .metersToFeet => convert L value (rnd (1 / rnd 0.3048)) exponent isNumerator
  | .metersToKilometers => convert L value (rnd (1 / 1000)) exponent isNumerator
  | .metersToMillimeters => convert L value 1000 exponent isNumerator
  | .milesToFeet => convert L value 5280 exponent isNumerator
  | .millimetersToMeters => convert L value (rnd (1 / 1000)) exponent isNumerator
  | .null => some (-999999)

/-- `ConvertStress`, `units.cc` L139-158, constants L33-38. -/
noncomputable def convertStress (value : ℝ) (type : StressType) (exponent : ℤ := 1) (isNumerator : Bool := true) : Option ℝ :=
  match type with
  | .megaPascalToPascal => convert L value 1000000 exponent isNumerator
  | .pascalToMegaPascal => convert L value (rnd (1 / 1000000)) exponent isNumerator
  | .pascalToPsf => convert L value (rnd (1 / rnd 47.88026)) exponent isNumerator
  | .psfToPascal => convert L value (rnd 47.88026) exponent isNumerator
  | .psfToPsi => convert L value (rnd (1 / 144)) exponent isNumerator
  | .psiToPsf => convert L value 144 exponent isNumerator
  | .null => some (-999999)

/-- `ConvertTemperature`, `units.cc` L160-189, constants L41-49. -/
noncomputable def convertTemperature (value : ℝ) (type : TemperatureType) (exponent : ℤ := 1)
    (isNumerator : Bool := true) : Option ℝ :=
  match type with
  | .celsiusToFahrenheit => (convert L value (rnd 1.8) exponent isNumerator).bind fun y => chk (y + 32)
  | .celsiusToKelvin => chk (value + rnd 273.15)
  | .fahrenheitToCelsius => (chk (value + -32)).bind fun y => convert L y (rnd (1 / rnd 1.8)) exponent isNumerator
  | .fahrenheitToRankine => chk (value + rnd 459.67)
  | .kelvinToCelsius => chk (value + -rnd 273.15)
  | .kelvinToRankine => convert L value (rnd 1.8) exponent isNumerator
  | .rankineToFahrenheit => chk (value + -rnd 459.67)
  | .rankineToKelvin => convert L value (rnd (1 / rnd 1.8)) exponent isNumerator
  | .null => some (-999999)

/-! ## Helper functions -/

/-- `LinearY`, `base/helper.cc` L52-55. -/
noncomputable def linearY (x1 y1 x2 y2 x : ℝ) : Option ℝ :=
  (chk (x - x1)).bind fun dx => (chk (y2 - y1)).bind fun dy => (chk (x2 - x1)).bind fun d =>
  (chkDiv dy d).bind fun slope => (chk (dx * slope)).bind fun t => chk (y1 + t)

/-- `Round`, `base/helper.cc` L72-74. -/
noncomputable def roundTo (number : ℝ) (precision : ℤ) : Option ℝ :=
  (pow L 10 precision).bind fun p => (chk (number * p)).bind fun y => chkDiv (roundAway y : ℝ) p

/-! ## Polynomials -/

/-- The summation loop of `Polynomial::Y`, `base/polynomial.cc` L128-131, from `order` on. -/
noncomputable def yLoop (x : ℝ) : ℕ → List ℝ → ℝ → Option ℝ
  | _, [], y => some y
  | order, c :: cs, y =>
    (pow L x order).bind fun p => (chk (c * p)).bind fun t => (chk (y + t)).bind (yLoop x (order + 1) cs)

/-- `Polynomial::Y`, `base/polynomial.cc` L124-134. -/
noncomputable def evalY (coefficients : List ℝ) (x : ℝ) : Option ℝ := yLoop L x 0 coefficients 0

end Verif.Double.Finite
