import Mathlib.Data.Real.Basic
import Mathlib.Algebra.Order.Field.Power
import Mathlib.Tactic.NormNum

/-!
# Model of `base/units.cc`

`double` is modelled by exact real numbers; the conversion constants are the decimal literals of the
source.  The exponent is an `int` (so `std::pow(factor, exponent)` is an integer power).
-/

namespace Verif.Units

/-- `units::kPi`, `include/models/base/units.h` L114 (not the exact π). -/
noncomputable def kPi : ℝ := 3.14159265358979

/-- `units::Convert`, `base/units.cc` L64-78. -/
noncomputable def convert (value factor : ℝ) (exponent : ℤ) (isNumerator : Bool) : ℝ :=
  let factorAdj := factor ^ exponent
  let factorAdj := if isNumerator = false then 1 / factorAdj else factorAdj
  value * factorAdj

/-- `AngleConversionType`, `units.h` L16-20. -/
inductive AngleType where
  | null | degreesToRadians | radiansToDegrees
  deriving DecidableEq

/-- `ConvertAngle`, `units.cc` L80-91, constants L11-12. -/
noncomputable def convertAngle (value : ℝ) (type : AngleType) (exponent : ℤ := 1)
    (isNumerator : Bool := true) : ℝ :=
  match type with
  | .degreesToRadians => convert value (kPi / 180) exponent isNumerator
  | .radiansToDegrees => convert value (180 / kPi) exponent isNumerator
  | .null => -999999

/-- `ForceConversionType`, `units.h` L25-29. -/
inductive ForceType where
  | null | newtonsToPounds | poundsToNewtons
  deriving DecidableEq

/-- `ConvertForce`, `units.cc` L93-104, constants L15-16. -/
noncomputable def convertForce (value : ℝ) (type : ForceType) (exponent : ℤ := 1)
    (isNumerator : Bool := true) : ℝ :=
  match type with
  | .newtonsToPounds => convert value (1 / 4.4482216152605) exponent isNumerator
  | .poundsToNewtons => convert value 4.4482216152605 exponent isNumerator
  | .null => -999999

/-- `LengthConversionType`, `units.h` L34-48. -/
inductive LengthType where
  | null | centimetersToMeters | feetToInches | feetToMeters | feetToMiles | inchesToFeet
  | kilometersToMeters | metersToCentimeters | metersToFeet | metersToKilometers
  | metersToMillimeters | milesToFeet | millimetersToMeters
  deriving DecidableEq

/-- `ConvertLength`, `units.cc` L106-137, constants L19-30. -/
noncomputable def convertLength (value : ℝ) (type : LengthType) (exponent : ℤ := 1)
    (isNumerator : Bool := true) : ℝ :=
  match type with
  | .centimetersToMeters => convert value (1 / 100) exponent isNumerator
  | .feetToInches => convert value 12 exponent isNumerator
  | .feetToMeters => convert value 0.3048 exponent isNumerator
  | .feetToMiles => convert value (1 / 5280) exponent isNumerator
  | .inchesToFeet => convert value (1 / 12) exponent isNumerator
  | .kilometersToMeters => convert value 1000 exponent isNumerator
  | .metersToCentimeters => convert value 100 exponent isNumerator
  | .metersToFeet => convert value (1 / 0.3048) exponent isNumerator
  | .metersToKilometers => convert value (1 / 1000) exponent isNumerator
  | .metersToMillimeters => convert value 1000 exponent isNumerator
  | .milesToFeet => convert value 5280 exponent isNumerator
  | .millimetersToMeters => convert value (1 / 1000) exponent isNumerator
  | .null => -999999

/-- `StressConversionType`, `units.h` L53-61. -/
inductive StressType where
  | null | megaPascalToPascal | pascalToMegaPascal | pascalToPsf | psfToPascal | psfToPsi | psiToPsf
  deriving DecidableEq

/-- `ConvertStress`, `units.cc` L139-158, constants L33-38. -/
noncomputable def convertStress (value : ℝ) (type : StressType) (exponent : ℤ := 1)
    (isNumerator : Bool := true) : ℝ :=
  match type with
  | .megaPascalToPascal => convert value 1000000 exponent isNumerator
  | .pascalToMegaPascal => convert value (1 / 1000000) exponent isNumerator
  | .pascalToPsf => convert value (1 / 47.88026) exponent isNumerator
  | .psfToPascal => convert value 47.88026 exponent isNumerator
  | .psfToPsi => convert value (1 / 144) exponent isNumerator
  | .psiToPsf => convert value 144 exponent isNumerator
  | .null => -999999

/-- `TemperatureConversionType`, `units.h` L66-76. -/
inductive TemperatureType where
  | null | celsiusToFahrenheit | celsiusToKelvin | fahrenheitToCelsius | fahrenheitToRankine
  | kelvinToCelsius | kelvinToRankine | rankineToFahrenheit | rankineToKelvin
  deriving DecidableEq

/-- `ConvertTemperature`, `units.cc` L160-189, constants L41-49. -/
noncomputable def convertTemperature (value : ℝ) (type : TemperatureType) (exponent : ℤ := 1)
    (isNumerator : Bool := true) : ℝ :=
  match type with
  | .celsiusToFahrenheit => convert value 1.8 exponent isNumerator + 32
  | .celsiusToKelvin => value + 273.15
  | .fahrenheitToCelsius => convert (value + -32) (1 / 1.8) exponent isNumerator
  | .fahrenheitToRankine => value + 459.67
  | .kelvinToCelsius => value + -273.15
  | .kelvinToRankine => convert value 1.8 exponent isNumerator
  | .rankineToFahrenheit => value + -459.67
  | .rankineToKelvin => convert value (1 / 1.8) exponent isNumerator
  | .null => -999999

end Verif.Units

namespace Verif

/-- `units::UnitSystem`, `include/models/base/units.h` L106-110. -/
inductive UnitSystem where
  | null | imperial | metric
  deriving DecidableEq

end Verif
