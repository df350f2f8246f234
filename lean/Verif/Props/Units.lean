import Mathlib.Tactic.FieldSimp
import Mathlib.Tactic.Ring
import Mathlib.Tactic.Linarith
import Verif.Units

/-! # Properties of unit conversion (C32, C33) -/

namespace Verif.Props
open Verif.Units

theorem convert_inverse {f g : ℝ} (h : f * g = 1) (x : ℝ) (e : ℤ) (b : Bool) :
    convert (convert x f e b) g e b = x := by
  have hp : f ^ e * g ^ e = 1 := by rw [← mul_zpow, h, one_zpow]
  unfold convert
  cases b
  · simp only [if_true]
    rw [mul_assoc, one_div_mul_one_div, hp]; simp
  · simp only [Bool.true_eq_false, if_false]
    rw [mul_assoc, hp, mul_one]

/-- Opposite angle conversions. -/
inductive OppositeAngle : AngleType → AngleType → Prop
  | degreesRadians : OppositeAngle .degreesToRadians .radiansToDegrees
  | radiansDegrees : OppositeAngle .radiansToDegrees .degreesToRadians

/-- Opposite force conversions. -/
inductive OppositeForce : ForceType → ForceType → Prop
  | newtonsPounds : OppositeForce .newtonsToPounds .poundsToNewtons
  | poundsNewtons : OppositeForce .poundsToNewtons .newtonsToPounds

/-- Opposite length conversions. -/
inductive OppositeLength : LengthType → LengthType → Prop
  | cmM : OppositeLength .centimetersToMeters .metersToCentimeters
  | mCm : OppositeLength .metersToCentimeters .centimetersToMeters
  | ftIn : OppositeLength .feetToInches .inchesToFeet
  | inFt : OppositeLength .inchesToFeet .feetToInches
  | ftM : OppositeLength .feetToMeters .metersToFeet
  | mFt : OppositeLength .metersToFeet .feetToMeters
  | ftMi : OppositeLength .feetToMiles .milesToFeet
  | miFt : OppositeLength .milesToFeet .feetToMiles
  | kmM : OppositeLength .kilometersToMeters .metersToKilometers
  | mKm : OppositeLength .metersToKilometers .kilometersToMeters
  | mMm : OppositeLength .metersToMillimeters .millimetersToMeters
  | mmM : OppositeLength .millimetersToMeters .metersToMillimeters

/-- Opposite stress conversions. -/
inductive OppositeStress : StressType → StressType → Prop
  | mpaPa : OppositeStress .megaPascalToPascal .pascalToMegaPascal
  | paMpa : OppositeStress .pascalToMegaPascal .megaPascalToPascal
  | paPsf : OppositeStress .pascalToPsf .psfToPascal
  | psfPa : OppositeStress .psfToPascal .pascalToPsf
  | psfPsi : OppositeStress .psfToPsi .psiToPsf
  | psiPsf : OppositeStress .psiToPsf .psfToPsi

/-- C32: converting an angle there and back returns the value. -/
theorem C32_angle_round_trip {s t : AngleType} (h : OppositeAngle s t) (x : ℝ) (e : ℤ) (b : Bool) :
    convertAngle (convertAngle x s e b) t e b = x := by
  have hk : kPi ≠ 0 := by norm_num [kPi]
  cases h <;> exact convert_inverse (by field_simp) x e b

/-- C32 for forces. -/
theorem C32_force_round_trip {s t : ForceType} (h : OppositeForce s t) (x : ℝ) (e : ℤ) (b : Bool) :
    convertForce (convertForce x s e b) t e b = x := by
  cases h <;> exact convert_inverse (by norm_num) x e b

/-- C32 for lengths. -/
theorem C32_length_round_trip {s t : LengthType} (h : OppositeLength s t) (x : ℝ) (e : ℤ) (b : Bool) :
    convertLength (convertLength x s e b) t e b = x := by
  cases h <;> exact convert_inverse (by norm_num) x e b

/-- C32 for stresses. -/
theorem C32_stress_round_trip {s t : StressType} (h : OppositeStress s t) (x : ℝ) (e : ℤ) (b : Bool) :
    convertStress (convertStress x s e b) t e b = x := by
  cases h <;> exact convert_inverse (by norm_num) x e b

/-- C32: every length conversion scales; a denominator converts by the reciprocal factor, and exponents
multiply factors.  `f` is the factor of the unit with exponent one. -/
theorem C32_length_scaling (t : LengthType) (ht : t ≠ .null) :
    ∃ f : ℝ, 0 < f ∧ ∀ (x : ℝ) (e : ℤ),
      convertLength x t e true = x * f ^ e ∧ convertLength x t e false = x / f ^ e := by
  have key : ∀ f : ℝ, ∀ (x : ℝ) (e : ℤ), convert x f e true = x * f ^ e ∧
      convert x f e false = x / f ^ e := by
    intro f x e; unfold convert; constructor <;> simp [div_eq_mul_inv]
  cases t
  case null => exact absurd rfl ht
  all_goals exact ⟨_, by norm_num, key _⟩

/-- C32: the same for stresses. -/
theorem C32_stress_scaling (t : StressType) (ht : t ≠ .null) :
    ∃ f : ℝ, 0 < f ∧ ∀ (x : ℝ) (e : ℤ),
      convertStress x t e true = x * f ^ e ∧ convertStress x t e false = x / f ^ e := by
  have key : ∀ f : ℝ, ∀ (x : ℝ) (e : ℤ), convert x f e true = x * f ^ e ∧
      convert x f e false = x / f ^ e := by
    intro f x e; unfold convert; constructor <;> simp [div_eq_mul_inv]
  cases t
  case null => exact absurd rfl ht
  all_goals exact ⟨_, by norm_num, key _⟩

example : convertLength 3 .feetToInches = 36 ∧ convertLength 36 .inchesToFeet = 3 ∧
    convertStress 1 .psiToPsf 1 false = 1 / 144 ∧ convertLength 1 .feetToInches 2 = 144 := by
  norm_num [convertLength, convertStress, convert]

/-- Opposite temperature conversions. -/
inductive OppositeTemperature : TemperatureType → TemperatureType → Prop
  | cf : OppositeTemperature .celsiusToFahrenheit .fahrenheitToCelsius
  | fc : OppositeTemperature .fahrenheitToCelsius .celsiusToFahrenheit
  | ck : OppositeTemperature .celsiusToKelvin .kelvinToCelsius
  | kc : OppositeTemperature .kelvinToCelsius .celsiusToKelvin
  | fr : OppositeTemperature .fahrenheitToRankine .rankineToFahrenheit
  | rf : OppositeTemperature .rankineToFahrenheit .fahrenheitToRankine
  | kr : OppositeTemperature .kelvinToRankine .rankineToKelvin
  | rk : OppositeTemperature .rankineToKelvin .kelvinToRankine

/-- C33: there and back returns the value, for every exponent and flag. -/
theorem C33_temperature_round_trip {s t : TemperatureType} (h : OppositeTemperature s t) (x : ℝ) (e : ℤ)
    (b : Bool) : convertTemperature (convertTemperature x s e b) t e b = x := by
  cases h
  case cf =>
    simp only [convertTemperature, add_neg_cancel_right]
    exact convert_inverse (by norm_num) x e b
  case fc =>
    simp only [convertTemperature]
    rw [convert_inverse (by norm_num)]; ring
  case kr => exact convert_inverse (by norm_num) x e b
  case rk => exact convert_inverse (by norm_num) x e b
  all_goals simp [convertTemperature]

/-- C33 is false for routes with an exponent or in the denominator: going from Celsius to Fahrenheit
directly and via Kelvin and Rankine differ. -/
theorem C33_route_depends_on_exponent :
    (∃ x : ℝ, convertTemperature x .celsiusToFahrenheit 2 true ≠
      convertTemperature (convertTemperature (convertTemperature x .celsiusToKelvin 2 true)
        .kelvinToRankine 2 true) .rankineToFahrenheit 2 true) ∧
    (∃ x : ℝ, convertTemperature x .celsiusToFahrenheit 1 false ≠
      convertTemperature (convertTemperature (convertTemperature x .celsiusToKelvin 1 false)
        .kelvinToRankine 1 false) .rankineToFahrenheit 1 false) := by
  constructor <;> refine ⟨0, ?_⟩ <;> norm_num [convertTemperature, convert]

/-- The temperature scales. -/
inductive Scale where
  | celsius | fahrenheit | kelvin | rankine

/-- Degrees Celsius of a reading (independent specification of the scales). -/
noncomputable def toCelsius : Scale → ℝ → ℝ
  | .celsius, x => x
  | .fahrenheit, x => (x - 32) * 5 / 9
  | .kelvin, x => x - 273.15
  | .rankine, x => (x - 491.67) * 5 / 9

/-- Source and target scale of a conversion. -/
def scales : TemperatureType → Option (Scale × Scale)
  | .null => none
  | .celsiusToFahrenheit => some (.celsius, .fahrenheit)
  | .celsiusToKelvin => some (.celsius, .kelvin)
  | .fahrenheitToCelsius => some (.fahrenheit, .celsius)
  | .fahrenheitToRankine => some (.fahrenheit, .rankine)
  | .kelvinToCelsius => some (.kelvin, .celsius)
  | .kelvinToRankine => some (.kelvin, .rankine)
  | .rankineToFahrenheit => some (.rankine, .fahrenheit)
  | .rankineToKelvin => some (.rankine, .kelvin)

/-- A route is a list of conversions, each starting on the scale where the previous one ended. -/
inductive Route : Scale → Scale → List TemperatureType → Prop
  | nil (a : Scale) : Route a a []
  | cons {a b c : Scale} {t : TemperatureType} {ts : List TemperatureType} (h : scales t = some (a, b))
      (r : Route b c ts) : Route a c (t :: ts)

/-- Converting along a route. -/
noncomputable def along (ts : List TemperatureType) (x : ℝ) : ℝ :=
  ts.foldl (fun y t => convertTemperature y t) x

/-- C33, what holds: with the default exponent and flag, converting along any route gives the reading of
the same temperature on the target scale, so all routes agree.  Missing: other exponents and the
denominator flag, for which it is false. -/
theorem C33_routes_agree_partial {a b : Scale} {ts : List TemperatureType} (r : Route a b ts) (x : ℝ) :
    toCelsius b (along ts x) = toCelsius a x := by
  induction r generalizing x with
  | nil a => rfl
  | @cons a b c t ts h r ih =>
    have : toCelsius b (convertTemperature x t) = toCelsius a x := by
      cases t <;> simp only [scales, Option.some.injEq, Prod.mk.injEq, reduceCtorEq] at h <;>
        obtain ⟨rfl, rfl⟩ := h <;>
        simp only [toCelsius, convertTemperature, convert, Bool.true_eq_false, if_false, zpow_one] <;>
        ring
    rw [← this]
    exact ih _

/-- C33: two routes between the same scales give the same number. -/
theorem C33_routes_equal_partial {a b : Scale} {ts ts' : List TemperatureType} (r : Route a b ts)
    (r' : Route a b ts') (x : ℝ) : along ts x = along ts' x := by
  have h : toCelsius b (along ts x) = toCelsius b (along ts' x) := by
    rw [C33_routes_agree_partial r, C33_routes_agree_partial r']
  cases b <;> simp only [toCelsius] at h <;> linarith

example : Route .celsius .fahrenheit [.celsiusToFahrenheit] ∧
    Route .celsius .fahrenheit [.celsiusToKelvin, .kelvinToRankine, .rankineToFahrenheit] ∧
    along [.celsiusToFahrenheit] 100 = 212 :=
  ⟨.cons rfl (.nil _), .cons rfl (.cons rfl (.cons rfl (.nil _))), by
    norm_num [along, convertTemperature, convert]⟩

end Verif.Props
