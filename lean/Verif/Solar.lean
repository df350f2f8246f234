import Verif.Thermal
import Verif.Polynomial
import Mathlib.Analysis.SpecialFunctions.Trigonometric.Inverse

/-!
# Model of `thermalrating/solar_radiation_solver.cc`

Exact real arithmetic.  `none` as a number stands for a NaN.  The coefficient vectors are filled by every update
before they are used, so they are functions here.  The overflow of `(hour - 12) * 15` for huge hours
and of `284 + day` for huge days is not modelled.
-/

namespace Verif

open Verif.Units

/-- `AtmosphereQualityType`, `include/models/thermalrating/solar_radiation_solver.h`. -/
inductive Atmosphere where
  | null | clear | industrial
  deriving DecidableEq

namespace Sun

/-- `std::asin`; a NaN outside of `[-1, 1]`. -/
noncomputable def asin (x : ℝ) : Option ℝ := if -1 ≤ x ∧ x ≤ 1 then some (Real.arcsin x) else none

/-- `std::acos`; a NaN outside of `[-1, 1]`. -/
noncomputable def acos (x : ℝ) : Option ℝ := if -1 ≤ x ∧ x ≤ 1 then some (Real.arccos x) else none

/-- `AngleHour`, `solar_radiation_solver.cc` L209-211. -/
def angleHour (hour : Int) : Int := (hour - 12) * 15

/-- `Declination`, L238-247, in degrees. -/
noncomputable def declination (day : Int) : ℝ :=
  23.46 * Real.sin (toRadians (((284 + day : Int) : ℝ) / 365 * 360))

/-- `SolveAltitudeSolar`, L258-283, in degrees. -/
noncomputable def altitude (latitude declination angleHour : ℝ) : Option ℝ :=
  let term1 := Real.cos (toRadians latitude) * Real.cos (toRadians declination) * Real.cos (toRadians angleHour)
  let term2 := Real.sin (toRadians latitude) * Real.sin (toRadians declination)
  (asin (term1 + term2)).map toDegrees

/-- `chi < 0` and `atan(chi)` of a quotient `chi`, L303-327.  An exact difference of zero is `+0`, so the quotient is an
infinity of the sign of the numerator, or a NaN. -/
noncomputable def chi (numerator denominator : ℝ) : Option (Bool × ℝ) :=
  if denominator = 0 then
    if numerator < 0 then some (true, -(Real.pi / 2))
    else if 0 < numerator then some (false, Real.pi / 2)
    else none
  else some (decide (numerator / denominator < 0), Real.arctan (numerator / denominator))

/-- `SolveAzimuthSolar`, L285-331, in degrees (the comparison of a NaN with 0 is false, and the azimuth a NaN). -/
noncomputable def azimuth (latitude declination : ℝ) (angleHour : Int) : Option ℝ :=
  let term1 := Real.sin (toRadians angleHour)
  let term2 := Real.sin (toRadians latitude) * Real.cos (toRadians angleHour)
  let term3 := Real.cos (toRadians latitude) * Real.tan (toRadians declination)
  (chi term1 (term2 - term3)).map fun c =>
    (if angleHour < 0 then (if c.1 = true then 180 else 0) else (if c.1 = true then 360 else 180)) + toDegrees c.2

/-- `AngleIncidence`, L213-236, in degrees. -/
noncomputable def incidence (altitude azimuth azimuthCable : ℝ) : Option ℝ :=
  (acos (Real.cos (toRadians altitude) * Real.cos (toRadians azimuth - toRadians azimuthCable))).map toDegrees

/-- `coefficients_atmosphere_`, L381-436. -/
noncomputable def atmosphere : UnitSystem → Atmosphere → Option (List ℝ)
  | .imperial, .clear => some [-3.9241, 5.9276, -1.7856 * 10 ^ (-1 : ℤ), 3.223 * 10 ^ (-3 : ℤ),
      -3.3549 * 10 ^ (-5 : ℤ), 1.8053 * 10 ^ (-7 : ℤ), -3.7868 * 10 ^ (-10 : ℤ)]
  | .imperial, .industrial => some [4.9408, 1.3202, 6.1444 * 10 ^ (-2 : ℤ), -2.9411 * 10 ^ (-3 : ℤ),
      5.07752 * 10 ^ (-5 : ℤ), -4.03627 * 10 ^ (-7 : ℤ), 1.22967 * 10 ^ (-9 : ℤ)]
  | .metric, .clear => some [-42.2391, 63.8044, -1.9220, 3.46921 * 10 ^ (-2 : ℤ),
      -3.61118 * 10 ^ (-4 : ℤ), 1.94318 * 10 ^ (-6 : ℤ), -4.07608 * 10 ^ (-9 : ℤ)]
  | .metric, .industrial => some [53.1821, 14.2110, 6.6138 * 10 ^ (-1 : ℤ), -3.1658 * 10 ^ (-2 : ℤ),
      5.4654 * 10 ^ (-4 : ℤ), -4.3446 * 10 ^ (-6 : ℤ), 1.3236 * 10 ^ (-8 : ℤ)]
  | _, _ => none

/-- `coefficients_elevation_`, L404-406 and L430-432. -/
noncomputable def elevation : UnitSystem → List ℝ
  | .imperial => [1, 3.500 * 10 ^ (-5 : ℤ), -1.000 * 10 ^ (-9 : ℤ)]
  | .metric => [1, 1.148 * 10 ^ (-4 : ℤ), -1.108 * 10 ^ (-8 : ℤ)]
  | .null => [0, 0, 0]

/-- `SolveRadiation`, L333-353, given the coefficients and the position of the sun. -/
noncomputable def radiation (cs : List ℝ) (u : UnitSystem) (elevationSite altitude azimuth azimuthCable : ℝ) :
    Option ℝ :=
  (incidence altitude azimuth azimuthCable).map fun a =>
    Poly.evalY cs altitude * Real.sin (toRadians a) * Poly.evalY (elevation u) elevationSite

end Sun

/-- `SolarRadiationSolver`, `include/models/thermalrating/solar_radiation_solver.h`. -/
structure SolarSolver where
  azimuthCable : ℝ
  day : Int
  elevation : ℝ
  hour : Int
  latitude : ℝ
  quality : Atmosphere
  units : UnitSystem
  altitudeSun : Option ℝ
  azimuthSun : Option ℝ
  radiation : Option ℝ
  isUpdated : Bool

namespace SolarSolver

/-- Constructor, `solar_radiation_solver.cc` L10-26. -/
noncomputable def new : SolarSolver :=
  ⟨-999999, -9999, -999999, -9999, -999999, .null, .null, some (-999999), some (-999999), some (-999999), false⟩

/-- `set_azimuth_cable`, L169-172. -/
def setAzimuthCable (s : SolarSolver) (x : ℝ) : SolarSolver := { s with azimuthCable := x, isUpdated := false }
/-- `set_day`, L174-177. -/
def setDay (s : SolarSolver) (x : Int) : SolarSolver := { s with day := x, isUpdated := false }
/-- `set_elevation`, L179-182. -/
def setElevation (s : SolarSolver) (x : ℝ) : SolarSolver := { s with elevation := x, isUpdated := false }
/-- `set_hour`, L184-187. -/
def setHour (s : SolarSolver) (x : Int) : SolarSolver := { s with hour := x, isUpdated := false }
/-- `set_latitude`, L189-192. -/
def setLatitude (s : SolarSolver) (x : ℝ) : SolarSolver := { s with latitude := x, isUpdated := false }
/-- `set_quality_atmosphere`, L194-198. -/
def setQuality (s : SolarSolver) (q : Atmosphere) : SolarSolver := { s with quality := q, isUpdated := false }
/-- `set_units`, L200-203. -/
def setUnits (s : SolarSolver) (u : UnitSystem) : SolarSolver := { s with units := u, isUpdated := false }

/-- `Update`, L355-379, with `UpdatePolynomialCoefficients`, L381-439, and `UpdateSolarPosition`, L441-457. -/
noncomputable def update (s : SolarSolver) : SolarSolver × Bool :=
  if s.isUpdated = false then
    match Sun.atmosphere s.units s.quality with
    | none => ({ s with isUpdated := false }, false)
    | some cs =>
      let az := Sun.azimuth s.latitude (Sun.declination s.day) (Sun.angleHour s.hour)
      let alt := Sun.altitude s.latitude (Sun.declination s.day) (Sun.angleHour s.hour)
      ({ s with
          azimuthSun := az
          altitudeSun := alt
          radiation := alt.bind fun alt => az.bind fun az =>
            Sun.radiation cs s.units s.elevation alt az s.azimuthCable
          isUpdated := true }, true)
  else (s, true)

/-- The guard of the queries and the member read, L31-56. -/
noncomputable def ask (f : SolarSolver → Option ℝ) (s : SolarSolver) : SolarSolver × Option ℝ :=
  if s.isUpdated = false ∧ s.update.2 = false then (s.update.1, some (-999999)) else (s.update.1, f s.update.1)

/-- `AltitudeSun`, L31-38. -/
noncomputable def askAltitude : SolarSolver → SolarSolver × Option ℝ := ask altitudeSun
/-- `AzimuthSun`, L40-47. -/
noncomputable def askAzimuth : SolarSolver → SolarSolver × Option ℝ := ask azimuthSun
/-- `Radiation`, L49-56. -/
noncomputable def askRadiation : SolarSolver → SolarSolver × Option ℝ := ask radiation

/-- The inputs that `Validate` accepts, L65-126. -/
def InputsValid (s : SolarSolver) : Prop :=
  ¬ (s.azimuthCable < 0 ∨ 360 < s.azimuthCable) ∧ ¬ (s.day ≤ 0 ∨ 365 < s.day) ∧ ¬ s.elevation < 0 ∧
  ¬ (s.hour < 0 ∨ 24 ≤ s.hour) ∧ ¬ (s.latitude < -90 ∨ 90 < s.latitude) ∧ s.quality ≠ .null ∧ s.units ≠ .null

open Classical in
/-- `Validate`, L58-143, the flag. -/
noncomputable def validate (s : SolarSolver) : SolarSolver × Bool :=
  if s.InputsValid then s.update else (s, false)

/-- Calls on a solver. -/
inductive Call where
  | setAzimuthCable (x : ℝ)
  | setDay (x : Int)
  | setElevation (x : ℝ)
  | setHour (x : Int)
  | setLatitude (x : ℝ)
  | setQuality (q : Atmosphere)
  | setUnits (u : UnitSystem)
  | altitude
  | azimuth
  | radiation
  | validate

/-- The object after a call. -/
noncomputable def Call.next (s : SolarSolver) : Call → SolarSolver
  | .setAzimuthCable x => s.setAzimuthCable x
  | .setDay x => s.setDay x
  | .setElevation x => s.setElevation x
  | .setHour x => s.setHour x
  | .setLatitude x => s.setLatitude x
  | .setQuality q => s.setQuality q
  | .setUnits u => s.setUnits u
  | .altitude => s.askAltitude.1
  | .azimuth => s.askAzimuth.1
  | .radiation => s.askRadiation.1
  | .validate => s.validate.1

end SolarSolver

end Verif
