import Verif.DoubleBase
import Verif.Solar

/-!
# Model of the position of the sun, `thermalrating/solar_radiation_solver.cc`, in `double` arithmetic

The functions of `Verif/Solar.lean` again, with the result of every operation rounded; decimal literals are rounded
too.  The functions of the C library are assumed to be faithful only; that the cosine keeps the symmetry of the exact one
is a separate assumption.  `none` stands for a NaN.  Not modelled again: the polynomials for the radiation, caching.
Simplification: a difference of zero counts as `+0`, and `atan` of an infinity is half of pi, rounded.
-/

namespace Verif.Double

open Verif.Units

/-- A C library with the functions that the position of the sun needs. -/
structure SunLibrary extends Library where
  sin : ℝ → ℝ
  cos : ℝ → ℝ
  tan : ℝ → ℝ
  asin : ℝ → ℝ
  acos : ℝ → ℝ
  sin_faithful : ∀ x, IsDouble x → Faithful (sin x) (Real.sin x)
  cos_faithful : ∀ x, IsDouble x → Faithful (cos x) (Real.cos x)
  tan_faithful : ∀ x, IsDouble x → Faithful (tan x) (Real.tan x)
  asin_faithful : ∀ x, IsDouble x → |x| ≤ 1 → Faithful (asin x) (Real.arcsin x)
  acos_faithful : ∀ x, IsDouble x → |x| ≤ 1 → Faithful (acos x) (Real.arccos x)

/-- The cosine is symmetric. -/
def SunLibrary.Even (L : SunLibrary) : Prop := ∀ x, IsDouble x → L.cos (-x) = L.cos x

namespace Sun

variable (L : SunLibrary)

/-- Degrees to radians: `ConvertAngle` with default exponent and flag. -/
noncomputable def toRadians (x : ℝ) : ℝ := convertAngle L.toLibrary x .degreesToRadians

open Classical in
/-- `std::asin`; a NaN outside of `[-1, 1]`. -/
noncomputable def asin (x : ℝ) : Option ℝ := if -1 ≤ x ∧ x ≤ 1 then some (L.asin x) else none

open Classical in
/-- `std::acos`; a NaN outside of `[-1, 1]`. -/
noncomputable def acos (x : ℝ) : Option ℝ := if -1 ≤ x ∧ x ≤ 1 then some (L.acos x) else none

/-- `Declination`, `solar_radiation_solver.cc` L238-247, in degrees. -/
noncomputable def declination (day : Int) : ℝ :=
  rnd (rnd 23.46 * L.sin (toRadians L (rnd (rnd (((284 + day : Int) : ℝ) / 365) * 360))))

/-- The argument of the arc sine in `SolveAltitudeSolar`, L272-276. -/
noncomputable def altitudeSine (latitude declination angleHour : ℝ) : ℝ :=
  let term1 := rnd (rnd (L.cos (toRadians L latitude) * L.cos (toRadians L declination)) * L.cos (toRadians L angleHour))
  let term2 := rnd (L.sin (toRadians L latitude) * L.sin (toRadians L declination))
  rnd (term1 + term2)

/-- `SolveAltitudeSolar`, L258-283, in degrees. -/
noncomputable def altitude (latitude declination angleHour : ℝ) : Option ℝ :=
  (asin L (altitudeSine L latitude declination angleHour)).map (toDegrees L.toLibrary)

open Classical in
/-- `chi < 0` and `atan(chi)` of a quotient `chi`, L303-327. -/
noncomputable def chi (numerator denominator : ℝ) : Option (Bool × ℝ) :=
  if denominator = 0 then
    if numerator < 0 then some (true, -rnd (Real.pi / 2))
    else if 0 < numerator then some (false, rnd (Real.pi / 2))
    else none
  else some (decide (rnd (numerator / denominator) < 0), L.atan (rnd (numerator / denominator)))

/-- `SolveAzimuthSolar`, L285-331, in degrees. -/
noncomputable def azimuth (latitude declination : ℝ) (angleHour : Int) : Option ℝ :=
  let term1 := L.sin (toRadians L angleHour)
  let term2 := rnd (L.sin (toRadians L latitude) * L.cos (toRadians L angleHour))
  let term3 := rnd (L.cos (toRadians L latitude) * L.tan (toRadians L declination))
  (chi L term1 (rnd (term2 - term3))).map fun c =>
    rnd ((if angleHour < 0 then (if c.1 = true then 180 else 0) else (if c.1 = true then 360 else 180)) +
      toDegrees L.toLibrary c.2)

/-- `AngleIncidence`, L213-236, in degrees. -/
noncomputable def incidence (altitude azimuth azimuthCable : ℝ) : Option ℝ :=
  (acos L (rnd (L.cos (toRadians L altitude) *
    L.cos (rnd (toRadians L azimuth - toRadians L azimuthCable))))).map (toDegrees L.toLibrary)

end Sun

end Verif.Double
