import Mathlib.Analysis.SpecialFunctions.Trigonometric.Arctan
import Verif.Units

/-!
# Model of `base/vector.cc`

Real arithmetic stands for `double`; `std::atan`, `std::cos`, `std::sin` and `sqrt` are the exact
functions.  The conversion constant `kPi` is the truncated literal of the source.
-/

namespace Verif

open Verif.Units

/-- `Vector2d`, `include/models/base/vector.h` (members `x_`, `y_`). -/
@[ext] structure V2 where
  x : ℝ
  y : ℝ

/-- `Vector3d`, `include/models/base/vector.h` (members `x_`, `y_`, `z_`). -/
@[ext] structure V3 where
  x : ℝ
  y : ℝ
  z : ℝ

/-- Radians to degrees as used in `vector.cc`: `ConvertAngle` with default exponent and flag. -/
noncomputable def toDegrees (r : ℝ) : ℝ := convertAngle r .radiansToDegrees

/-- Degrees to radians as used in `vector.cc`. -/
noncomputable def toRadians (d : ℝ) : ℝ := convertAngle d .degreesToRadians

namespace V2

open Classical in
/-- `Vector2d::Angle`, `base/vector.cc` L24-86. -/
noncomputable def angle (v : V2) (isEnabledNegativeAngles : Bool := false) : ℝ :=
  if v.x = 0 ∧ v.y = 0 then -999999            -- L42, L52
  else
    let angle :=
      if v.x = 0 ∨ v.y = 0 then
        if v.x = 0 then
          if 0 < v.y then toDegrees (kPi / 2) else toDegrees (3 * (kPi / 2))
        else if 0 < v.x then 0 else toDegrees (2 * (kPi / 2))
      else if 0 ≤ v.y then
        if 0 ≤ v.x then toDegrees (Real.arctan (v.y / v.x))
        else 180 - toDegrees |Real.arctan (v.y / v.x)|
      else
        if v.x ≤ 0 then 180 + toDegrees |Real.arctan (v.y / v.x)|
        else 360 - toDegrees |Real.arctan (v.y / v.x)|
    if 180 < angle ∧ isEnabledNegativeAngles = true then angle - 360 else angle

/-- `Vector2d::Magnitude`, `base/vector.cc` L88-90. -/
noncomputable def magnitude (v : V2) : ℝ := Real.sqrt (v.x ^ 2 + v.y ^ 2)

open Classical in
/-- `Vector2d::Rotate`, `base/vector.cc` L95-113. -/
noncomputable def rotate (v : V2) (angleRotation : ℝ) : V2 :=
  if |angleRotation| < 0.00005 then v
  else
    let angleNew := v.angle + angleRotation
    let angleRadians := toRadians angleNew
    ⟨v.magnitude * Real.cos angleRadians, v.magnitude * Real.sin angleRadians⟩

/-- `Vector2d::Scale`, `base/vector.cc` L115-118. -/
noncomputable def scale (v : V2) (f : ℝ) : V2 := ⟨v.x * f, v.y * f⟩

end V2

/-- `Plane2dType`, `include/models/base/vector.h` L10-18. -/
inductive Plane where
  | null | xy | xz | yx | yz | zx | zy
  deriving DecidableEq

namespace V3

/-- Planar components, `base/vector.cc` L159-179 and L201-221 (`kNull` has none). -/
def planar (v : V3) : Plane → Option V2
  | .null => none
  | .xy => some ⟨v.x, v.y⟩
  | .xz => some ⟨v.x, v.z⟩
  | .yx => some ⟨v.y, v.x⟩
  | .yz => some ⟨v.y, v.z⟩
  | .zx => some ⟨v.z, v.x⟩
  | .zy => some ⟨v.z, v.y⟩

/-- Assigning planar components back, `base/vector.cc` L227-247. -/
def setPlanar (v : V3) (w : V2) : Plane → V3
  | .null => v
  | .xy => ⟨w.x, w.y, v.z⟩
  | .xz => ⟨w.x, v.y, w.y⟩
  | .yx => ⟨w.y, w.x, v.z⟩
  | .yz => ⟨v.x, w.x, w.y⟩
  | .zx => ⟨w.y, v.y, w.x⟩
  | .zy => ⟨v.x, w.y, w.x⟩

/-- `Vector3d::Angle`, `base/vector.cc` L153-182. -/
noncomputable def angle (v : V3) (plane : Plane) (neg : Bool := false) : ℝ :=
  match v.planar plane with
  | none => -999999
  | some w => w.angle neg

/-- `Vector3d::Magnitude`, `base/vector.cc` L184-186. -/
noncomputable def magnitude (v : V3) : ℝ := Real.sqrt (v.x ^ 2 + v.y ^ 2 + v.z ^ 2)

open Classical in
/-- `Vector3d::Rotate`, `base/vector.cc` L191-248. -/
noncomputable def rotate (v : V3) (plane : Plane) (angleRotation : ℝ) : V3 :=
  if |angleRotation| < 0.00005 then v
  else match v.planar plane with
    | none => v
    | some w => v.setPlanar (w.rotate angleRotation) plane

/-- `Vector3d::Scale`, `base/vector.cc` L251-255. -/
noncomputable def scale (v : V3) (f : ℝ) : V3 := ⟨v.x * f, v.y * f, v.z * f⟩

end V3

end Verif
