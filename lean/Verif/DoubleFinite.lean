import Verif.DoubleSpatial

/-!
# Overflow

Functions of `Verif/DoubleBase.lean` and `Verif/DoubleCatenary.lean` once more, with a
largest number: a result is `none` as soon as some operation on the way has a result that a `double` cannot hold (an
infinity, or NaN because of a division by zero or a root of a negative number).  Simplifications: results that exceed
the largest number by less than half a unit in the last place count as too large, though they are rounded down to it;
operations that turn infinities into numbers again (`1 / inf` is 0) stay `none`.
-/

namespace Verif.Double

/-- The largest `double`. -/
noncomputable def largest : ℝ := (2 ^ 53 - 1) * 2 ^ (971 : ℤ)

open Classical in
/-- The result of an operation with the exact value `x`. -/
noncomputable def chk (x : ℝ) : Option ℝ := if |x| ≤ largest then some (rnd x) else none

open Classical in
/-- A quotient. -/
noncomputable def chkDiv (x y : ℝ) : Option ℝ := if y = 0 then none else chk (x / y)

open Classical in
/-- A square root. -/
noncomputable def chkSqrt (x : ℝ) : Option ℝ := if x < 0 then none else chk √x

open Classical in
/-- The result `r` of a library function with the exact value `x`. -/
noncomputable def chkLib (x r : ℝ) : Option ℝ := if |x| ≤ largest then some r else none

namespace Finite

/-! ## Units and vectors -/

open Classical in
/-- `std::pow` with an integral exponent; a negative power of zero is an infinity. -/
noncomputable def pow (L : Library) (x : ℝ) (n : ℤ) : Option ℝ :=
  if x = 0 ∧ n < 0 then none else chkLib (x ^ n) (L.pow x n)

/-- `units::Convert`, `base/units.cc` L64-78. -/
noncomputable def convert (L : Library) (value factor : ℝ) (exponent : ℤ) (isNumerator : Bool) : Option ℝ :=
  (pow L factor exponent).bind fun factorAdj =>
  (if isNumerator = false then chkDiv 1 factorAdj else some factorAdj).bind fun factorAdj =>
  chk (value * factorAdj)

/-- `Vector2d::Magnitude`, `base/vector.cc` L88-90. -/
noncomputable def magnitude (L : Library) (v : V2) : Option ℝ :=
  (pow L v.x 2).bind fun a => (pow L v.y 2).bind fun b => (chk (a + b)).bind chkSqrt

/-- `Vector3d::Magnitude`, `base/vector.cc` L184-186. -/
noncomputable def magnitude3 (L : Library) (v : V3) : Option ℝ :=
  (pow L v.x 2).bind fun a => (pow L v.y 2).bind fun b => (chk (a + b)).bind fun c =>
  (pow L v.z 2).bind fun d => (chk (c + d)).bind chkSqrt

/-- Degrees to radians, `ConvertAngle` L80-91. -/
noncomputable def toRadians (L : Library) (a : ℝ) : Option ℝ :=
  convert L a (rnd (rnd 3.14159265358979 / 180)) 1 true

/-- Radians to degrees, `ConvertAngle` L80-91. -/
noncomputable def toDegrees (L : Library) (a : ℝ) : Option ℝ :=
  convert L a (rnd (180 / rnd 3.14159265358979)) 1 true

open Classical in
/-- `Vector2d::Angle` with negative angles, `base/vector.cc` L24-86, for a vector that points to the right. -/
noncomputable def angleRight (L : Library) (v : V2) : Option ℝ :=
  if v.y = 0 then some 0
  else
    (chkDiv v.y v.x).bind fun q =>
    (chkLib (Real.arctan q) (L.atan q)).bind fun a =>
    (if 0 ≤ v.y then toDegrees L a
      else (toDegrees L |a|).bind fun d => chk (360 - d)).bind fun d =>
    if 180 < d then chk (d - 360) else some d

/-! ## Planar catenaries -/

variable (L : CurveLibrary)

/-- `h / w`. -/
noncomputable def constant (k : Catenary2d) : Option ℝ := chkDiv k.tensionHorizontal k.weightUnit

/-- `CoordinateY`, `catenary.cc` L409-414. -/
noncomputable def coordinateY (k : Catenary2d) (x : ℝ) : Option ℝ :=
  (constant k).bind fun c => (chkDiv x c).bind fun t => (chkLib (Real.cosh t) (L.cosh t)).bind fun y =>
  (chk (y - 1)).bind fun y => chk (c * y)

/-- `LengthFromOrigin`, `catenary.cc` L420-425. -/
noncomputable def lengthFromOrigin (k : Catenary2d) (x : ℝ) : Option ℝ :=
  (constant k).bind fun c => (chkDiv x c).bind fun t => (chkLib (Real.sinh t) (L.sinh t)).bind fun y => chk (c * y)

/-- `CoordinateX`, `catenary.cc` L392-407. -/
noncomputable def coordinateX (k : Catenary2d) (p : ℝ) : Option ℝ :=
  (constant k).bind fun c => (chk (p * k.length)).bind fun l => (chk (l + k.lengthLeft)).bind fun l =>
  (chkDiv l c).bind fun t => (chkLib (Real.arsinh t) (L.asinh t)).bind fun y => chk (c * y)

/-- `ConvertToPositionFraction`, `catenary.cc` L381-390. -/
noncomputable def convertToPositionFraction (k : Catenary2d) (x : ℝ) : Option ℝ :=
  (lengthFromOrigin L k x).bind fun l => (chk (l - k.lengthLeft)).bind fun l => chkDiv l k.length

/-- `UpdateEndPoints`, `catenary.cc` L444-460. -/
noncomputable def updateEndPoints (k : Catenary2d) : Option Catenary2d :=
  (constant k).bind fun c => (chk (k.spacing.x / 2)).bind fun h => (chkDiv h c).bind fun z =>
  (chkLib (Real.sinh z) (L.sinh z)).bind fun sz => (chk (k.spacing.x * sz)).bind fun d =>
  (chk (k.spacing.y * z)).bind fun n => (chkDiv n d).bind fun t =>
  (chkLib (Real.arsinh t) (L.asinh t)).bind fun s =>
  (chk (s - z)).bind fun vl => (chk (c * vl)).bind fun xl =>
  (chk (s + z)).bind fun vr => (chk (c * vr)).bind fun xr =>
  (coordinateY L k xl).bind fun yl => (coordinateY L k xr).bind fun yr =>
  some { k with left := ⟨xl, yl⟩, right := ⟨xr, yr⟩ }

/-- `UpdateLengths`, `catenary.cc` L462-470. -/
noncomputable def updateLengths (k : Catenary2d) : Option Catenary2d :=
  (lengthFromOrigin L k k.left.x).bind fun l => (lengthFromOrigin L k k.right.x).bind fun r =>
  (chk (r - l)).bind fun d => some { k with lengthLeft := l, length := d }

/-- `Update`, `catenary.cc` L427-442. -/
noncomputable def update (k : Catenary2d) : Option Catenary2d :=
  (updateEndPoints L k).bind fun k => (updateLengths L k).bind fun k => some { k with isUpdated := true }

/-- `Coordinate` without shifting, `catenary.cc` L39-41. -/
noncomputable def coordinate (k : Catenary2d) (p : ℝ) : Option V2 :=
  (coordinateX L k p).bind fun x => (coordinateY L k x).bind fun y => some ⟨x, y⟩

/-- `CoordinateChord` without shifting, `catenary.cc` L60-67. -/
noncomputable def coordinateChord (k : Catenary2d) (p : ℝ) : Option V2 :=
  (coordinate L k p).bind fun q => (chkDiv k.spacing.y k.spacing.x).bind fun slope =>
  (chk (q.x - k.left.x)).bind fun dx => (chk (dx * slope)).bind fun dy => (chk (k.left.y + dy)).bind fun y => some ⟨q.x, y⟩

/-- `PositionFraction`, `catenary.cc` L102-114. -/
noncomputable def positionFraction (k : Catenary2d) (angle : ℝ) : Option ℝ :=
  (toRadians L.toLibrary angle).bind fun a => (chkLib (Real.tan a) (L.tan a)).bind fun slope =>
  (constant k).bind fun c => (chkLib (Real.arsinh slope) (L.asinh slope)).bind fun t => (chk (c * t)).bind fun x =>
  convertToPositionFraction L k x

/-- `PositionFractionSagPoint`, `catenary.cc` L126-135. -/
noncomputable def positionFractionSagPoint (k : Catenary2d) : Option ℝ :=
  (angleRight L.toLibrary k.spacing).bind (positionFraction L k)

/-- `Sag(position)`, `catenary.cc` L149-158. -/
noncomputable def sagAt (k : Catenary2d) (p : ℝ) : Option ℝ :=
  (coordinateChord L k p).bind fun a => (coordinate L k p).bind fun b => chk (a.y - b.y)

/-- `Sag()`, `catenary.cc` L137-147. -/
noncomputable def sag (k : Catenary2d) : Option ℝ := (positionFractionSagPoint L k).bind (sagAt L k)

/-- `Tension(position)`, `catenary.cc` L216-220. -/
noncomputable def tension (k : Catenary2d) (p : ℝ) : Option ℝ :=
  (coordinateX L k p).bind fun x => (constant k).bind fun c => (chkDiv x c).bind fun t =>
  (chkLib (Real.cosh t) (L.cosh t)).bind fun y => chk (k.tensionHorizontal * y)

/-- `LengthSlack`, `catenary.cc` L89-95. -/
noncomputable def lengthSlack (k : Catenary2d) : Option ℝ :=
  (magnitude L.toLibrary k.spacing).bind fun m => chk (k.length - m)

end Finite

namespace Curve

variable (L : CurveLibrary)

/-- `Validate`, `catenary.cc` L293-349 and L472-495: the parameters are accepted.  The least constant is half of the
distance of the supports, L27-29. -/
def Accepted (k : Catenary2d) : Prop :=
  0 < k.tensionHorizontal ∧ 0 < k.weightUnit ∧ 0 < k.spacing.x ∧ |k.spacing.y| < 2000 ∧
  rnd (Double.magnitude L.toLibrary k.spacing / 2) ≤ constant k

end Curve

end Verif.Double
