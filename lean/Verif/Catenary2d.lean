import Mathlib.Analysis.SpecialFunctions.Arsinh
import Verif.Vector

/-!
# Model of `Catenary2d` in `transmissionline/catenary.cc`

Real arithmetic stands for `double`, and `std::sinh`, `std::cosh`, `std::asinh`, `std::atan`, `std::tan`
are the exact functions.  Division by zero (a zero unit weight, spacing or length) gives 0 here and an
infinity or NaN in the code; the property theorems assume positive parameters.
-/

namespace Verif

/-- `AxisDirectionType`, `include/models/base/vector.h` L23-27. -/
inductive Direction where
  | null | negative | positive
  deriving DecidableEq

/-- `Catenary2d`: parameters, then the cached members. -/
structure Catenary2d where
  tensionHorizontal : ℝ
  weightUnit : ℝ
  spacing : V2
  isUpdated : Bool
  length : ℝ
  lengthLeft : ℝ
  left : V2
  right : V2

namespace Catenary2d

/-- Constructor, `catenary.cc` L10-18; vectors and points are -999999 in every component. -/
noncomputable def new : Catenary2d :=
  ⟨-999999, -999999, ⟨-999999, -999999⟩, true, -999999, -999999, ⟨-999999, -999999⟩, ⟨-999999, -999999⟩⟩

/-- `Constant`, `catenary.cc` L23-25. -/
noncomputable def constant (k : Catenary2d) : ℝ := k.tensionHorizontal / k.weightUnit

/-- `ConstantMinimum`, `catenary.cc` L27-29. -/
noncomputable def constantMinimum (spacing : ℝ) : ℝ := spacing / 2

/-! Setters, `catenary.cc` L351-367. -/

/-- `set_spacing_endpoints`, L351-355. -/
def setSpacing (k : Catenary2d) (v : V2) : Catenary2d := { k with spacing := v, isUpdated := false }

/-- `set_tension_horizontal`, L357-361. -/
def setTension (k : Catenary2d) (h : ℝ) : Catenary2d := { k with tensionHorizontal := h, isUpdated := false }

/-- `set_weight_unit`, L363-367. -/
def setWeight (k : Catenary2d) (w : ℝ) : Catenary2d := { k with weightUnit := w, isUpdated := false }

/-! Private helpers; the cached members are read as they are. -/

/-- `CoordinateY`, `catenary.cc` L409-414. -/
noncomputable def coordinateY (k : Catenary2d) (x : ℝ) : ℝ :=
  (k.tensionHorizontal / k.weightUnit) * (Real.cosh (x / (k.tensionHorizontal / k.weightUnit)) - 1)

/-- `LengthFromOrigin`, `catenary.cc` L420-425. -/
noncomputable def lengthFromOrigin (k : Catenary2d) (x : ℝ) : ℝ :=
  (k.tensionHorizontal / k.weightUnit) * Real.sinh (x / (k.tensionHorizontal / k.weightUnit))

/-- `CoordinateX`, `catenary.cc` L392-407. -/
noncomputable def coordinateX (k : Catenary2d) (p : ℝ) : ℝ :=
  let lengthFromOrigin := p * k.length + k.lengthLeft
  (k.tensionHorizontal / k.weightUnit) *
    Real.arsinh (lengthFromOrigin / (k.tensionHorizontal / k.weightUnit))

/-- `ConvertToPositionFraction`, `catenary.cc` L381-390. -/
noncomputable def convertToPositionFraction (k : Catenary2d) (x : ℝ) : ℝ :=
  (k.lengthFromOrigin x - k.lengthLeft) / k.length

/-- `UpdateEndPoints`, `catenary.cc` L444-460. -/
noncomputable def updateEndPoints (k : Catenary2d) : Catenary2d :=
  let c := k.tensionHorizontal / k.weightUnit
  let z := (k.spacing.x / 2) / c
  let xl := c * (Real.arsinh ((k.spacing.y * z) / (k.spacing.x * Real.sinh z)) - z)
  let xr := c * (Real.arsinh ((k.spacing.y * z) / (k.spacing.x * Real.sinh z)) + z)
  { k with left := ⟨xl, k.coordinateY xl⟩, right := ⟨xr, k.coordinateY xr⟩ }

/-- `UpdateLengths`, `catenary.cc` L462-470. -/
noncomputable def updateLengths (k : Catenary2d) : Catenary2d :=
  { k with
    lengthLeft := k.lengthFromOrigin k.left.x
    length := k.lengthFromOrigin k.right.x - k.lengthFromOrigin k.left.x }

/-- `Update`, `catenary.cc` L427-442 (always succeeds). -/
noncomputable def update (k : Catenary2d) : Catenary2d :=
  { k.updateEndPoints.updateLengths with isUpdated := true }

/-- The prologue `(IsUpdated() == false) && (Update() == false)` of the queries. -/
noncomputable def refresh (k : Catenary2d) : Catenary2d := if k.isUpdated = false then k.update else k

/-! Bodies of the queries, run on the refreshed object.  A query called from another query finds the
object refreshed. -/

/-- `Coordinate`, `catenary.cc` L39-49. -/
noncomputable def coordinateBody (k : Catenary2d) (p : ℝ) (shifted : Bool) : V2 :=
  let x := k.coordinateX p
  let y := k.coordinateY x
  if shifted = true then ⟨x - k.left.x, y - k.left.y⟩ else ⟨x, y⟩

/-- `CoordinateChord`, `catenary.cc` L60-76. -/
noncomputable def coordinateChordBody (k : Catenary2d) (p : ℝ) (shifted : Bool) : V2 :=
  let curve := k.coordinateBody p false
  let x := curve.x
  let y := k.left.y + (curve.x - k.left.x) * (k.spacing.y / k.spacing.x)
  if shifted = true then ⟨x - k.left.x, y - k.left.y⟩ else ⟨x, y⟩

/-- `PositionFraction`, `catenary.cc` L102-114. -/
noncomputable def positionFractionBody (k : Catenary2d) (angle : ℝ) : ℝ :=
  let slope := Real.tan (toRadians angle)
  let x := (k.tensionHorizontal / k.weightUnit) * Real.arsinh slope
  k.convertToPositionFraction x

/-- `PositionFractionSagPoint`, `catenary.cc` L126-135. -/
noncomputable def positionFractionSagPointBody (k : Catenary2d) : ℝ :=
  k.positionFractionBody (k.spacing.angle true)

/-- `Sag(position)`, `catenary.cc` L149-158. -/
noncomputable def sagBody (k : Catenary2d) (p : ℝ) : ℝ :=
  (k.coordinateChordBody p false).y - (k.coordinateBody p false).y

/-- `TangentAngle`, `catenary.cc` L166-182. -/
noncomputable def tangentAngleBody (k : Catenary2d) (p : ℝ) (d : Direction) : ℝ :=
  let x := k.coordinateX p
  let slope := Real.sinh (x / (k.tensionHorizontal / k.weightUnit))
  let angle := toDegrees (Real.arctan slope)
  if d = .negative then angle * -1 else angle

/-- `TangentVector`, `catenary.cc` L193-208; direction `kNull` leaves the default vector. -/
noncomputable def tangentVectorBody (k : Catenary2d) (p : ℝ) (d : Direction) : V2 :=
  let radians := toRadians (k.tangentAngleBody p d)
  match d with
  | .negative => ⟨-(1 * Real.cos radians), Real.sin radians⟩
  | .positive => ⟨Real.cos radians, Real.sin radians⟩
  | .null => ⟨-999999, -999999⟩

/-- `Tension(position)`, `catenary.cc` L216-220. -/
noncomputable def tensionBody (k : Catenary2d) (p : ℝ) : ℝ :=
  k.tensionHorizontal * Real.cosh (k.coordinateX p / (k.tensionHorizontal / k.weightUnit))

/-- `Tension(position, direction)`, `catenary.cc` L231-236. -/
noncomputable def tensionVectorBody (k : Catenary2d) (p : ℝ) (d : Direction) : V2 :=
  (k.tangentVectorBody p d).scale (k.tensionBody p)

/-- `TensionAverage`, `catenary.cc` L246-275. -/
noncomputable def tensionAverageBody (k : Catenary2d) (n : Int) : ℝ :=
  if n = 0 then
    let h := k.tensionHorizontal
    let w := k.weightUnit
    let k1 := h ^ 2 / (2 * w * k.length)
    let k2 := Real.sinh (k.right.x / (h / w)) * Real.cosh (k.right.x / (h / w))
    let k3 := Real.sinh (k.left.x / (h / w)) * Real.cosh (k.left.x / (h / w))
    let k4 := (k.right.x - k.left.x) / (h / w)
    k1 * (k2 - k3 + k4)
  else if 0 < n then
    -- the loop `iter = 0 .. n`
    ((List.range (n.toNat + 1)).map fun i : ℕ => k.tensionBody ((i : ℝ) / (n : ℝ))).sum / ((n : ℝ) + 1)
  else -999999

open Classical in
/-- `TensionMax`, `catenary.cc` L285-290. -/
noncomputable def tensionMaxBody (k : Catenary2d) : ℝ :=
  if k.spacing.y ≤ 0 then k.tensionBody 0 else k.tensionBody 1

/-! The queries. -/

/-- `Coordinate`, `catenary.cc` L31-50. -/
noncomputable def coordinate (k : Catenary2d) (p : ℝ) (shifted : Bool := false) : V2 :=
  k.refresh.coordinateBody p shifted

/-- `CoordinateChord`, `catenary.cc` L52-77. -/
noncomputable def coordinateChord (k : Catenary2d) (p : ℝ) (shifted : Bool := false) : V2 :=
  k.refresh.coordinateChordBody p shifted

/-- `Length`, `catenary.cc` L79-87. -/
noncomputable def lengthQ (k : Catenary2d) : ℝ := k.refresh.length

/-- `LengthSlack`, `catenary.cc` L89-95. -/
noncomputable def lengthSlack (k : Catenary2d) : ℝ := k.refresh.length - k.refresh.spacing.magnitude

/-- `PositionFraction`, `catenary.cc` L97-115. -/
noncomputable def positionFraction (k : Catenary2d) (angle : ℝ) : ℝ := k.refresh.positionFractionBody angle

/-- `PositionFractionOrigin`, `catenary.cc` L117-124. -/
noncomputable def positionFractionOrigin (k : Catenary2d) : ℝ := k.refresh.positionFractionBody 0

/-- `PositionFractionSagPoint`, `catenary.cc` L126-135. -/
noncomputable def positionFractionSagPoint (k : Catenary2d) : ℝ := k.refresh.positionFractionSagPointBody

/-- `Sag()`, `catenary.cc` L137-147. -/
noncomputable def sag (k : Catenary2d) : ℝ := k.refresh.sagBody k.refresh.positionFractionSagPointBody

/-- `Sag(position)`, `catenary.cc` L149-158. -/
noncomputable def sagAt (k : Catenary2d) (p : ℝ) : ℝ := k.refresh.sagBody p

/-- `TangentAngle`, `catenary.cc` L160-183. -/
noncomputable def tangentAngle (k : Catenary2d) (p : ℝ) (d : Direction) : ℝ := k.refresh.tangentAngleBody p d

/-- `TangentVector`, `catenary.cc` L185-209. -/
noncomputable def tangentVector (k : Catenary2d) (p : ℝ) (d : Direction) : V2 :=
  k.refresh.tangentVectorBody p d

/-- `Tension(position)`, `catenary.cc` L211-221. -/
noncomputable def tension (k : Catenary2d) (p : ℝ) : ℝ := k.refresh.tensionBody p

/-- `Tension(position, direction)`, `catenary.cc` L223-237. -/
noncomputable def tensionVector (k : Catenary2d) (p : ℝ) (d : Direction) : V2 :=
  k.refresh.tensionVectorBody p d

/-- `TensionAverage`, `catenary.cc` L239-276. -/
noncomputable def tensionAverage (k : Catenary2d) (n : Int := 0) : ℝ := k.refresh.tensionAverageBody n

/-- `TensionMax`, `catenary.cc` L278-291. -/
noncomputable def tensionMax (k : Catenary2d) : ℝ := k.refresh.tensionMaxBody

/-! Validation. -/

open Classical in
/-- `ValidateCurveAndSpacing`, `catenary.cc` L472-494. -/
noncomputable def validateCurveAndSpacing (k : Catenary2d) : Bool × List String :=
  if k.constant < constantMinimum k.spacing.magnitude then
    (false, ["Invalid H/w and endpoint spacing combination. The H/w must be increased for this spacing"])
  else (true, [])

open Classical in
/-- `Validate`, `catenary.cc` L293-349: returned flag and messages. -/
noncomputable def validate (k : Catenary2d) : Bool × List String :=
  let m1 := if k.tensionHorizontal ≤ 0 then ["Invalid horizontal tension"] else []
  let m2 := if k.weightUnit ≤ 0 then ["Invalid unit weight"] else []
  let m3 := if k.spacing.x ≤ 0 then ["Invalid horizontal endpoint spacing"] else []
  let m4 := if 10000 < |k.spacing.y| ∨ 2000 ≤ |k.spacing.y| then ["Invalid vertical endpoint spacing"] else []
  let m := m1 ++ m2 ++ m3 ++ m4
  if m.isEmpty = false then (false, m)
  else (k.validateCurveAndSpacing.1, m ++ k.validateCurveAndSpacing.2)

/-! Histories. -/

/-- Calls on a catenary: setters, and queries (all of which change the object by `refresh` only;
`Validate`, `Constant` and the accessors change nothing). -/
inductive Event where
  | setSpacing (v : V2)
  | setTension (h : ℝ)
  | setWeight (w : ℝ)
  | query

/-- State after a call. -/
noncomputable def Event.next (k : Catenary2d) : Event → Catenary2d
  | .setSpacing v => k.setSpacing v
  | .setTension h => k.setTension h
  | .setWeight w => k.setWeight w
  | .query => k.refresh

/-- The call is a setter. -/
def Event.isSetter : Event → Bool
  | .query => false
  | _ => true

/-- Objects reached from a new one by a history with at least one setter call. -/
def Reachable (k : Catenary2d) : Prop :=
  ∃ es : List Event, es.any Event.isSetter = true ∧ k = es.foldl Event.next new

end Catenary2d
end Verif
