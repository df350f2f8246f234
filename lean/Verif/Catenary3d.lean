import Verif.Catenary2d

/-!
# Model of `Catenary3d` in `transmissionline/catenary.cc`

Exact real arithmetic; see `Verif/Catenary2d.lean`.
-/

namespace Verif

/-- `Catenary3d`: parameters, then the cached 2D catenary and its flag. -/
structure Catenary3d where
  direction : Direction
  spacing : V3
  weightUnit : V3
  catenary2d : Catenary2d
  isUpdated : Bool

namespace Catenary3d

/-- Constructor, `catenary.cc` L496-499. -/
noncomputable def new : Catenary3d :=
  ⟨.positive, ⟨-999999, -999999, -999999⟩, ⟨-999999, -999999, -999999⟩, Catenary2d.new, false⟩

/-- `tension_horizontal`, `catenary.cc` L902-904. -/
def tensionHorizontal (k : Catenary3d) : ℝ := k.catenary2d.tensionHorizontal

/-- `set_direction_transverse`, `catenary.cc` L878-880. -/
def setDirection (k : Catenary3d) (d : Direction) : Catenary3d := { k with direction := d }

/-- `set_spacing_endpoints`, `catenary.cc` L882-886. -/
def setSpacing (k : Catenary3d) (v : V3) : Catenary3d := { k with spacing := v, isUpdated := false }

/-- `set_tension_horizontal`, `catenary.cc` L888-890. -/
def setTension (k : Catenary3d) (h : ℝ) : Catenary3d :=
  { k with catenary2d := k.catenary2d.setTension h }

/-- `set_weight_unit`, `catenary.cc` L892-896. -/
def setWeight (k : Catenary3d) (v : V3) : Catenary3d := { k with weightUnit := v, isUpdated := false }

/-- The 2D spacing computed in `UpdateCatenary2d`, `catenary.cc` L927-936. -/
noncomputable def spacing2d (k : Catenary3d) : V2 :=
  let b := k.spacing.z
  let c := k.spacing.magnitude
  let v := |k.weightUnit.z|
  let w := k.weightUnit.magnitude
  let y := b * (v / w)
  ⟨Real.sqrt (c ^ 2 - y ^ 2), y⟩

/-- `UpdateCatenary2d`, `catenary.cc` L926-943. -/
noncomputable def updateCatenary2d (k : Catenary3d) : Catenary3d :=
  { k with catenary2d := (k.catenary2d.setSpacing k.spacing2d).setWeight k.weightUnit.magnitude }

/-- `IsUpdated`/`Update`, `catenary.cc` L910-924 (always succeeds); also the prologue of every query. -/
noncomputable def refresh (k : Catenary3d) : Catenary3d :=
  if k.isUpdated = false then { k.updateCatenary2d with isUpdated := true } else k

/-! Bodies of the queries, run on the refreshed object. -/

/-- `CoordinateChord`, `catenary.cc` L574-599. -/
noncomputable def coordinateChordBody (k : Catenary3d) (p : ℝ) : V3 :=
  let chord := k.catenary2d.coordinateChord p true
  let vector : V3 := ⟨chord.x - 0, 0, chord.y - 0⟩
  let angleXz2d := k.catenary2d.spacing.angle
  let angleXz3d := k.spacing.angle .xz
  vector.rotate .xz (angleXz3d - angleXz2d)

/-- `Coordinate`, `catenary.cc` L524-563. -/
noncomputable def coordinateBody (k : Catenary3d) (p : ℝ) : V3 :=
  let curve := k.catenary2d.coordinate p true
  let chord := k.catenary2d.coordinateChord p true
  let chord3d := k.coordinateChordBody p
  let vector : V3 := ⟨curve.x - chord.x, 0, curve.y - chord.y⟩
  let angleXz2d := k.catenary2d.spacing.angle
  let angleXz3d := k.spacing.angle .xz
  let vector := vector.rotate .xz (angleXz3d - angleXz2d)
  let angle := k.weightUnit.angle .zy
  let angle := if k.direction = .negative then angle * -1 else angle
  let vector := vector.rotate .yz angle
  ⟨chord3d.x + vector.x, chord3d.y + vector.y, chord3d.z + vector.z⟩

/-- `SwingAngle`, `catenary.cc` L659-662. -/
noncomputable def swingAngleBody (k : Catenary3d) : ℝ :=
  toDegrees (Real.arctan (k.weightUnit.y / k.weightUnit.z))

open Classical in
/-- `TangentVector`, `catenary.cc` L708-740. -/
noncomputable def tangentVectorBody (k : Catenary3d) (p : ℝ) (d : Direction) : V3 :=
  let v2 := k.catenary2d.tangentVector p d
  let v : V3 := ⟨v2.x, 0, v2.y⟩
  let v := if k.spacing.z ≠ 0 ∧ k.weightUnit.y ≠ 0 then
      v.rotate .xz (k.spacing.angle .xz true - k.catenary2d.spacing.angle true)
    else v
  if k.weightUnit.y ≠ 0 then
    v.rotate .yz (if k.direction = .negative then k.swingAngleBody * -1 else k.swingAngleBody)
  else v

/-! The queries. -/

/-- `Constant`, `catenary.cc` L503-511. -/
noncomputable def constant (k : Catenary3d) : ℝ := k.refresh.catenary2d.constant
/-- `Coordinate`, `catenary.cc` L517-564. -/
noncomputable def coordinate (k : Catenary3d) (p : ℝ) : V3 := k.refresh.coordinateBody p
/-- `CoordinateChord`, `catenary.cc` L566-600. -/
noncomputable def coordinateChord (k : Catenary3d) (p : ℝ) : V3 := k.refresh.coordinateChordBody p
/-- `Length`, `catenary.cc` L602-610. -/
noncomputable def length (k : Catenary3d) : ℝ := k.refresh.catenary2d.lengthQ
/-- `LengthSlack`, `catenary.cc` L612-618. -/
noncomputable def lengthSlack (k : Catenary3d) : ℝ := k.refresh.catenary2d.lengthSlack
/-- `PositionFractionOrigin`, `catenary.cc` L620-626. -/
noncomputable def positionFractionOrigin (k : Catenary3d) : ℝ := k.refresh.catenary2d.positionFractionOrigin
/-- `PositionFractionSagPoint`, `catenary.cc` L628-634. -/
noncomputable def positionFractionSagPoint (k : Catenary3d) : ℝ :=
  k.refresh.catenary2d.positionFractionSagPoint
/-- `Sag()`, `catenary.cc` L636-642. -/
noncomputable def sag (k : Catenary3d) : ℝ := k.refresh.catenary2d.sag
/-- `Sag(position)`, `catenary.cc` L644-650. -/
noncomputable def sagAt (k : Catenary3d) (p : ℝ) : ℝ := k.refresh.catenary2d.sagAt p
/-- `SwingAngle`, `catenary.cc` L652-663. -/
noncomputable def swingAngle (k : Catenary3d) : ℝ := k.refresh.swingAngleBody
/-- `TangentVector`, `catenary.cc` L700-741. -/
noncomputable def tangentVector (k : Catenary3d) (p : ℝ) (d : Direction) : V3 :=
  k.refresh.tangentVectorBody p d
/-- `TangentAngleTransverse`, `catenary.cc` L665-681. -/
noncomputable def tangentAngleTransverse (k : Catenary3d) (p : ℝ) (d : Direction) : ℝ :=
  let v := k.tangentVector p d
  V3.angle ⟨v.x, |v.y|, |v.z|⟩ .zy true
/-- `TangentAngleVertical`, `catenary.cc` L683-698. -/
noncomputable def tangentAngleVertical (k : Catenary3d) (p : ℝ) (d : Direction) : ℝ :=
  let v := k.tangentVector p d
  V3.angle ⟨|v.x|, v.y, v.z⟩ .xz true
/-- `Tension(position)`, `catenary.cc` L743-749. -/
noncomputable def tension (k : Catenary3d) (p : ℝ) : ℝ := k.refresh.catenary2d.tension p
/-- `Tension(position, direction)`, `catenary.cc` L751-769. -/
noncomputable def tensionVector (k : Catenary3d) (p : ℝ) (d : Direction) : V3 :=
  (k.tangentVector p d).scale (k.tension p)
/-- `TensionAverage`, `catenary.cc` L771-777. -/
noncomputable def tensionAverage (k : Catenary3d) (n : Int := 0) : ℝ := k.refresh.catenary2d.tensionAverage n
/-- `TensionMax`, `catenary.cc` L779-785. -/
noncomputable def tensionMax (k : Catenary3d) : ℝ := k.refresh.catenary2d.tensionMax

open Classical in
/-- `Validate`, `catenary.cc` L787-872: returned flag and messages. -/
noncomputable def validate (k : Catenary3d) : Bool × List String :=
  let m1 := if k.spacing.x ≤ 0 then ["Invalid horizontal endpoint spacing"] else []
  let m2 := if k.spacing.y ≠ 0 then ["Invalid transverse endpoint spacing. It must equal zero."] else []
  let m3 := if 10000 < |k.spacing.z| ∨ 2000 ≤ |k.spacing.z| then ["Invalid vertical endpoint spacing"] else []
  let m4 := if k.weightUnit.x ≠ 0 then ["Invalid horizontal unit weight. It must equal zero"] else []
  let m5 := if k.weightUnit.y < 0 then ["Invalid transverse unit weight"] else []
  let m6 := if k.weightUnit.z ≤ 0 then ["Invalid vertical unit weight"] else []
  let m := m1 ++ m2 ++ m3 ++ m4 ++ m5 ++ m6
  if m.isEmpty = false then (false, m)
  else (k.refresh.catenary2d.validate.1, m ++ k.refresh.catenary2d.validate.2)

/-! Histories. -/

/-- Calls on a 3D catenary.  `query` is a query that also makes the 2D catenary update itself; `touch` is
one that does not (`Constant`, `SwingAngle`, an accepted `Validate`). -/
inductive Event where
  | setDirection (d : Direction)
  | setSpacing (v : V3)
  | setTension (h : ℝ)
  | setWeight (v : V3)
  | touch
  | query

/-- State after a call. -/
noncomputable def Event.next (k : Catenary3d) : Event → Catenary3d
  | .setDirection d => k.setDirection d
  | .setSpacing v => k.setSpacing v
  | .setTension h => k.setTension h
  | .setWeight v => k.setWeight v
  | .touch => k.refresh
  | .query => { k.refresh with catenary2d := k.refresh.catenary2d.refresh }

/-- Objects reached from a new one by any history. -/
def Reachable (k : Catenary3d) : Prop := ∃ es : List Event, k = es.foldl Event.next new

end Catenary3d
end Verif
