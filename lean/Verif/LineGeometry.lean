import Verif.TransmissionLine
import Verif.Vector

/-!
# Model of the coordinate part of `transmissionline/transmission_line.cc`

Coordinates are real.  A division by a zero length (NaN coordinates in the code) is modelled by `none`.
-/

namespace Verif

/-- `Point3d<double>`, `include/models/base/point.h` L41-75. -/
@[ext] structure P3 where
  x : ℝ
  y : ℝ
  z : ℝ

/-- Default constructor of `Point3d`, `point.h` L44-48. -/
def P3.default : P3 := ⟨-999999, -999999, -999999⟩

namespace Geo

/-- `PointXyzAlignmentFromVector`, `transmission_line.cc` L685-700: the new point and the vector as the
function leaves it.  The vector's magnitude is not zero where it is called (see `loop_step`). -/
noncomputable def fromVector (p : P3) (distanceStation distanceElevation rotation : ℝ) (v : V2) :
    P3 × V2 :=
  let v := v.rotate rotation
  let v := v.scale (distanceStation / v.magnitude)
  (⟨p.x + v.x, p.y + v.y, p.z + distanceElevation⟩, v)

/-- The loop of `UpdatePointsXyzAlignment`, L732-760, after the first point: `prev` and `pxyz` are the
previous alignment and coordinate points, `v` the running vector. -/
noncomputable def alignmentLoop (prev : AlignmentPoint ℝ) (pxyz : P3) (v : V2) :
    List (AlignmentPoint ℝ) → List P3
  | [] => []
  | q :: qs =>
    let r := fromVector pxyz (q.station - prev.station) (q.elevation - prev.elevation) prev.rotation v
    r.1 :: alignmentLoop q r.1 r.2 qs

/-- `UpdatePointsXyzAlignment`, `transmission_line.cc` L723-763. -/
noncomputable def pointsAlignment (origin : P3) : List (AlignmentPoint ℝ) → List P3
  | [] => []
  | p :: ps => origin :: alignmentLoop p origin ⟨1, 0⟩ ps

open Classical in
/-- `VectorXyAlignmentSegment`, `transmission_line.cc` L781-791; `.at` throws on an invalid index;
`none` when both points coincide horizontally (division by zero). -/
noncomputable def vectorSegment (pts : List P3) (index : Int) : Res (Option V2) :=
  if index < 0 then .throws
  else
    match pts[index.toNat]?, pts[index.toNat + 1]? with
    | some b, some a =>
      let v : V2 := ⟨a.x - b.x, a.y - b.y⟩
      if v.magnitude = 0 then .val none else .val (some (v.scale (1 / v.magnitude)))
    | _, _ => .throws

open Classical in
/-- `PointXyzAlignmentFromStation`, `transmission_line.cc` L635-683, on cached points `pts`.
`none` = NaN coordinates. -/
noncomputable def fromStation (al : List (AlignmentPoint ℝ)) (pts : List P3) (station : ℝ) :
    Res (Option P3) :=
  match Alignment.indexSegment al station with
  | .ub => .ub
  | .throws => .throws
  | .val i =>
    if i = -1 then .val (some P3.default)
    else
      match pts[i.toNat]?, pts[i.toNat + 1]? with
      | some xyzBack, some xyzAhead =>
        match al[i.toNat]? with
        | none => .ub
        | some back =>
          if station = back.station then .val (some xyzBack)
          else
            match al[i.toNat + 1]? with
            | none => .ub
            | some ahead =>
              if station = ahead.station then .val (some xyzAhead)
              else
                let distanceStation := station - back.station
                let slope := (ahead.elevation - back.elevation) / (ahead.station - back.station)
                let distanceElevation := slope * distanceStation
                let v := if i = 0 then Res.val (some (V2.mk 1 0)) else vectorSegment pts (i - 1)
                match v with
                | .ub => .ub
                | .throws => .throws
                | .val none => .val none
                | .val (some v) =>
                  .val (some (fromVector xyzBack distanceStation distanceElevation back.rotation v).1)
      | _, _ => .throws

/-- The loop of `UpdatePointsXyzLineStructures`, `transmission_line.cc` L765-779, over the stations of
the structures: the points pushed, and whether it came to the end. -/
noncomputable def structuresLoop (al : List (AlignmentPoint ℝ)) (pts : List P3) :
    List ℝ → List (Option P3) × Res Unit
  | [] => ([], .val ())
  | s :: ss =>
    match fromStation al pts s with
    | .ub => ([], .ub)
    | .throws => ([], .throws)
    | .val p => (p :: (structuresLoop al pts ss).1, (structuresLoop al pts ss).2)

end Geo

/-- A transmission line with its origin, cache flags and cached points. -/
structure GLine where
  line : Line ℝ
  origin : P3
  flagA : Bool
  flagS : Bool
  cacheA : List P3
  cacheS : List (Option P3)

namespace GLine

/-- Constructor, `transmission_line.cc` L6-9. -/
noncomputable def new : GLine := ⟨Line.empty, P3.default, false, false, [], []⟩

/-- Stations of the structures in order. -/
def stations (g : GLine) : List ℝ := g.line.structures.map fun e => e.2.station

/-- `IsUpdated`, `transmission_line.cc` L620-623. -/
def isUpdated (g : GLine) : Bool := g.flagA || g.flagS

/-- First half of `Update`, L704-709 (the update always succeeds). -/
noncomputable def updateA (g : GLine) : GLine :=
  if g.flagA = false then
    { g with cacheA := Geo.pointsAlignment g.origin g.line.alignment, flagA := true }
  else g

/-- `Update`, `transmission_line.cc` L702-721.  An exception leaves the points pushed so far. -/
noncomputable def update (g : GLine) : Outcome GLine Bool :=
  let g := g.updateA
  if g.flagS = false then
    match (Geo.structuresLoop g.line.alignment g.cacheA g.stations).2 with
    | .val _ =>
      .ok { g with cacheS := (Geo.structuresLoop g.line.alignment g.cacheA g.stations).1, flagS := true }
        true
    | .throws => .throws { g with cacheS := (Geo.structuresLoop g.line.alignment g.cacheA g.stations).1 }
    | .ub => .ub
  else .ok g true

/-- The prologue of every coordinate query: `(IsUpdated() == false) && (Update() == false)`. -/
noncomputable def refresh (g : GLine) : Outcome GLine Bool :=
  if g.isUpdated = false then g.update else .ok g true

/-- Runs `f` on the refreshed line. -/
noncomputable def query {A : Type} (g : GLine) (f : GLine → Res A) : Outcome GLine A :=
  match g.refresh with
  | .ub => .ub
  | .throws g' => .throws g'
  | .ok g' _ =>
    match f g' with
    | .val a => .ok g' a
    | .throws => .throws g'
    | .ub => .ub

/-- `PointsXyzAlignment`, `transmission_line.cc` L348-356. -/
noncomputable def pointsXyzAlignment (g : GLine) : Outcome GLine (List P3) :=
  g.query fun g => .val g.cacheA

/-- `PointsXyzLineStructures`, `transmission_line.cc` L358-366. -/
noncomputable def pointsXyzLineStructures (g : GLine) : Outcome GLine (List (Option P3)) :=
  g.query fun g => .val g.cacheS

/-- `PointXyzAlignment`, `transmission_line.cc` L368-376. -/
noncomputable def pointXyzAlignment (g : GLine) (station : ℝ) : Outcome GLine (Option P3) :=
  g.query fun g => Geo.fromStation g.line.alignment g.cacheA station

/-- `points_xyz_structures_.at(index)` after the index check, L385-390. -/
noncomputable def structurePoint (g : GLine) (index : Int) : Res (Option P3) :=
  if validIndex index g.line.structures.length = false then .val (some P3.default)
  else
    match g.cacheS[index.toNat]? with
    | none => .throws
    | some p => .val p

/-- `PointXyzLineStructure`, `transmission_line.cc` L378-391. -/
noncomputable def pointXyzLineStructure (g : GLine) (index : Int) : Outcome GLine (Option P3) :=
  g.query fun g => g.structurePoint index

open Classical in
/-- `VectorXyAlignmentStructure`, `transmission_line.cc` L793-836, for a structure at `station`.
The scan of L811-819 finds an alignment point with this station or none. -/
noncomputable def vectorStructure (al : List (AlignmentPoint ℝ)) (pts : List P3) (station : ℝ) :
    Res (Option V2) :=
  match Alignment.indexSegment al station with
  | .ub => .ub
  | .throws => .throws
  | .val i =>
    match al.head?, al.getLast? with
    | some f, some b =>
      if station = f.station ∨ station = b.station then Geo.vectorSegment pts i
      else if al.any (fun p => decide (station = p.station)) = false then Geo.vectorSegment pts i
      else
        match Geo.vectorSegment pts i with
        | .ub => .ub
        | .throws => .throws
        | .val back =>
          match Geo.vectorSegment pts (i + 1) with
          | .ub => .ub
          | .throws => .throws
          | .val ahead =>
            match back, ahead with
            | some back, some ahead =>
              let v : V2 := ⟨back.x + ahead.x, back.y + ahead.y⟩
              if v.magnitude = 0 then .val none else .val (some (v.scale (1 / v.magnitude)))
            | _, _ => .val none
    | _, _ => .ub

/-- Attachment point relative to the structure, L421-436, before turning it to the alignment. -/
noncomputable def attachmentLocal (s : LineStructure ℝ) (t : Structure ℝ) (a : StructureAttachment ℝ) : P3 :=
  let v := (V2.mk a.offsetLongitudinal (-a.offsetTransverse)).rotate s.rotation
  ⟨v.x, v.y - s.offset, s.heightAdjustment + t.height + a.offsetVerticalTop⟩

/-- Body of `PointXyzLineStructureAttachment`, `transmission_line.cc` L401-456; a null base structure is
UB (L411).  `none` = NaN coordinates. -/
noncomputable def attachmentPoint (g : GLine) (indexStructure indexAttachment : Int) : Res (Option P3) :=
  if validIndex indexStructure g.line.structures.length = false then .val (some P3.default)
  else
    match g.line.structures[indexStructure.toNat]? with
    | none => .ub
    | some (_, s) =>
      match s.base with
      | none => .ub
      | some t =>
        if validIndex indexAttachment t.attachments.length = false then .val (some P3.default)
        else
          match t.attachments[indexAttachment.toNat]? with
          | none => .throws
          | some a =>
            let p := attachmentLocal s t a
            match vectorStructure g.line.alignment g.cacheA s.station with
            | .ub => .ub
            | .throws => .throws
            | .val w =>
              match g.cacheS[indexStructure.toNat]? with
              | none => .throws
              | some base =>
                match w, base with
                | some w, some base =>
                  let v := (V2.mk p.x p.y).rotate w.angle
                  .val (some ⟨v.x + base.x, v.y + base.y, p.z + base.z⟩)
                | _, _ => .val none

/-- `PointXyzLineStructureAttachment`, `transmission_line.cc` L393-457. -/
noncomputable def pointXyzLineStructureAttachment (g : GLine) (indexStructure indexAttachment : Int) :
    Outcome GLine (Option P3) :=
  g.query fun g => g.attachmentPoint indexStructure indexAttachment

/-- `set_origin`, `transmission_line.cc` L517-521. -/
def setOrigin (g : GLine) (p : P3) : GLine := { g with origin := p, flagA := false, flagS := false }

/-- Flags reset by an editing call: alignment edits L58-59, L148-149, L254-255; structure edits L118,
L185, L304; cable edits reset nothing. -/
def resets : Line.Op ℝ → Bool × Bool
  | .addAlignmentPoint _ => (true, true)
  | .deleteAlignmentPoint _ => (true, true)
  | .modifyAlignmentPoint _ _ => (true, true)
  | .addLineStructure _ _ => (false, true)
  | .deleteLineStructure _ => (false, true)
  | .modifyLineStructure _ _ => (false, true)
  | .addLineCable _ => (false, false)
  | .deleteLineCable _ => (false, false)
  | .modifyLineCable _ _ => (false, false)

/-- State of the object when the contained line becomes `l` by the call `op`. -/
def edited (g : GLine) (op : Line.Op ℝ) (l : Line ℝ) : GLine :=
  { g with
    line := l
    flagA := g.flagA && !(resets op).1
    flagS := g.flagS && !(resets op).2 }

/-- An editing call. -/
noncomputable def edit (ext : Heap ℝ) (op : Line.Op ℝ) (g : GLine) : Outcome GLine Line.Ret :=
  match op.apply ext g.line with
  | .ok l a => .ok (g.edited op l) a
  | .throws l => .throws (g.edited op l)
  | .ub => .ub

/-- The part of `Validate` (L459-499) that touches the cached members: the unconditional `Update` at
L489.  The validators of the parts are `const` and cache-free. -/
noncomputable def validateUpdate (g : GLine) : Outcome GLine Bool := g.update

/-- Copy assignment, `transmission_line.cc` L16-52: flags are copied, cached points are not (`target`
keeps its own).  The copy constructor is the case of a target without cached points. -/
noncomputable def copyTo (target g : GLine) (ext : Heap ℝ) (ptrs : List Ptr) : Option GLine :=
  (g.line.copy ext ptrs).map fun l => ⟨l, g.origin, g.flagA, g.flagS, target.cacheA, target.cacheS⟩

/-- Calls on a line object. -/
inductive Event where
  | edit (ext : Heap ℝ) (op : Line.Op ℝ)
  | setOrigin (p : P3)
  | pointsXyzAlignment
  | pointsXyzLineStructures
  | pointXyzAlignment (station : ℝ)
  | pointXyzLineStructure (index : Int)
  | pointXyzLineStructureAttachment (indexStructure indexAttachment : Int)
  | validate

/-- State after a call, exceptions caught; `none` after UB. -/
noncomputable def Event.next (g : GLine) : Event → Option GLine
  | .edit ext op => (g.edit ext op).state?
  | .setOrigin p => some (g.setOrigin p)
  | .pointsXyzAlignment => g.pointsXyzAlignment.state?
  | .pointsXyzLineStructures => g.pointsXyzLineStructures.state?
  | .pointXyzAlignment s => (g.pointXyzAlignment s).state?
  | .pointXyzLineStructure i => (g.pointXyzLineStructure i).state?
  | .pointXyzLineStructureAttachment i j => (g.pointXyzLineStructureAttachment i j).state?
  | .validate => g.validateUpdate.state?

/-- Argument contract of a call (see `Line.Op.Pre`). -/
def Event.Pre (g : GLine) : Event → Prop
  | .edit ext op => op.Pre ext g.line
  | _ => True

/-- `g'` is reached from `g` by the calls, none of which ran into UB. -/
inductive Runs : GLine → List Event → GLine → Prop where
  | nil (g : GLine) : Runs g [] g
  | cons {g g' g'' : GLine} {e : Event} {es : List Event} (pre : e.Pre g) (h : e.next g = some g')
      (r : Runs g' es g'') : Runs g (e :: es) g''

/-- Objects reached from a newly constructed line by calls on it. -/
def Reachable (g : GLine) : Prop := ∃ es, Runs GLine.new es g

end GLine
end Verif
