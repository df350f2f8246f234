import Verif.DoubleLine

/-!
# The coordinates of attachments, `transmissionline/transmission_line.cc`, in `double` arithmetic

The second half of the coordinate functions of `Verif/LineGeometry.lean` with the result of every operation rounded.
Overflow is not modelled, as in `Verif/Double.lean`.
-/

namespace Verif.Double.Course

variable (L : SunLibrary)

/-- `VectorXyAlignmentSegment`, `transmission_line.cc` L781-791, by index; `.at` throws on an invalid index. -/
noncomputable def segmentAt (pts : List P3) (index : Int) : Res (Option V2) :=
  if index < 0 then .throws
  else
    match pts[index.toNat]?, pts[index.toNat + 1]? with
    | some back, some ahead => .val (vectorSegment L back ahead)
    | _, _ => .throws

open Classical in
/-- Sum of two unit vectors scaled to length one, `transmission_line.cc` L830-833; `none` for a division by zero. -/
noncomputable def average (back ahead : V2) : Option V2 :=
  let v : V2 := ⟨rnd (back.x + ahead.x), rnd (back.y + ahead.y)⟩
  let magnitude := Double.magnitude L.toLibrary v
  if magnitude = 0 then none else some (scale v (rnd (1 / magnitude)))

open Classical in
/-- `VectorXyAlignmentStructure`, `transmission_line.cc` L793-836, for a structure at `station`.  The scan of L811-819
finds an alignment point with this station or none; the comparisons are those of exact arithmetic. -/
noncomputable def vectorStructure (al : List (AlignmentPoint ℝ)) (pts : List P3) (station : ℝ) : Res (Option V2) :=
  match Alignment.indexSegment al station with
  | .ub => .ub
  | .throws => .throws
  | .val i =>
    match al.head?, al.getLast? with
    | some f, some b =>
      if station = f.station ∨ station = b.station then segmentAt L pts i
      else if al.any (fun p => decide (station = p.station)) = false then segmentAt L pts i
      else
        match segmentAt L pts i with
        | .ub => .ub
        | .throws => .throws
        | .val back =>
          match segmentAt L pts (i + 1) with
          | .ub => .ub
          | .throws => .throws
          | .val ahead =>
            match back, ahead with
            | some back, some ahead => .val (average L back ahead)
            | _, _ => .val none
    | _, _ => .ub

/-- Attachment point relative to the structure, `transmission_line.cc` L421-436, before turning it to the alignment.
Additions to the coordinates 0 of L424 leave a `double` as it is. -/
noncomputable def attachmentLocal (s : LineStructure ℝ) (t : Structure ℝ) (a : StructureAttachment ℝ) : P3 :=
  let v := rotate L ⟨a.offsetLongitudinal, -a.offsetTransverse⟩ s.rotation
  ⟨v.x, rnd (v.y - s.offset), rnd (rnd (s.heightAdjustment + t.height) + a.offsetVerticalTop)⟩

/-- The rest of `PointXyzLineStructureAttachment`, `transmission_line.cc` L438-456, for the orientation `w` of the
alignment at the structure and the point `base` of the structure. -/
noncomputable def attachmentTurned (p : P3) (w : V2) (base : P3) : P3 :=
  let v := rotate L ⟨p.x, p.y⟩ (Double.angle L.toLibrary w)
  ⟨rnd (v.x + base.x), rnd (v.y + base.y), rnd (p.z + base.z)⟩

/-- `PointXyzLineStructureAttachment`, `transmission_line.cc` L401-456, for valid indices and updated points: the base
point of the structure is that of its station (L765-779).  `none`: NaN or infinite coordinates. -/
noncomputable def attachmentPoint (al : List (AlignmentPoint ℝ)) (pts : List P3) (s : LineStructure ℝ) (t : Structure ℝ)
    (a : StructureAttachment ℝ) : Res (Option P3) :=
  match vectorStructure L al pts s.station with
  | .ub => .ub
  | .throws => .throws
  | .val w =>
    match fromStation L al pts s.station with
    | .ub => .ub
    | .throws => .throws
    | .val base =>
      match w, base with
      | some w, some base => .val (some (attachmentTurned L (attachmentLocal L s t a) w base))
      | _, _ => .val none

end Verif.Double.Course
