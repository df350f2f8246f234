import Verif.DoubleSun
import Verif.LineGeometry

/-!
# The coordinates of alignment points, `transmissionline/transmission_line.cc`, in `double` arithmetic

The functions of `Verif/LineGeometry.lean` that compute coordinates, and the functions of vectors they use, with the
result of every operation rounded.  Overflow is not modelled, as in `Verif/Double.lean`.
-/

namespace Verif.Double.Course

variable (L : SunLibrary)

open Classical in
/-- `Vector2d::Rotate`, `base/vector.cc` L95-113. -/
noncomputable def rotate (v : V2) (angleRotation : ℝ) : V2 :=
  if |angleRotation| < rnd 0.00005 then v
  else
    let magnitude := Double.magnitude L.toLibrary v
    let angleNew := rnd (Double.angle L.toLibrary v + angleRotation)
    let angleRadians := Sun.toRadians L angleNew
    ⟨rnd (magnitude * L.cos angleRadians), rnd (magnitude * L.sin angleRadians)⟩

/-- `Vector2d::Scale`, `base/vector.cc` L115-118. -/
noncomputable def scale (v : V2) (f : ℝ) : V2 := ⟨rnd (v.x * f), rnd (v.y * f)⟩

/-- `PointXyzAlignmentFromVector`, `transmission_line.cc` L685-700. -/
noncomputable def fromVector (p : P3) (distanceStation distanceElevation rotation : ℝ) (v : V2) : P3 × V2 :=
  let v := rotate L v rotation
  let v := scale v (rnd (distanceStation / Double.magnitude L.toLibrary v))
  (⟨rnd (p.x + v.x), rnd (p.y + v.y), rnd (p.z + distanceElevation)⟩, v)

/-- The loop of `UpdatePointsXyzAlignment`, L732-760, after the first point. -/
noncomputable def alignmentLoop (prev : AlignmentPoint ℝ) (pxyz : P3) (v : V2) : List (AlignmentPoint ℝ) → List P3
  | [] => []
  | q :: qs =>
    let r := fromVector L pxyz (rnd (q.station - prev.station)) (rnd (q.elevation - prev.elevation)) prev.rotation v
    r.1 :: alignmentLoop q r.1 r.2 qs

/-- `UpdatePointsXyzAlignment`, `transmission_line.cc` L723-763. -/
noncomputable def pointsAlignment (origin : P3) : List (AlignmentPoint ℝ) → List P3
  | [] => []
  | p :: ps => origin :: alignmentLoop L p origin ⟨1, 0⟩ ps

open Classical in
/-- `VectorXyAlignmentSegment`, `transmission_line.cc` L781-791, for the points back and ahead; `none` when the
division is one by zero, which gives NaN or infinite components. -/
noncomputable def vectorSegment (back ahead : P3) : Option V2 :=
  let v : V2 := ⟨rnd (ahead.x - back.x), rnd (ahead.y - back.y)⟩
  let magnitude := Double.magnitude L.toLibrary v
  if magnitude = 0 then none else some (scale v (rnd (1 / magnitude)))

/-- The vector along the segment before point `i`, `transmission_line.cc` L670-676: `(1, 0)` before the first point. -/
noncomputable def vectorBefore (pts : List P3) (i : ℕ) : Res (Option V2) :=
  if i = 0 then .val (some ⟨1, 0⟩)
  else
    match pts[i - 1]?, pts[i]? with
    | some xyzBefore, some xyzBack => .val (vectorSegment L xyzBefore xyzBack)
    | _, _ => .throws

open Classical in
/-- `PointXyzAlignmentFromStation`, `transmission_line.cc` L635-683, on cached points `pts`; the comparisons are those
of exact arithmetic.  `none`: NaN or infinite coordinates. -/
noncomputable def fromStation (al : List (AlignmentPoint ℝ)) (pts : List P3) (station : ℝ) : Res (Option P3) :=
  match Alignment.indexSegment al station with
  | .ub => .ub
  | .throws => .throws
  | .val i =>
    if i = -1 then .val (some P3.default)
    else
      match pts[i.toNat]?, pts[i.toNat + 1]? with
      | some xyzBack, some xyzAhead =>
        match al[i.toNat]? with
        | none => .ub
        | some back =>
          if station = back.station then .val (some xyzBack)
          else
            match al[i.toNat + 1]? with
            | none => .ub
            | some ahead =>
              if station = ahead.station then .val (some xyzAhead)
              else
                let distanceStation := rnd (station - back.station)
                let slope := rnd (rnd (ahead.elevation - back.elevation) / rnd (ahead.station - back.station))
                let distanceElevation := rnd (slope * distanceStation)
                match vectorBefore L pts i.toNat with
                | .ub => .ub
                | .throws => .throws
                | .val none => .val none
                | .val (some v) =>
                  .val (some (fromVector L xyzBack distanceStation distanceElevation back.rotation v).1)
      | _, _ => .throws

end Verif.Double.Course
