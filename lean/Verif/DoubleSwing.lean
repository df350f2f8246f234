import Verif.DoubleSpatial
import Verif.DoubleTangent
import Verif.DoubleLine
import Verif.DoubleLemmas

/-!
# Coordinates, tangents and tensions of `Catenary3d` in `double` arithmetic

The queries of `Verif/Catenary3d.lean` that rotate the answers of the planar catenary into space, with the result of every
operation rounded.  Not modelled again: caching.
-/

namespace Verif.Double

/-- The functions that rotations need are those of the library; `asin` and `acos`, which they do not need, are correctly
rounded. -/
noncomputable def TangentLibrary.toSun (L : TangentLibrary) : SunLibrary where
  toLibrary := L.toLibrary
  sin := L.sin
  cos := L.cos
  tan := L.tan
  asin x := rnd (Real.arcsin x)
  acos x := rnd (Real.arccos x)
  sin_faithful := L.sin_faithful
  cos_faithful := L.cos_faithful
  tan_faithful := L.tan_faithful
  asin_faithful _ _ _ := ⟨rnd_isDouble _, fun _ h => le_rnd h, fun _ h => rnd_le h⟩
  acos_faithful _ _ _ := ⟨rnd_isDouble _, fun _ h => le_rnd h, fun _ h => rnd_le h⟩

/-- `Vector3d::Angle`, `base/vector.cc` L153-182. -/
noncomputable def angle3 (L : Library) (v : V3) (plane : Plane) (neg : Bool := false) : ℝ :=
  match v.planar plane with
  | none => -999999
  | some w => Double.angle L w neg

open Classical in
/-- `Vector3d::Rotate`, `base/vector.cc` L191-248. -/
noncomputable def rotate3 (L : SunLibrary) (v : V3) (plane : Plane) (angleRotation : ℝ) : V3 :=
  if |angleRotation| < rnd 0.00005 then v
  else match v.planar plane with
    | none => v
    | some w => v.setPlanar (Course.rotate L w angleRotation) plane

/-- `Vector3d::Scale`, `base/vector.cc` L251-255. -/
noncomputable def scale3 (v : V3) (f : ℝ) : V3 := ⟨rnd (v.x * f), rnd (v.y * f), rnd (v.z * f)⟩

/-- Shifting a point of a planar catenary to the left end, `catenary.cc` L43-47, L70-74. -/
noncomputable def Curve.shifted (k : Catenary2d) (q : V2) : V2 := ⟨rnd (q.x - k.left.x), rnd (q.y - k.left.y)⟩

namespace Span

variable (L : TangentLibrary)

/-- The angle from the planar to the spatial chord, `catenary.cc` L546-548, L589-591. -/
noncomputable def inclination (k : Catenary3d) : ℝ :=
  rnd (angle3 L.toLibrary k.spacing .xz - Double.angle L.toLibrary (updated L.toCurveLibrary k).spacing)

/-- `CoordinateChord`, `catenary.cc` L574-599. -/
noncomputable def coordinateChord (k : Catenary3d) (p : ℝ) : V3 :=
  let c := updated L.toCurveLibrary k
  let chord := Curve.shifted c (Curve.coordinateChord L.toCurveLibrary c p)
  let vector : V3 := ⟨rnd (chord.x - 0), 0, rnd (chord.y - 0)⟩
  rotate3 L.toSun vector .xz (inclination L k)

/-- `Coordinate`, `catenary.cc` L524-563.  Multiplying by -1 is exact. -/
noncomputable def coordinate (k : Catenary3d) (p : ℝ) : V3 :=
  let c := updated L.toCurveLibrary k
  let curve := Curve.shifted c (Curve.coordinate L.toCurveLibrary c p)
  let chord := Curve.shifted c (Curve.coordinateChord L.toCurveLibrary c p)
  let chord3d := coordinateChord L k p
  let vector : V3 := ⟨rnd (curve.x - chord.x), 0, rnd (curve.y - chord.y)⟩
  let vector := rotate3 L.toSun vector .xz (inclination L k)
  let angle := angle3 L.toLibrary k.weightUnit .zy
  let angle := if k.direction = .negative then angle * -1 else angle
  let vector := rotate3 L.toSun vector .yz angle
  ⟨rnd (chord3d.x + vector.x), rnd (chord3d.y + vector.y), rnd (chord3d.z + vector.z)⟩

/-- `SwingAngle`, `catenary.cc` L659-662. -/
noncomputable def swingAngle (k : Catenary3d) : ℝ :=
  Double.toDegrees L.toLibrary (L.atan (rnd (k.weightUnit.y / k.weightUnit.z)))

open Classical in
/-- `TangentVector`, `catenary.cc` L708-740.  Multiplying by -1 is exact. -/
noncomputable def tangentVector (k : Catenary3d) (p : ℝ) (d : Direction) : V3 :=
  let c := updated L.toCurveLibrary k
  let v2 := Curve.tangentVector L c p d
  let v : V3 := ⟨v2.x, 0, v2.y⟩
  let v := if k.spacing.z ≠ 0 ∧ k.weightUnit.y ≠ 0 then
      rotate3 L.toSun v .xz (rnd (angle3 L.toLibrary k.spacing .xz true - Double.angle L.toLibrary c.spacing true))
    else v
  if k.weightUnit.y ≠ 0 then
    rotate3 L.toSun v .yz (if k.direction = .negative then swingAngle L k * -1 else swingAngle L k)
  else v

/-- `Tension(position, direction)`, `catenary.cc` L759-768. -/
noncomputable def tensionVector (k : Catenary3d) (p : ℝ) (d : Direction) : V3 :=
  scale3 (tangentVector L k p d) (Curve.tension L.toCurveLibrary (updated L.toCurveLibrary k) p)

end Span

end Verif.Double
