import Verif.DoubleBase
import Verif.Catenary2d

/-!
# Model of `Catenary2d` in `double` arithmetic

The functions of `Verif/Catenary2d.lean` again, with the result of every operation rounded.  The hyperbolic functions
and the tangent of the C library are assumed to be faithful only; that they also keep the order and the symmetry of the
exact functions is a separate assumption (`CurveLibrary.Regular`).  Not modelled again: caching (the functions here are
for an object that has been updated) and validation.  Tangents, tension vectors, average and largest tensions are in
`Verif/DoubleTangent.lean`.
-/

namespace Verif.Double

/-- A C library with the functions that catenaries need. -/
structure CurveLibrary extends Library where
  sinh : ℝ → ℝ
  cosh : ℝ → ℝ
  asinh : ℝ → ℝ
  tan : ℝ → ℝ
  sinh_faithful : ∀ x, IsDouble x → Faithful (sinh x) (Real.sinh x)
  cosh_faithful : ∀ x, IsDouble x → Faithful (cosh x) (Real.cosh x)
  asinh_faithful : ∀ x, IsDouble x → Faithful (asinh x) (Real.arsinh x)
  tan_faithful : ∀ x, IsDouble x → Faithful (tan x) (Real.tan x)

/-- The functions keep the order and the symmetry of the exact ones. -/
structure CurveLibrary.Regular (L : CurveLibrary) : Prop where
  sinh_mono : ∀ x y, IsDouble x → IsDouble y → x ≤ y → L.sinh x ≤ L.sinh y
  asinh_mono : ∀ x y, IsDouble x → IsDouble y → x ≤ y → L.asinh x ≤ L.asinh y
  sinh_odd : ∀ x, IsDouble x → L.sinh (-x) = -L.sinh x
  cosh_even : ∀ x, IsDouble x → L.cosh (-x) = L.cosh x
  asinh_odd : ∀ x, IsDouble x → L.asinh (-x) = -L.asinh x

namespace Curve

variable (L : CurveLibrary)

/-- `h / w` as it stands in `catenary.cc`, and `Constant` L23-25. -/
noncomputable def constant (k : Catenary2d) : ℝ := rnd (k.tensionHorizontal / k.weightUnit)

/-- `CoordinateY`, `catenary.cc` L409-414. -/
noncomputable def coordinateY (k : Catenary2d) (x : ℝ) : ℝ :=
  rnd (constant k * rnd (L.cosh (rnd (x / constant k)) - 1))

/-- `LengthFromOrigin`, `catenary.cc` L420-425. -/
noncomputable def lengthFromOrigin (k : Catenary2d) (x : ℝ) : ℝ :=
  rnd (constant k * L.sinh (rnd (x / constant k)))

/-- `CoordinateX`, `catenary.cc` L392-407. -/
noncomputable def coordinateX (k : Catenary2d) (p : ℝ) : ℝ :=
  let lengthFromOrigin := rnd (rnd (p * k.length) + k.lengthLeft)
  rnd (constant k * L.asinh (rnd (lengthFromOrigin / constant k)))

/-- `ConvertToPositionFraction`, `catenary.cc` L381-390. -/
noncomputable def convertToPositionFraction (k : Catenary2d) (x : ℝ) : ℝ :=
  rnd (rnd (lengthFromOrigin L k x - k.lengthLeft) / k.length)

/-- `UpdateEndPoints`, `catenary.cc` L444-460. -/
noncomputable def updateEndPoints (k : Catenary2d) : Catenary2d :=
  let c := constant k
  let z := rnd (rnd (k.spacing.x / 2) / c)
  let s := L.asinh (rnd (rnd (k.spacing.y * z) / rnd (k.spacing.x * L.sinh z)))
  let xl := rnd (c * rnd (s - z))
  let xr := rnd (c * rnd (s + z))
  { k with left := ⟨xl, coordinateY L k xl⟩, right := ⟨xr, coordinateY L k xr⟩ }

/-- `UpdateLengths`, `catenary.cc` L462-470. -/
noncomputable def updateLengths (k : Catenary2d) : Catenary2d :=
  { k with
    lengthLeft := lengthFromOrigin L k k.left.x
    length := rnd (lengthFromOrigin L k k.right.x - lengthFromOrigin L k k.left.x) }

/-- `Update`, `catenary.cc` L427-442. -/
noncomputable def update (k : Catenary2d) : Catenary2d :=
  { updateLengths L (updateEndPoints L k) with isUpdated := true }

/-- `Coordinate` without shifting, `catenary.cc` L39-41. -/
noncomputable def coordinate (k : Catenary2d) (p : ℝ) : V2 :=
  ⟨coordinateX L k p, coordinateY L k (coordinateX L k p)⟩

/-- `CoordinateChord` without shifting, `catenary.cc` L60-67. -/
noncomputable def coordinateChord (k : Catenary2d) (p : ℝ) : V2 :=
  ⟨(coordinate L k p).x,
    rnd (k.left.y + rnd (rnd ((coordinate L k p).x - k.left.x) * rnd (k.spacing.y / k.spacing.x)))⟩

/-- `PositionFraction`, `catenary.cc` L102-114. -/
noncomputable def positionFraction (k : Catenary2d) (angle : ℝ) : ℝ :=
  let slope := L.tan (Double.convertAngle L.toLibrary angle .degreesToRadians)
  let x := rnd (constant k * L.asinh slope)
  convertToPositionFraction L k x

/-- `PositionFractionSagPoint`, `catenary.cc` L126-135. -/
noncomputable def positionFractionSagPoint (k : Catenary2d) : ℝ :=
  positionFraction L k (Double.angle L.toLibrary k.spacing true)

/-- `Sag(position)`, `catenary.cc` L149-158. -/
noncomputable def sagAt (k : Catenary2d) (p : ℝ) : ℝ := rnd ((coordinateChord L k p).y - (coordinate L k p).y)

/-- `Sag()`, `catenary.cc` L137-147. -/
noncomputable def sag (k : Catenary2d) : ℝ := sagAt L k (positionFractionSagPoint L k)

/-- `Tension(position)`, `catenary.cc` L216-220. -/
noncomputable def tension (k : Catenary2d) (p : ℝ) : ℝ :=
  rnd (k.tensionHorizontal * L.cosh (rnd (coordinateX L k p / constant k)))

/-- `LengthSlack`, `catenary.cc` L89-95. -/
noncomputable def lengthSlack (k : Catenary2d) : ℝ := rnd (k.length - Double.magnitude L.toLibrary k.spacing)

end Curve

end Verif.Double
