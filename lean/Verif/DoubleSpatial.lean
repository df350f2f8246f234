import Verif.DoubleLoads
import Verif.Catenary3d

/-!
# Model of `Catenary3d` in `double` arithmetic

The step from the spatial span to the planar one, with the result of every operation rounded; the queries for length,
slack, sag and tension hand on the answers of the planar catenary (`Verif/DoubleCatenary.lean`).  The coordinates and
tangents, which rotate the planar answers back into space, are in `Verif/DoubleSwing.lean`.  Not modelled again: caching.
-/

namespace Verif.Double

/-- Squares are correctly rounded. -/
def Library.SquaresRounded (L : Library) : Prop := ∀ x, IsDouble x → L.pow x 2 = rnd (x ^ 2)

namespace Span

variable (L : Library)

/-- The vertical spacing in the plane of the cable, `catenary.cc` L927-934. -/
noncomputable def rise (k : Catenary3d) : ℝ :=
  rnd (k.spacing.z * rnd (|k.weightUnit.z| / magnitude3 L k.weightUnit))

/-- The argument of the square root in `UpdateCatenary2d`, `catenary.cc` L936. -/
noncomputable def radicand (k : Catenary3d) : ℝ :=
  rnd (L.pow (magnitude3 L k.spacing) 2 - L.pow (rise L k) 2)

/-- The spacing computed in `UpdateCatenary2d`, `catenary.cc` L927-936.  Simplification: the square root of a negative
number is 0 here and not-a-number in the code; see `radicand` for its sign. -/
noncomputable def spacing2d (k : Catenary3d) : V2 := ⟨rnd √(radicand L k), rise L k⟩

/-- `UpdateCatenary2d`, `catenary.cc` L926-943: the planar catenary. -/
noncomputable def planar (k : Catenary3d) : Catenary2d :=
  (k.catenary2d.setSpacing (spacing2d L k)).setWeight (magnitude3 L k.weightUnit)

end Span

/-- `Length`, `LengthSlack`, `Sag` and `Tension(position)` of a spatial catenary, `catenary.cc` L602-642, L743-749: the
planar catenary, updated, answers. -/
noncomputable def Span.updated (L : CurveLibrary) (k : Catenary3d) : Catenary2d :=
  Curve.update L (Span.planar L.toLibrary k)

end Verif.Double
