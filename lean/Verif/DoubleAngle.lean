import Verif.DoubleSwing

/-! # Tangent angles of spans in space in `double` arithmetic

`TangentAngleTransverse` and `TangentAngleVertical` of `catenary.cc` again, with the result of every operation rounded.
-/

namespace Verif.Double.Span

variable (L : TangentLibrary)

/-- `TangentAngleTransverse`, `catenary.cc` L665-681. -/
noncomputable def tangentAngleTransverse (k : Catenary3d) (p : ℝ) (d : Direction) : ℝ :=
  let v := tangentVector L k p d
  angle3 L.toLibrary ⟨v.x, |v.y|, |v.z|⟩ .zy true

/-- `TangentAngleVertical`, `catenary.cc` L683-698. -/
noncomputable def tangentAngleVertical (k : Catenary3d) (p : ℝ) (d : Direction) : ℝ :=
  let v := tangentVector L k p d
  angle3 L.toLibrary ⟨|v.x|, v.y, v.z⟩ .xz true

end Verif.Double.Span
