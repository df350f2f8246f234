import Verif.DoubleCatenary

/-!
# Tangents and tensions of `Catenary2d` in `double` arithmetic

The rest of the queries of `Verif/Catenary2d.lean`, with the result of every operation rounded, for an object that has
been updated.
-/

namespace Verif.Double

/-- A C library with the functions that tangent vectors need too. -/
structure TangentLibrary extends CurveLibrary where
  sin : ℝ → ℝ
  cos : ℝ → ℝ
  sin_faithful : ∀ x, IsDouble x → Faithful (sin x) (Real.sin x)
  cos_faithful : ∀ x, IsDouble x → Faithful (cos x) (Real.cos x)

namespace Curve

variable (L : TangentLibrary)

/-- `TangentAngle`, `catenary.cc` L160-183.  Multiplying by -1 is exact. -/
noncomputable def tangentAngle (k : Catenary2d) (p : ℝ) (d : Direction) : ℝ :=
  let x := coordinateX L.toCurveLibrary k p
  let slope := L.sinh (rnd (x / constant k))
  let angle := Double.toDegrees L.toLibrary (L.atan slope)
  if d = .negative then -angle else angle

/-- `TangentVector`, `catenary.cc` L185-209; direction `kNull` leaves the default vector. -/
noncomputable def tangentVector (k : Catenary2d) (p : ℝ) (d : Direction) : V2 :=
  let radians := Double.convertAngle L.toLibrary (tangentAngle L k p d) .degreesToRadians
  match d with
  | .negative => ⟨-L.cos radians, L.sin radians⟩
  | .positive => ⟨L.cos radians, L.sin radians⟩
  | .null => ⟨-999999, -999999⟩

/-- `Tension(position, direction)`, `catenary.cc` L223-237, with `Vector2d::Scale`, `base/vector.cc` L115-118. -/
noncomputable def tensionVector (k : Catenary2d) (p : ℝ) (d : Direction) : V2 :=
  let v := tangentVector L k p d
  let magnitude := tension L.toCurveLibrary k p
  ⟨rnd (v.x * magnitude), rnd (v.y * magnitude)⟩

/-- The loop `iter = i .. i + j - 1` of `TensionAverage`, `catenary.cc` L265-269, from the sum `s`; the tensions of the
points are given by `f`. -/
noncomputable def sumLoop (f : ℕ → ℝ) : ℕ → ℕ → ℝ → ℝ
  | _, 0, s => s
  | i, j + 1, s => sumLoop f (i + 1) j (rnd (s + f i))

/-- `TensionAverage`, `catenary.cc` L239-276.  Not modelled: the overflow of `iter` when `num_points` is the largest
`int`. -/
noncomputable def tensionAverage (k : Catenary2d) (n : Int) : ℝ :=
  if n = 0 then
    let k1 := rnd (L.pow k.tensionHorizontal 2 / rnd (rnd (2 * k.weightUnit) * k.length))
    let k2 := rnd (L.sinh (rnd (k.right.x / constant k)) * L.cosh (rnd (k.right.x / constant k)))
    let k3 := rnd (L.sinh (rnd (k.left.x / constant k)) * L.cosh (rnd (k.left.x / constant k)))
    let k4 := rnd (rnd (k.right.x - k.left.x) / constant k)
    rnd (k1 * rnd (rnd (k2 - k3) + k4))
  else if 0 < n then
    rnd (sumLoop (fun i => tension L.toCurveLibrary k (rnd ((i : ℝ) / (n : ℝ)))) 0 (n.toNat + 1) 0 / rnd ((n : ℝ) + 1))
  else -999999

open Classical in
/-- `TensionMax`, `catenary.cc` L278-291. -/
noncomputable def tensionMax (k : Catenary2d) : ℝ :=
  if k.spacing.y ≤ 0 then tension L.toCurveLibrary k 0 else tension L.toCurveLibrary k 1

end Curve

end Verif.Double
