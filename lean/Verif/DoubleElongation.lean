import Verif.DoubleBase
import Verif.CableElongation

/-! # Elongation of a cable in `double` arithmetic

The loads and strains of `cable_component_elongation_model.cc` and the search of
`CableElongationModel::StrainCombined` again, with the result of every operation rounded.  The points of the regions, the
thermal strain and the modulus of the extrapolation, which are computed when a component or a state is set, are parameters.
-/

namespace Verif.Double.Elongation

/-- `LoadLinearExtension`, `cable_component_elongation_model.cc` L329-335. -/
noncomputable def loadLinear (p : V2) (slope strain : ℝ) : ℝ := rnd (p.y + rnd (rnd (strain - p.x) * slope))

/-- `StrainLinearExtension`, L511-517. -/
noncomputable def strainLinear (p : V2) (slope load : ℝ) : ℝ := rnd (p.x + rnd (rnd (load - p.y) / slope))

/-- `StrainThermal`, L533-539. -/
noncomputable def thermal (c : CableComponent) (reference temperature : ℝ) : ℝ :=
  rnd (c.expansion * rnd (temperature - reference))

variable (L : Library)

/-- `LoadPolynomial`, L337-348, with `ConvertToStrainPolynomial`, L261-267. -/
noncomputable def loadPolynomial (c : CableComponent) (cs : List ℝ) (thermal strain : ℝ) : ℝ :=
  rnd (evalY L cs (rnd (rnd (strain - thermal) / c.scaleX)) * c.scaleY)

open Classical in
/-- `Load(type, points, thermal, strain)`, L273-327, given the modulus of the extrapolation. -/
noncomputable def load (c : CableComponent) (modulus : ℝ) (type : PolynomialType) (r : Regions) (thermal strain : ℝ) : ℝ :=
  if strain < r.unloaded.x then loadLinear r.unloaded c.modulusCompression strain
  else if r.unloaded.x ≤ strain ∧ strain ≤ r.start.x then loadLinear r.start c.modulusTension strain
  else if r.start.x < strain ∧ strain < r.stop.x then
    match c.coefficients type with
    | some cs => loadPolynomial L c cs thermal strain
    | none => -999999
  else if r.stop.x ≤ strain then
    if type = .null then -999999 else loadLinear r.stop modulus strain
  else -999999

open Classical in
/-- One pass of the loop of `StrainCombined`, `cable_elongation_model.cc` L344-381: nothing if a divisor is zero, for which
the code goes on with an infinity or a NaN. -/
noncomputable def step (f : ℝ → ℝ) (load : ℝ) (s : StrainSearch) : Option StrainSearch :=
  if rnd (s.right.x - s.left.x) = 0 then none
  else
    let slopeLine := rnd (rnd (s.right.y - s.left.y) / rnd (s.right.x - s.left.x))
    if slopeLine = 0 then none
    else
      let x := rnd (s.left.x + rnd (rnd (load - s.left.y) / slopeLine))
      let current : V2 := ⟨x, f x⟩
      let s := { s with current := current, iter := s.iter + 1 }
      some <|
        if current.x < s.left.x then { s with right := s.left, left := current }
        else if s.left.x ≤ current.x ∧ current.x ≤ s.right.x then
          if current.y < load then { s with left := current }
          else if load < current.y then { s with right := current }
          else s
        else if s.right.x < current.x then { s with left := s.right, right := current }
        else s

open Classical in
/-- The loop of `StrainCombined`, L343-382, precision 2 decimals; `fuel` is `100 - iter`. -/
noncomputable def strainLoop (f : ℝ → ℝ) (load : ℝ) : ℕ → StrainSearch → Option StrainSearch
  | 0, s => some s
  | fuel + 1, s =>
    if rnd (1 / L.pow 10 2) < |rnd (s.current.y - load)| then (step f load s).bind (strainLoop f load fuel) else some s

open Classical in
/-- The points the iteration starts from, L285-332; or the strain returned at once for loads below all points. -/
noncomputable def strainStart (f : ℝ → ℝ) (regions : List V2) (load : ℝ) : Res (ℝ ⊕ (V2 × V2)) :=
  match regions.head?, regions.getLast? with
  | some min, some max =>
    if load ≤ min.y then .val (.inl min.x)
    else if max.y ≤ load then .val (.inr (max, ⟨rnd (max.x + rnd 0.0005), f (rnd (max.x + rnd 0.0005))⟩))
    else
      match findRegion load regions with
      | some p => .val (.inr p)
      | none => .ub
  | _, _ => .ub

/-- `StrainCombined`, L279-389: `f` is `LoadCombined`; nothing if a divisor is zero on the way. -/
noncomputable def strainCombined (f : ℝ → ℝ) (regions : List V2) (load : ℝ) : Res (Option ℝ) :=
  match strainStart f regions load with
  | .val (.inl x) => .val (some x)
  | .val (.inr (l, r)) =>
    .val ((strainLoop L f load 99 ⟨l, r, ⟨-999999, -999999⟩, 1⟩).map fun s => if s.iter < 100 then s.current.x else -999999)
  | .throws => .throws
  | .ub => .ub

end Verif.Double.Elongation
