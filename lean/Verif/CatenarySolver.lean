import Verif.Catenary3d

/-!
# Model of `transmissionline/catenary_solver.cc`

Exact real arithmetic.  The three iterative solvers share one loop; it is modelled once, with the
probed quantity as a parameter.  The probes change the solver's catenary (its tension and its caches),
and the model threads it through the loop.  A zero slope divides to an infinity or NaN in the code and
to 0 here.
-/

namespace Verif

/-- `CatenarySolver::TargetType`, `include/models/transmissionline/catenary_solver.h`. -/
inductive TargetType where
  | null | constant | length | sag | tension
  deriving DecidableEq

/-- A query on the catenary that the loop probes. -/
abbrev Probe := Catenary3d → ℝ

/-- Setting the horizontal tension and asking: `UpdateCatenaryLength`, `UpdateCatenarySag`,
`UpdateCatenaryTension`, `catenary_solver.cc` L495-530; answer and catenary afterwards. -/
noncomputable def probe (g : Probe) (k : Catenary3d) (h : ℝ) : ℝ × Catenary3d :=
  (g (k.setTension h), Catenary3d.Event.query.next (k.setTension h))

/-- Variables of the loop. -/
structure SecantState where
  left : V2
  right : V2
  current : V2
  iter : ℕ

open Classical in
/-- Body of the loop, `catenary_solver.cc` L246-280 (and L327-361, L409-443), given the probed value at
the new abscissa. -/
noncomputable def SecantState.advance (s : SecantState) (target : ℝ) (cur : V2) : SecantState :=
  if cur.x < s.left.x then
    ⟨cur, s.left, cur, s.iter + 1⟩
  else if s.left.x < cur.x ∧ cur.x < s.right.x then
    if cur.y < target then ⟨s.left, cur, cur, s.iter + 1⟩
    else if target < cur.y then ⟨cur, s.right, cur, s.iter + 1⟩
    else ⟨s.left, s.right, cur, s.iter + 1⟩
  else if s.right.x < cur.x then
    ⟨s.right, cur, cur, s.iter + 1⟩
  else ⟨s.left, s.right, cur, s.iter + 1⟩

/-- The new abscissa, `catenary_solver.cc` L248-252. -/
noncomputable def SecantState.next (s : SecantState) (target : ℝ) : ℝ :=
  let slope := (s.right.y - s.left.y) / (s.right.x - s.left.x)
  s.left.x + (target - s.left.y) / slope

open Classical in
/-- The loop, `catenary_solver.cc` L245-281; `fuel` is the number of iterations left, `iter_max + 1 - iter`. -/
noncomputable def secantLoop (g : Probe) (target : ℝ) :
    ℕ → SecantState → Catenary3d → SecantState × Catenary3d
  | 0, s, k => (s, k)
  | fuel + 1, s, k =>
    if 0.01 < |s.left.x - s.right.x| then
      let x := s.next target
      let r := probe g k x
      secantLoop g target fuel (s.advance target ⟨x, r.1⟩) r.2
    else (s, k)

/-- Loop and return value, `catenary_solver.cc` L239-290. -/
noncomputable def secantSolve (g : Probe) (target : ℝ) (left right : V2) (k : Catenary3d) :
    Bool × Catenary3d :=
  let r := secantLoop g target 101 ⟨left, right, ⟨-999999, -999999⟩, 0⟩ k
  if r.1.iter < 100 then (true, r.2.setTension r.1.current.x) else (false, r.2.setTension (-999999))

/-- `CatenarySolver` -/
structure CatenarySolver where
  catenary : Catenary3d
  positionTarget : ℝ
  typeTarget : TargetType
  valueTarget : ℝ
  isUpdated : Bool

namespace CatenarySolver

/-- Constructor, `catenary_solver.cc` L8-15. -/
noncomputable def new : CatenarySolver := ⟨Catenary3d.new, -1, .null, -999999, false⟩

/-- `set_position_target`, L153-156. -/
def setPositionTarget (s : CatenarySolver) (p : ℝ) : CatenarySolver :=
  { s with positionTarget := p, isUpdated := false }
/-- `set_spacing_endpoints`, L158-161. -/
def setSpacing (s : CatenarySolver) (v : V3) : CatenarySolver :=
  { s with catenary := s.catenary.setSpacing v, isUpdated := false }
/-- `set_type_target`, L163-166. -/
def setTypeTarget (s : CatenarySolver) (t : TargetType) : CatenarySolver :=
  { s with typeTarget := t, isUpdated := false }
/-- `set_value_target`, L168-171. -/
def setValueTarget (s : CatenarySolver) (v : ℝ) : CatenarySolver :=
  { s with valueTarget := v, isUpdated := false }
/-- `set_weight_unit`, L173-176. -/
def setWeight (s : CatenarySolver) (v : V3) : CatenarySolver :=
  { s with catenary := s.catenary.setWeight v, isUpdated := false }

/-- `SolveHorizontalTensionFromConstant`, `catenary_solver.cc` L198-205. -/
noncomputable def solveConstant (s : CatenarySolver) : Bool × CatenarySolver :=
  (true, { s with catenary := s.catenary.setTension (s.valueTarget * s.catenary.weightUnit.magnitude) })

/-- The left starting tension, `catenary_solver.cc` L219-221, L305-307, L386-388. -/
noncomputable def leftStart (s : CatenarySolver) : ℝ :=
  Catenary2d.constantMinimum s.catenary.spacing.magnitude * s.catenary.weightUnit.magnitude

open Classical in
/-- `SolveHorizontalTensionFromLength`, `catenary_solver.cc` L209-291. -/
noncomputable def solveLength (s : CatenarySolver) : Bool × CatenarySolver :=
  let l := probe Catenary3d.length s.catenary s.leftStart
  if s.valueTarget ≤ s.catenary.spacing.magnitude then (false, { s with catenary := l.2 })
  else if l.1 < s.valueTarget then (false, { s with catenary := l.2 })
  else
    let r := probe Catenary3d.length l.2 (s.leftStart * 1.10)
    let o := secantSolve Catenary3d.length s.valueTarget ⟨s.leftStart, l.1⟩ ⟨s.leftStart * 1.10, r.1⟩ r.2
    (o.1, { s with catenary := o.2 })

open Classical in
/-- The sag probed, `catenary_solver.cc` L510-515. -/
noncomputable def sagProbe (s : CatenarySolver) : Probe := fun k =>
  if s.positionTarget = -1 then k.sag else k.sagAt s.positionTarget

open Classical in
/-- `SolveHorizontalTensionFromSag`, `catenary_solver.cc` L295-372. -/
noncomputable def solveSag (s : CatenarySolver) : Bool × CatenarySolver :=
  let l := probe s.sagProbe s.catenary s.leftStart
  if l.1 < s.valueTarget then (false, { s with catenary := l.2 })
  else
    let r := probe s.sagProbe l.2 (s.leftStart * 1.10)
    let o := secantSolve s.sagProbe s.valueTarget ⟨s.leftStart, l.1⟩ ⟨s.leftStart * 1.10, r.1⟩ r.2
    (o.1, { s with catenary := o.2 })

open Classical in
/-- The tension probed, `catenary_solver.cc` L524-529. -/
noncomputable def tensionProbe (s : CatenarySolver) : Probe := fun k =>
  if s.positionTarget = -1 then k.tensionMax else k.tension s.positionTarget

open Classical in
/-- `SolveHorizontalTensionFromTension`, `catenary_solver.cc` L376-454. -/
noncomputable def solveTension (s : CatenarySolver) : Bool × CatenarySolver :=
  let l := probe s.tensionProbe s.catenary s.leftStart
  if s.valueTarget < l.1 then (false, { s with catenary := l.2 })
  else
    let r := probe s.tensionProbe l.2 s.valueTarget
    let o := secantSolve s.tensionProbe s.valueTarget ⟨s.leftStart, l.1⟩ ⟨s.valueTarget, r.1⟩ r.2
    (o.1, { s with catenary := o.2 })

/-- The solver selected by the target type, `catenary_solver.cc` L458-484; no solver for `kNull`. -/
noncomputable def solve (s : CatenarySolver) : Option (Bool × CatenarySolver) :=
  match s.typeTarget with
  | .null => none
  | .constant => some s.solveConstant
  | .length => some s.solveLength
  | .sag => some s.solveSag
  | .tension => some s.solveTension

/-- The catenary after `Catenary3d::Validate`, which updates it unless a parameter is rejected; whether it
does makes no difference to later answers, so the model always updates it. -/
noncomputable def validated (k : Catenary3d) : Catenary3d := k.refresh

/-- `Update`, `catenary_solver.cc` L456-493: result and object afterwards. -/
noncomputable def update (s : CatenarySolver) : Bool × CatenarySolver :=
  match s.solve with
  | none => (false, s)
  | some (false, s') => (false, { s' with isUpdated := false })
  | some (true, s') =>
    (s'.catenary.validate.1, { s' with isUpdated := true, catenary := validated s'.catenary })

/-- `TensionHorizontal`, `catenary_solver.cc` L29-36: answer and object afterwards. -/
noncomputable def tensionHorizontal (s : CatenarySolver) : ℝ × CatenarySolver :=
  if s.isUpdated = true then (s.catenary.tensionHorizontal, s)
  else if s.update.1 = true then (s.update.2.catenary.tensionHorizontal, s.update.2)
  else (-999999, s.update.2)

/-- `Catenary`, `catenary_solver.cc` L20-27: answer and object afterwards. -/
noncomputable def catenaryQ (s : CatenarySolver) : Catenary3d × CatenarySolver :=
  if s.isUpdated = true then (s.catenary, s)
  else if s.update.1 = true then (s.update.2.catenary, s.update.2)
  else (Catenary3d.new, s.update.2)

/-- The inputs accepted by the first part of `Validate`, `catenary_solver.cc` L46-128. -/
def InputsValid (s : CatenarySolver) : Prop :=
  (s.positionTarget = -1 ∨ ¬ (s.positionTarget < 0 ∨ 1 < s.positionTarget)) ∧
  ¬ s.catenary.spacing.x ≤ 0 ∧ ¬ s.catenary.spacing.y ≠ 0 ∧ ¬ 2000 < |s.catenary.spacing.z| ∧
  ¬ s.typeTarget = .null ∧ ¬ s.valueTarget ≤ 0 ∧
  ¬ s.catenary.weightUnit.x ≠ 0 ∧ ¬ s.catenary.weightUnit.y < 0 ∧ ¬ s.catenary.weightUnit.z ≤ 0

open Classical in
/-- `Validate`, `catenary_solver.cc` L38-147: answer and object afterwards. -/
noncomputable def validate (s : CatenarySolver) : Bool × CatenarySolver :=
  if s.InputsValid then s.update else (false, s)

/-! Histories. -/

/-- Calls on a solver. -/
inductive Event where
  | setPositionTarget (p : ℝ)
  | setSpacing (v : V3)
  | setTypeTarget (t : TargetType)
  | setValueTarget (v : ℝ)
  | setWeight (v : V3)
  | tensionHorizontal
  | catenary
  | validate

/-- State after a call. -/
noncomputable def Event.next (s : CatenarySolver) : Event → CatenarySolver
  | .setPositionTarget p => s.setPositionTarget p
  | .setSpacing v => s.setSpacing v
  | .setTypeTarget t => s.setTypeTarget t
  | .setValueTarget v => s.setValueTarget v
  | .setWeight v => s.setWeight v
  | .tensionHorizontal => s.tensionHorizontal.2
  | .catenary => s.catenaryQ.2
  | .validate => s.validate.2

/-- Solvers reached from a new one by any history. -/
def Reachable (s : CatenarySolver) : Prop := ∃ es : List Event, s = es.foldl Event.next new

end CatenarySolver
end Verif
