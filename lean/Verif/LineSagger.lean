import Verif.LineLoader

/-!
# Model of `sagtension/line_cable_sagger.cc`

The line cable and the vector of design constraints are modelled by the contents of the objects pointed to, which are
assumed to stay alive and to be changed only by the sagger itself and by setting them again.  The sagger writes the
new constraint limit into the line cable.  Line cable reloaders are local objects; one that is reused for several
constraints answers as a new one with the same settings (`Props.C116_reloader`), so the model takes a new one each
time.  Exact real arithmetic.  The heap holds the structures the line cable is connected to.
-/

namespace Verif

/-- A line cable reloader with the given settings. -/
noncomputable def reloaderOf (c : SectionCable) (w : Option WeatherLoadCase) (d : CableCondition) : LineReloader :=
  ((LineReloader.new.setLineCable (some c)).setCondition d).setWeather w

/-- The members of `LineCableSagger`, `include/models/sagtension/line_cable_sagger.h` L138-157. -/
structure Sagger where
  constraints : Option (List CableConstraint)
  lineCable : Option SectionCable
  catenaries : List Catenary3d
  index : ℤ
  isUpdated : Bool

namespace Sagger

/-- Constructor, `line_cable_sagger.cc` L8-14. -/
def new : Sagger := ⟨none, none, [], -9999, false⟩

/-- `set_constraints_design`, L156-161. -/
def setConstraints (s : Sagger) (qs : Option (List CableConstraint)) : Sagger :=
  { s with constraints := qs, isUpdated := false }

/-- `set_line_cable`, L163-167. -/
def setLineCable (s : Sagger) (c : Option SectionCable) : Sagger := { s with lineCable := c, isUpdated := false }

/-- The horizontal tension when the constraint `q` is reloaded at the loading of the line cable's constraint,
L206-222. -/
noncomputable def tensionOf (c : SectionCable) (q : CableConstraint) : Option (Res ℝ) :=
  (reloaderOf { c with constraint := q } c.constraint.caseWeather c.constraint.condition).tensionHorizontal.result

open Classical in
/-- The loop of `UpdateControllingConstraintIndex`, L214-237; `n` is the index of the first constraint of the list,
`b` the lowest tension so far and `i` the member holding the index. -/
noncomputable def controlLoop (f : CableConstraint → Option (Res ℝ)) :
    List CableConstraint → ℕ → ℝ → ℤ → Run ℤ Bool
  | [], _, _, i => .ok i true
  | q :: qs, n, b, i =>
    match f q with
    | some (.val t) =>
      if t = -999999 then .ok i false
      else if t < b then controlLoop f qs (n + 1) t n
      else controlLoop f qs (n + 1) b i
    | some .throws => .throws i
    | some .ub => .ub
    | none => .nan

/-- `UpdateControllingConstraintIndex`, L192-240. -/
noncomputable def updateIndex (s : Sagger) : Run Sagger Bool :=
  match s.constraints with
  | none => .ub
  | some qs =>
    if qs.length = 1 then .ok { s with index := 0 } true
    else
      match s.lineCable with
      | none => .ub
      | some c => (controlLoop (tensionOf c) qs 0 999999 (-9999)).mapState fun i => { s with index := i }

/-- `Validate` and then `CatenaryReloaded` of a reloader, L263-267 and L302-306; `none` if it is rejected. -/
noncomputable def reloadChecked (heap : Heap ℝ) (r : LineReloader) : Option (Res (Option Catenary3d)) :=
  match r.validate heap with
  | .ok r' true =>
    match r'.catenaryReloaded.result with
    | some (.val k) => some (.val (some k))
    | some .throws => some .throws
    | some .ub => some .ub
    | none => none
  | .ok _ false => some (.val none)
  | .throws _ => some .throws
  | .ub => some .ub
  | .nan => none

/-- The new limit, L270-280: only three of the limit types get one. -/
noncomputable def limitOf (k : Catenary3d) (t : LimitType) (old : ℝ) : ℝ :=
  match t with
  | .horizontalTension => k.tensionHorizontal
  | .catenaryConstant => k.constant
  | .supportTension => k.tensionMax
  | _ => old

/-- The line cable with another limit, L268 and L281. -/
noncomputable def resag (c : SectionCable) (k : Catenary3d) : SectionCable :=
  { c with constraint := { c.constraint with limit := limitOf k c.constraint.typeLimit c.constraint.limit } }

/-- `UpdateLineCableConstraintLimit`, L242-284. -/
noncomputable def updateLimit (heap : Heap ℝ) (s : Sagger) : Run Sagger Bool :=
  s.updateIndex.bind fun s b =>
    if b = false then .ok s false
    else
      match s.constraints, s.lineCable with
      | some qs, some c =>
        if validIndex s.index qs.length = true then
          match qs[s.index.toNat]? with
          | some q =>
            match reloadChecked heap (reloaderOf { c with constraint := q } c.constraint.caseWeather
                c.constraint.condition) with
            | some (.val (some k)) => .ok { s with lineCable := some (resag c k) } true
            | some (.val none) => .ok s false
            | some .throws => .throws s
            | some .ub => .ub
            | none => .nan
          | none => .throws s
        else .throws s
      | _, _ => .ub

/-- The loop of `UpdateCatenariesConstraintsActual`, L292-308; the state is the list of catenaries. -/
noncomputable def actualLoop (f : CableConstraint → Option (Res (Option Catenary3d))) :
    List CableConstraint → List Catenary3d → Run (List Catenary3d) Bool
  | [], ks => .ok ks true
  | q :: qs, ks =>
    match f q with
    | some (.val (some k)) => actualLoop f qs (ks ++ [k])
    | some (.val none) => .ok ks false
    | some .throws => .throws ks
    | some .ub => .ub
    | none => .nan

/-- `UpdateCatenariesConstraintsActual`, L286-310. -/
noncomputable def updateActual (heap : Heap ℝ) (s : Sagger) : Run Sagger Bool :=
  match s.constraints, s.lineCable with
  | some qs, some c =>
    (actualLoop (fun q => reloadChecked heap (reloaderOf c q.caseWeather q.condition)) qs []).mapState fun ks =>
      { s with catenaries := ks }
  | _, _ => .ub

/-- `Update`, L173-190. -/
noncomputable def update (heap : Heap ℝ) (s : Sagger) : Run Sagger Bool :=
  if s.isUpdated = true then .ok s true
  else
    (s.updateLimit heap).bind fun s b =>
      if b = false then .ok { s with isUpdated := false } false
      else
        (({ s with isUpdated := true } : Sagger).updateActual heap).bind fun s b =>
          .ok { s with isUpdated := b } b

/-- The prologue of the queries, e.g. L21-23. -/
noncomputable def ask {A : Type} (heap : Heap ℝ) (s : Sagger) (d : A) (f : Sagger → Run Sagger A) : Run Sagger A :=
  (s.update heap).bind fun s b => if b = true then f s else .ok s d

/-- The catenary of an index, `at` throwing for a bad one, e.g. L49. -/
def catenaryAt (s : Sagger) (i : ℤ) : Res Catenary3d :=
  if validIndex i s.catenaries.length = true then
    match s.catenaries[i.toNat]? with
    | some k => .val k
    | none => .throws
  else .throws

/-- `IndexConstraintControlling`, L53-60. -/
noncomputable def indexControlling (heap : Heap ℝ) (s : Sagger) : Run Sagger ℤ :=
  s.ask heap (-9999) fun s => .ok s s.index

/-- `LimitConstraintSaggedLineCable`, L62-69. -/
noncomputable def limitSagged (heap : Heap ℝ) (s : Sagger) : Run Sagger ℝ :=
  s.ask heap (-999999) fun s =>
    match s.lineCable with
    | some c => .ok s c.constraint.limit
    | none => .ub

/-- A query about the catenary of one constraint. -/
noncomputable def askActual (heap : Heap ℝ) (s : Sagger) (i : ℤ) (f : Catenary3d → ℝ) : Run Sagger ℝ :=
  s.ask heap (-999999) fun s =>
    match s.catenaryAt i with
    | .val k => .ok s (f k)
    | .throws => .throws s
    | .ub => .ub

/-- `CatenaryConstantActual`, L43-51. -/
noncomputable def constantActual (heap : Heap ℝ) (s : Sagger) (i : ℤ) : Run Sagger ℝ :=
  s.askActual heap i fun k => k.constant
/-- `TensionHorizontalActual`, L71-79. -/
noncomputable def tensionHorizontalActual (heap : Heap ℝ) (s : Sagger) (i : ℤ) : Run Sagger ℝ :=
  s.askActual heap i fun k => k.tensionHorizontal
/-- `TensionSupportActual`, L81-89. -/
noncomputable def tensionSupportActual (heap : Heap ℝ) (s : Sagger) (i : ℤ) : Run Sagger ℝ :=
  s.askActual heap i fun k => k.tensionMax

open Classical in
/-- `CapacityAllowable`, L19-41; a limit of zero gives an infinity. -/
noncomputable def capacityAllowable (heap : Heap ℝ) (s : Sagger) (i : ℤ) : Run Sagger ℝ :=
  s.ask heap (-999999) fun s =>
    match s.constraints with
    | none => .ub
    | some qs =>
      if validIndex i qs.length = true then
        match qs[i.toNat]?, s.catenaryAt i with
        | some q, .val k =>
          match q.typeLimit with
          | .horizontalTension => if q.limit = 0 then .nan else .ok s (k.tensionHorizontal / q.limit)
          | .catenaryConstant => if q.limit = 0 then .nan else .ok s (k.constant / q.limit)
          | .supportTension => if q.limit = 0 then .nan else .ok s (k.tensionMax / q.limit)
          | _ => .ok s (-999999)
        | _, _ => .throws s
      else .throws s

/-- The checks of `Validate` before the update, L91-123. -/
noncomputable def validMembers (heap : Heap ℝ) (s : Sagger) : Res Bool :=
  match s.constraints with
  | none => .ub
  | some qs =>
    let a := qs.all fun q => q.validate.1
    match s.lineCable with
    | none => .val false
    | some c =>
      match c.validate heap with
      | .val b => .val (a && b.1)
      | .throws => .throws
      | .ub => .ub

/-- `Validate`, L91-145: the flag. -/
noncomputable def validate (heap : Heap ℝ) (s : Sagger) : Run Sagger Bool :=
  (Run.ofRes s (s.validMembers heap)).bind fun s b => if b = true then s.update heap else .ok s false

/-- The calls a user can make.  All queries update the object in the same way. -/
inductive Call where
  | setConstraints (qs : Option (List CableConstraint))
  | setLineCable (c : Option SectionCable)
  | query (heap : Heap ℝ)
  | validate (heap : Heap ℝ)

/-- The object after a call, if there is one. -/
noncomputable def Call.next : Call → Sagger → Option Sagger
  | .setConstraints qs, s => some (s.setConstraints qs)
  | .setLineCable c, s => some (s.setLineCable c)
  | .query heap, s => (s.update heap).state?
  | .validate heap, s => (s.validate heap).state?

/-- The object after a list of calls. -/
noncomputable def run : Sagger → List Call → Option Sagger
  | s, [] => some s
  | s, k :: ks => (k.next s).bind fun s' => run s' ks

end Sagger

end Verif
