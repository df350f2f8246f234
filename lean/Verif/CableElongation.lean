import Verif.ComponentElongation
import Mathlib.Data.List.Sort

/-!
# Model of `sagtension/cable_elongation_model.cc`

Exact real arithmetic, see `Verif/ComponentElongation.lean`.  The component models keep pointers to the states
held here; the model gives them the values (see there).

A query of a component model first updates that component model.  Updating is idempotent
(`ComponentModel.update_again`), so where the code queries a component model several times in a row the model
updates it once and reads the answers from the updated object.
-/

namespace Verif

/-- `CableElongationModel::ComponentType`, `include/models/sagtension/cable_elongation_model.h` L66-70. -/
inductive ElongationPart where
  | combined
  | core
  | shell
  deriving DecidableEq, Repr

/-- `CableElongationModel`, members L259-300 of the header. -/
structure ElongationModel where
  cable : Option Cable
  core : ComponentModel
  shell : ComponentModel
  isUpdatedState : Bool
  isUpdatedStretch : Bool
  regions : List V2
  state : CableState
  stretch : CableStretchState

namespace ComponentModel

/-- The answer to a query of an updated component model; `-999999` if updating has failed. -/
noncomputable def answer (body : CableComponent → PolynomialType → Regions → ℝ → ℝ → ℝ) (m : ComponentModel)
    (x : ℝ) : ℝ :=
  if m.isUpdatedState = true ∧ m.isUpdatedStretch = true then
    match m.component, m.state with
    | some c, some s => body c s.type m.points m.thermalState x
    | _, _ => -999999
  else -999999

/-- The region points of an updated component model. -/
noncomputable def regionsAnswer (m : ComponentModel) : Regions :=
  if m.isUpdatedState = true ∧ m.isUpdatedStretch = true then m.points else noRegions

end ComponentModel

/-- The loop variables of `StrainCombined`, `cable_elongation_model.cc` L334-382. -/
structure StrainSearch where
  left : V2
  right : V2
  current : V2
  iter : ℕ

open Classical in
/-- One pass of the loop of `StrainCombined`, L344-381. -/
noncomputable def StrainSearch.step (f : ℝ → ℝ) (load : ℝ) (s : StrainSearch) : StrainSearch :=
  let slopeLine := (s.right.y - s.left.y) / (s.right.x - s.left.x)
  let x := s.left.x + (load - s.left.y) / slopeLine
  let current : V2 := ⟨x, f x⟩
  let s := { s with current := current, iter := s.iter + 1 }
  if current.x < s.left.x then { s with right := s.left, left := current }
  else if s.left.x ≤ current.x ∧ current.x ≤ s.right.x then
    if current.y < load then { s with left := current }
    else if load < current.y then { s with right := current }
    else s
  else if s.right.x < current.x then { s with left := s.right, right := current }
  else s

open Classical in
/-- The loop of `StrainCombined`, L343-382, precision 2 decimals; `fuel` is `100 - iter`. -/
noncomputable def strainLoop (f : ℝ → ℝ) (load : ℝ) : ℕ → StrainSearch → StrainSearch
  | 0, s => s
  | fuel + 1, s =>
    if 1 / (10 : ℝ) ^ (2 : ℤ) < |s.current.y - load| then strainLoop f load fuel (s.step f load) else s

open Classical in
/-- The search for the region around a load, L321-332: the first pair of neighbours around the load; reading
past the last point is undefined. -/
noncomputable def findRegion (load : ℝ) : List V2 → Option (V2 × V2)
  | p :: q :: rest => if p.y ≤ load ∧ load ≤ q.y then some (p, q) else findRegion load (q :: rest)
  | _ => none

open Classical in
/-- The points the iteration starts from, L285-332; or the strain returned at once for loads below all
points.  The moduli are compared as pointers (L295-298); they are never null, so the cable counts as
incompressible whatever its moduli are. -/
noncomputable def strainStart (f : ℝ → ℝ) (regions : List V2) (load : ℝ) : Res (ℝ ⊕ (V2 × V2)) :=
  match regions.head?, regions.getLast? with
  | some min, some max =>
    if load ≤ min.y then .val (.inl min.x)
    else if max.y ≤ load then .val (.inr (max, ⟨max.x + 0.0005, f (max.x + 0.0005)⟩))
    else
      match findRegion load regions with
      | some p => .val (.inr p)
      | none => .ub
  | _, _ => .ub

/-- `StrainCombined`, L279-389: `f` is `LoadCombined`. -/
noncomputable def strainCombined (f : ℝ → ℝ) (regions : List V2) (load : ℝ) : Res ℝ :=
  match strainStart f regions load with
  | .val (.inl x) => .val x
  | .val (.inr (l, r)) =>
    let s := strainLoop f load 99 ⟨l, r, ⟨-999999, -999999⟩, 1⟩
    .val (if s.iter < 100 then s.current.x else -999999)
  | .throws => .throws
  | .ub => .ub

namespace ElongationModel

/-- Constructor, L27-32. -/
noncomputable def new : ElongationModel :=
  ⟨none, .new, .new, false, false, [], .new, .new⟩

open Classical in
/-- One component of `set_cable`, L190-206. -/
noncomputable def attach (k : Cable) (c : CableComponent) (m : ComponentModel) : ComponentModel :=
  if c.Enabled then (m.setComponent (some c)).setReference (some k.temperatureProperties) else .new

/-- `set_cable`, L186-211. -/
noncomputable def setCable (m : ElongationModel) (k : Option Cable) : ElongationModel :=
  let m := match k with
    | some k => { m with core := attach k k.core m.core, shell := attach k k.shell m.shell }
    | none => m
  { m with cable := k, isUpdatedStretch := false, isUpdatedState := false }

/-- `set_state`, L213-217. -/
def setState (m : ElongationModel) (s : CableState) : ElongationModel :=
  { m with state := s, isUpdatedState := false }

/-- `set_state_stretch`, L219-225. -/
def setStretch (m : ElongationModel) (s : CableStretchState) : ElongationModel :=
  { m with stretch := s, isUpdatedStretch := false, isUpdatedState := false }

open Classical in
/-- `LoadCore`, `SlopeCore`, `StrainCore` and the like, L243-277 and L391-405, on an updated component
model: zero for a disabled component. -/
noncomputable def part (body : CableComponent → PolynomialType → Regions → ℝ → ℝ → ℝ) (c : CableComponent)
    (m : ComponentModel) (x : ℝ) : ℝ :=
  if c.Enabled then m.answer body x else 0

/-- `LoadCombined`/`SlopeCombined`, L239-241 and L259-261, on updated component models. -/
noncomputable def both (body : CableComponent → PolynomialType → Regions → ℝ → ℝ → ℝ) (k : Cable)
    (m : ElongationModel) (x : ℝ) : ℝ :=
  part body k.core m.core x + part body k.shell m.shell x

open Classical in
/-- Updating a component model in the course of a query, if it is enabled. -/
noncomputable def touch (c : CableComponent) (m : ComponentModel) : Outcome ComponentModel Unit :=
  if c.Enabled then
    match m.update with
    | .ok m' _ => .ok m' ()
    | .throws m' => .throws m'
    | .ub => .ub
  else .ok m ()

/-- Updating the core, then the shell model. -/
noncomputable def touchBoth (k : Cable) (m : ElongationModel) : Outcome ElongationModel Unit :=
  match touch k.core m.core with
  | .ok c () =>
    match touch k.shell m.shell with
    | .ok s () => .ok { m with core := c, shell := s } ()
    | .throws s => .throws { m with core := c, shell := s }
    | .ub => .ub
  | .throws c => .throws { m with core := c }
  | .ub => .ub

open Classical in
/-- Setting the state of an enabled component, L430-438. -/
noncomputable def giveState (s : CableState) (c : CableComponent) (m : ComponentModel) : ComponentModel :=
  if c.Enabled then m.setState (some s) else m

open Classical in
/-- Setting the stretch of an enabled component, L451-462 and L481-490. -/
noncomputable def giveStretch (s : CableStretchState) (c : CableComponent) (m : ComponentModel) :
    ComponentModel :=
  if c.Enabled then m.setStretch (some s) else m

open Classical in
/-- The strains of the region points of an enabled component, L499-516. -/
noncomputable def regionStrains (c : CableComponent) (m : ComponentModel) : List ℝ :=
  if c.Enabled then
    [m.regionsAnswer.unloaded.x, m.regionsAnswer.start.x, m.regionsAnswer.stop.x]
  else []

open Classical in
/-- `UpdatePointsRegions`, L495-530: the points of the components, sorted by strain, with the load of the
whole cable (only the strain of a point survives, L522-527, so the order of equal strains is immaterial). -/
noncomputable def updatePointsRegions (k : Cable) (m : ElongationModel) : Outcome ElongationModel Unit :=
  match m.touchBoth k with
  | .ok m () =>
    let strains := (regionStrains k.core m.core ++ regionStrains k.shell m.shell).insertionSort (· ≤ ·)
    .ok { m with regions := strains.map fun x => ⟨x, m.both CableComponent.load k x⟩ } ()
  | o => o

/-- `UpdateComponentsState`, L428-444. -/
noncomputable def updateComponentsState (k : Cable) (s : CableState) (m : ElongationModel) :
    Outcome ElongationModel Unit :=
  ({ m with core := giveState s k.core m.core, shell := giveState s k.shell m.shell }).updatePointsRegions k

open Classical in
/-- `UpdateComponentsStretch`, L450-493. -/
noncomputable def updateComponentsStretch (k : Cable) (m : ElongationModel) : Outcome ElongationModel Unit :=
  let m := { m with core := giveStretch { m.stretch with load := 0 } k.core m.core
                    shell := giveStretch { m.stretch with load := 0 } k.shell m.shell }
  if m.stretch.load = 0 then .ok m ()
  else
    match m.updateComponentsState k ⟨m.stretch.temperature, m.stretch.type⟩ with
    | .ok m () =>
      match strainCombined (m.both CableComponent.load k) m.regions m.stretch.load with
      | .val x =>
        let lc := part CableComponent.load k.core m.core x
        let ls := part CableComponent.load k.shell m.shell x
        .ok { m with core := giveStretch { m.stretch with load := lc } k.core m.core
                     shell := giveStretch { m.stretch with load := ls } k.shell m.shell } ()
      | .throws => .throws m
      | .ub => .ub
    | o => o

/-- The second half of `Update`, L416-425. -/
noncomputable def finishUpdate (k : Cable) (m : ElongationModel) : Outcome ElongationModel Unit :=
  match ({ m with isUpdatedStretch := true }).updateComponentsState k m.state with
  | .ok m () => .ok { m with isUpdatedState := true } ()
  | o => o

/-- `Update`, L407-426, of a cable. -/
noncomputable def updateWith (k : Cable) (m : ElongationModel) : Outcome ElongationModel Unit :=
  match (if m.isUpdatedStretch = false then m.updateComponentsStretch k else .ok m ()) with
  | .ok m () => m.finishUpdate k
  | o => o

/-- `Update`, L407-426 (called when not both flags are set): a null cable is dereferenced. -/
noncomputable def update (m : ElongationModel) : Outcome ElongationModel Unit :=
  if m.isUpdatedStretch = true ∧ m.isUpdatedState = true then .ok m ()
  else
    match m.cable with
    | none => .ub
    | some k => m.updateWith k

/-- Update, then continue with the cable (`IsUpdated() == false && Update() == false` never returns: `Update`
reports no failure). -/
noncomputable def updated {A : Type} (m : ElongationModel) (f : Cable → ElongationModel → Outcome ElongationModel A) :
    Outcome ElongationModel A :=
  match m.update with
  | .ok m () =>
    match m.cable with
    | some k => f k m
    | none => .ub
  | .throws m => .throws m
  | .ub => .ub

/-- Read one component model. -/
noncomputable def readCore {A : Type} (k : Cable) (m : ElongationModel) (f : ComponentModel → A) :
    Outcome ElongationModel A :=
  match touch k.core m.core with
  | .ok c () => .ok { m with core := c } (f c)
  | .throws c => .throws { m with core := c }
  | .ub => .ub

/-- Read the other. -/
noncomputable def readShell {A : Type} (k : Cable) (m : ElongationModel) (f : ComponentModel → A) :
    Outcome ElongationModel A :=
  match touch k.shell m.shell with
  | .ok c () => .ok { m with shell := c } (f c)
  | .throws c => .throws { m with shell := c }
  | .ub => .ub

/-- Read both. -/
noncomputable def readBoth {A : Type} (k : Cable) (m : ElongationModel) (f : ElongationModel → A) :
    Outcome ElongationModel A :=
  match m.touchBoth k with
  | .ok m () => .ok m (f m)
  | .throws m => .throws m
  | .ub => .ub

/-- Load or slope of a part, dispatch of L37-55 and L57-75. -/
noncomputable def askPart (body : CableComponent → PolynomialType → Regions → ℝ → ℝ → ℝ) (t : ElongationPart)
    (x : ℝ) (m : ElongationModel) : Outcome ElongationModel ℝ :=
  m.updated fun k m =>
    match t with
    | .combined => m.readBoth k fun m => m.both body k x
    | .core => m.readCore k fun c => part body k.core c x
    | .shell => m.readShell k fun c => part body k.shell c x

/-- `Load`, L37-55. -/
noncomputable def load : ElongationPart → ℝ → ElongationModel → Outcome ElongationModel ℝ :=
  askPart CableComponent.load

/-- `Slope`, L57-75. -/
noncomputable def slope : ElongationPart → ℝ → ElongationModel → Outcome ElongationModel ℝ :=
  askPart CableComponent.slope

open Classical in
/-- `StrainCombined` as called by `Strain`, L279-389: a load below all points is answered without a query of
the component models. -/
noncomputable def askStrain (k : Cable) (l : ℝ) (m : ElongationModel) : Outcome ElongationModel ℝ :=
  match m.regions.head? with
  | none => .ub
  | some min =>
    if l ≤ min.y then .ok m min.x
    else
      match m.touchBoth k with
      | .ok m () =>
        match strainCombined (m.both CableComponent.load k) m.regions l with
        | .val x => .ok m x
        | .throws => .throws m
        | .ub => .ub
      | .throws m => .throws m
      | .ub => .ub

/-- `Strain`, L77-95. -/
noncomputable def strain (t : ElongationPart) (l : ℝ) (m : ElongationModel) : Outcome ElongationModel ℝ :=
  m.updated fun k m =>
    match t with
    | .combined => m.askStrain k l
    | .core => m.readCore k fun c => part CableComponent.strain k.core c l
    | .shell => m.readShell k fun c => part CableComponent.strain k.shell c l

open Classical in
/-- `ValidateComponentsStrainLimit`, L532-597: limits are taken for the type of the current state. -/
noncomputable def validateStrainLimit (k : Cable) (m : ElongationModel) : Outcome ElongationModel Bool :=
  match m.updateComponentsState k ⟨k.temperatureProperties, .loadStrain⟩ with
  | .ok m () =>
    match strainCombined (m.both CableComponent.load k) m.regions k.strengthRated with
    | .val strainMax =>
      match k.core.limit m.state.type, k.shell.limit m.state.type with
      | some lc, some ls =>
        let okCore := !decide (k.core.Enabled ∧ part CableComponent.strain k.core m.core lc < strainMax)
        let okShell := !decide (k.shell.Enabled ∧ part CableComponent.strain k.shell m.shell ls < strainMax)
        match m.updateComponentsState k m.state with
        | .ok m () => .ok m (okCore && okShell)
        | .throws m => .throws m
        | .ub => .ub
      | _, _ => .ub
    | .throws => .throws m
    | .ub => .ub
  | .throws m => .throws m
  | .ub => .ub

open Classical in
/-- `ValidateComponentsStrainUnloaded`, L599-666.  The core is tested twice for being enabled (L613-614).
The states are restored by setting the stretch of the whole cable on both components (L658-663). -/
noncomputable def validateStrainUnloaded (k : Cable) (m : ElongationModel) : Outcome ElongationModel Bool :=
  if ¬ k.core.Enabled then .ok m true
  else
    let s : CableState := ⟨k.temperatureProperties, .loadStrain⟩
    let ss : CableStretchState := ⟨k.temperatureProperties, .loadStrain, 0⟩
    let m := { m with core := (m.core.setState (some s)).setStretch (some ss)
                      shell := (m.shell.setState (some s)).setStretch (some ss) }
    match m.touchBoth k with
    | .ok m () =>
      let difference := part CableComponent.strain k.core m.core 0 - part CableComponent.strain k.shell m.shell 0
      .ok { m with core := (m.core.setState (some m.state)).setStretch (some m.stretch)
                   shell := (m.shell.setState (some m.state)).setStretch (some m.stretch) }
        (!decide (0.0005 < |difference| ∨ 0.0001 < |difference|))
    | .throws m => .throws m
    | .ub => .ub

open Classical in
/-- The part of `Validate` after the update, L144-179. -/
noncomputable def validateComponents (warnings : Bool) (k : Cable) (m : ElongationModel) :
    Outcome ElongationModel Bool :=
  if ¬ (k.core.Enabled ∨ k.shell.Enabled) then .ok m false
  else
    match (if k.core.Enabled then m.core.validate warnings else .ok m.core true) with
    | .ok c v1 =>
      let m := { m with core := c }
      match (if k.shell.Enabled then m.shell.validate warnings else .ok m.shell true) with
      | .ok s v2 =>
        let m := { m with shell := s }
        if warnings = false then .ok m (v1 && v2)
        else
          match m.validateStrainLimit k with
          | .ok m v3 =>
            match m.validateStrainUnloaded k with
            | .ok m v4 => .ok m (v1 && v2 && v3 && v4)
            | o => o
          | o => o
      | .throws s => .throws { m with shell := s }
      | .ub => .ub
    | .throws c => .throws { m with core := c }
    | .ub => .ub

/-- `Validate(is_included_warnings)`, L97-180: the flag. -/
noncomputable def validate (warnings : Bool) (m : ElongationModel) : Outcome ElongationModel Bool :=
  match m.cable with
  | none => .ok m false
  | some k =>
    if k.validateSagTension.1 = true ∧ m.state.validate.1 = true ∧ m.stretch.validate.1 = true then
      m.updated fun k m => validateComponents warnings k m
    else .ok m false

/-- The calls a user can make. -/
inductive Call where
  | setCable (k : Option Cable)
  | setState (s : CableState)
  | setStretch (s : CableStretchState)
  | load (t : ElongationPart) (x : ℝ)
  | slope (t : ElongationPart) (x : ℝ)
  | strain (t : ElongationPart) (l : ℝ)
  | validate (warnings : Bool)

/-- The object after a call; nothing after undefined behaviour. -/
noncomputable def Call.next : Call → ElongationModel → Option ElongationModel
  | .setCable k, m => some (m.setCable k)
  | .setState s, m => some (m.setState s)
  | .setStretch s, m => some (m.setStretch s)
  | .load t x, m => (m.load t x).state?
  | .slope t x, m => (m.slope t x).state?
  | .strain t l, m => (m.strain t l).state?
  | .validate w, m => (m.validate w).state?

/-- The object after a list of calls, if none of them runs into undefined behaviour. -/
noncomputable def run : ElongationModel → List Call → Option ElongationModel
  | m, [] => some m
  | m, k :: ks => (k.next m).bind fun m' => run m' ks

end ElongationModel

end Verif
