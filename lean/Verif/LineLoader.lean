import Verif.CableReloader
import Verif.SectionCable

/-!
# Model of `sagtension/line_cable_loader_base.cc`, `line_cable_reloader.cc` and `line_cable_unloader.cc`

Exact real arithmetic.  The line cable is modelled by the contents of the object pointed to, which is assumed to
stay alive and unchanged between `set_line_cable` and the last query.

The classes keep three or four elongation models and build catenary reloaders around them.  Cable, state and stretch
state of an elongation model are set anew before it is used, and in that order its answers do not depend on earlier
calls (`Props.C64_cable_partial`, the last setter being `set_state_stretch`); neither do those of a catenary reloader
(`Props.C94_history`).  So the model uses new objects with the same settings.
-/

namespace Verif

/-- Result of a call, as `Outcome`, with a fourth case.  `nan`: a member has become a NaN or an infinity and the
code goes on computing with it; the model does not follow it there. -/
inductive Run (S A : Type) where
  | ok (s : S) (a : A)
  | throws (s : S)
  | ub
  | nan

namespace Run

/-- Continue with the state and the value. -/
def bind {S A B : Type} (o : Run S A) (f : S → A → Run S B) : Run S B :=
  match o with
  | .ok s a => f s a
  | .throws s => .throws s
  | .ub => .ub
  | .nan => .nan

/-- A call that does not change the state. -/
def ofRes {S A : Type} (s : S) : Res A → Run S A
  | .val a => .ok s a
  | .throws => .throws s
  | .ub => .ub

/-- A call on a part of the object. -/
def mapState {S T A : Type} (g : S → T) : Run S A → Run T A
  | .ok s a => .ok (g s) a
  | .throws s => .throws (g s)
  | .ub => .ub
  | .nan => .nan

/-- The state after the call, if there is one. -/
def state? {S A : Type} : Run S A → Option S
  | .ok s _ => some s
  | .throws s => some s
  | .ub => none
  | .nan => none

/-- The result without the state; `none` for `nan`. -/
def result {S A : Type} : Run S A → Option (Res A)
  | .ok _ a => some (.val a)
  | .throws _ => some .throws
  | .ub => some .ub
  | .nan => none

end Run

namespace CatenaryReloader

/-- The flag of an elongation model behind a pointer, `catenary_cable_reloader.cc` L76-100; a null pointer is reported. -/
noncomputable def validModel (m : Option ElongationModel) : Res Bool :=
  match m with
  | none => .val false
  | some m =>
    match m.validate false with
    | .ok _ b => .val b
    | .throws _ => .throws
    | .ub => .ub

open Classical in
/-- The check of the reloaded unit weight, `catenary_cable_reloader.cc` L102-133. -/
noncomputable def validWeight (w : Option V3) : Bool :=
  match w with
  | none => false
  | some w => decide (¬ w.x ≠ 0 ∧ ¬ w.y < 0 ∧ ¬ w.z ≤ 0)

/-- The check of the catenary, `catenary_cable_reloader.cc` L63-74. -/
noncomputable def validCatenary (k : Option Catenary3d) : Bool :=
  match k with
  | none => false
  | some k => k.validate.1

/-- `Validate(false, nullptr)`, `catenary_cable_reloader.cc` L55-151. -/
noncomputable def validate (r : CatenaryReloader) : Outcome CatenaryReloader Bool :=
  match validModel r.modelReference with
  | .val a =>
    match validModel r.modelReloaded with
    | .val b =>
      if (validCatenary r.catenary && a && b && validWeight r.weight) = true then r.update else .ok r false
    | .throws => .throws r
    | .ub => .ub
  | .throws => .throws r
  | .ub => .ub

/-- A new reloader with the given settings. -/
noncomputable def given (k : Catenary3d) (ref rel : ElongationModel) (w : V3) : CatenaryReloader :=
  (((CatenaryReloader.new.setCatenary (some k)).setModelReference (some ref)).setModelReloaded (some rel)).setWeight
    (some w)

end CatenaryReloader

namespace CableStrainer

open Classical in
/-- `Validate`, `cable_strainer.cc` L44-107; `same` tells whether both models point to the same cable object.  Null
models are dereferenced (UB). -/
noncomputable def validate (s : CableStrainer) (same : Bool) : Res Bool :=
  if s.lengthStart ≤ 0 ∨ s.loadFinish < 0 ∨ s.loadStart < 0 then .val false
  else
    match s.modelStart, s.modelFinish with
    | some a, some b =>
      match a.validate false with
      | .ok _ false => .val false
      | .ok _ true =>
        match b.validate false with
        | .ok _ v => .val (same && v)
        | .throws _ => .throws
        | .ub => .ub
      | .throws _ => .throws
      | .ub => .ub
    | _, _ => .ub

end CableStrainer

namespace CatenaryUnloader

/-- `Validate`, `catenary_cable_unloader.cc` L19-46. -/
noncomputable def validate (u : CatenaryUnloader) (same : Bool) : Res Bool :=
  match u.strainer.validate same with
  | .val b => .val (CatenaryReloader.validCatenary u.catenary && b)
  | .throws => .throws
  | .ub => .ub

end CatenaryUnloader

/-- An elongation model with the given settings. -/
noncomputable def modelOf (k : Cable) (s : CableState) (t : CableStretchState) : ElongationModel :=
  ((ElongationModel.new.setCable (some k)).setState s).setStretch t

/-- `UnitLoad`, `line_cable_loader_base.cc` L180-187. -/
noncomputable def SectionCable.unitLoad (c : SectionCable) (w : Option WeatherLoadCase) : Res V3 :=
  match c.cable, w with
  | some k, some w => (⟨some k.diameter, some k.weightUnit⟩ : UnitLoadSolver).unitCableLoad w
  | _, _ => .ub

/-! ## The search for the stretch of the constraint -/

/-- Loop variables of `UpdateConstraintCableModel`, `line_cable_loader_base.cc` L259-283. -/
structure StretchSearch where
  left : V2
  right : V2
  current : V2

open Classical in
/-- Where the new point goes, `line_cable_loader_base.cc` L302-326. -/
noncomputable def StretchSearch.place (s : StretchSearch) (c : V2) : StretchSearch :=
  if c.x < s.left.x then ⟨c, s.left, c⟩
  else if s.left.x ≤ c.x ∧ c.x ≤ s.right.x then
    if c.y < 0 then ⟨s.left, c, c⟩
    else if 0 < c.y then ⟨c, s.right, c⟩
    else ⟨s.left, s.right, c⟩
  else if s.right.x < c.x then ⟨s.right, c, c⟩
  else ⟨s.left, s.right, c⟩

/-- How the search ends. -/
inductive StretchResult where
  | found (x : ℝ)
  | failed
  | nan

open Classical in
/-- The loop, `line_cable_loader_base.cc` L285-339; `fuel` is `100 - iter`.  `f` gives the difference between the
reloaded average tension and the stretch load, `none` when the reload fails: then the average tension is that of a
default catenary, a NaN.  As every comparison with it is false the loop ends, with success unless `iter` is 100, and
the stretch load just tried is kept.  A slope that is zero or undefined gives an infinite or undefined stretch load. -/
noncomputable def stretchLoop (f : ℝ → Res (Option ℝ)) : ℕ → StretchSearch → Res StretchResult
  | 0, _ => .val .failed
  | fuel + 1, s =>
    if 0.01 < |s.current.y - 0| then
      if s.right.x = s.left.x ∨ s.right.y = s.left.y then .val .nan
      else
        let x := s.left.x + (0 - s.left.y) / ((s.right.y - s.left.y) / (s.right.x - s.left.x))
        match f x with
        | .val (some y) => stretchLoop f fuel (s.place ⟨x, y⟩)
        | .val none => .val (if fuel = 0 then .failed else .found x)
        | .throws => .throws
        | .ub => .ub
    else .val (.found s.current.x)

/-- The starting points and the loop, `line_cable_loader_base.cc` L259-339; `strength` is the rated strength.  After a
failed reload at a starting point the stretch load becomes a NaN, and the search ends with success. -/
noncomputable def stretchSearch (f : ℝ → Res (Option ℝ)) (strength : ℝ) : Res StretchResult :=
  match f 0 with
  | .val l =>
    match f strength with
    | .val r =>
      match l, r with
      | some l, some r => stretchLoop f 99 ⟨⟨0, l⟩, ⟨strength, r⟩, ⟨-999999, -999999⟩⟩
      | _, _ => .val .nan
    | .throws => .throws
    | .ub => .ub
  | .throws => .throws
  | .ub => .ub

/-- The average tension after reloading, as in `line_cable_loader_base.cc` L262; `none` if the reload fails. -/
noncomputable def averageReloaded (k : Catenary3d) (ref rel : ElongationModel) (w : V3) : Res (Option ℝ) :=
  match (CatenaryReloader.given k ref rel w).update with
  | .ok r true => .val (some r.catenaryReloaded.tensionAverage)
  | .ok _ false => .val none
  | .throws _ => .throws
  | .ub => .ub

/-! ## `LineCableLoaderBase` -/

/-- The members of `LineCableLoaderBase`, `include/models/sagtension/line_cable_loader_base.h` L107-156; the sag-tension
cable is the cable of the line cable. -/
structure LineLoader where
  lineCable : Option SectionCable
  catenary : Catenary3d
  modelConstraint : ElongationModel
  modelCreep : ElongationModel
  modelLoad : ElongationModel
  stretchCreep : CableStretchState
  stretchLoad : CableStretchState
  updatedCatenary : Bool
  updatedStretch : Bool

namespace LineLoader

/-- Constructor, `line_cable_loader_base.cc` L11-16. -/
noncomputable def new : LineLoader :=
  ⟨none, .new, .new, .new, .new, .new, .new, false, false⟩

/-- `set_line_cable`, L97-109. -/
def setLineCable (s : LineLoader) (c : Option SectionCable) : LineLoader :=
  { s with lineCable := c, updatedCatenary := false, updatedStretch := false }

/-- `IsUpdated`, L175-178. -/
def isUpdated (s : LineLoader) : Bool := s.updatedCatenary && s.updatedStretch

/-- The unstretched state of the constraint's model, L116-140. -/
noncomputable def stretchStart (d : CableCondition) (creep load : WeatherLoadCase) : CableStretchState :=
  match d with
  | .initial => ⟨0, .loadStrain, 0⟩
  | .creep => ⟨creep.temperatureCable, .creep, 0⟩
  | .load => ⟨load.temperatureCable, .loadStrain, 0⟩
  | .null => .new

/-- `InitializeLineCableModels`, L111-173. -/
noncomputable def initModels (s : LineLoader) (c : SectionCable) : Run LineLoader Bool :=
  match c.cable, c.constraint.caseWeather with
  | some k, some w =>
    if c.constraint.condition = .null then .ok s false
    else
      match c.weatherCreep, c.weatherLoad with
      | some a, some b =>
        .ok { s with
          modelConstraint := modelOf k ⟨w.temperatureCable, .loadStrain⟩ (stretchStart c.constraint.condition a b)
          modelCreep := modelOf k ⟨a.temperatureCable, .creep⟩ ⟨a.temperatureCable, .creep, 0⟩
          modelLoad := modelOf k ⟨b.temperatureCable, .loadStrain⟩ ⟨b.temperatureCable, .loadStrain, 0⟩ } true
      | _, _ => .ub
  | _, _ => .ub

/-- The constraint's model with another stretch load, L269-270 and L294-295. -/
noncomputable def stretched (s : LineLoader) (x : ℝ) : ElongationModel :=
  s.modelConstraint.setStretch { s.modelConstraint.stretch with load := x }

/-- The difference the search brings to zero, L262-263 and L299-300: reloaded average tension minus stretch load. -/
noncomputable def stretchDifference (s : LineLoader) (rel : ElongationModel) (w : V3) (x : ℝ) : Res (Option ℝ) :=
  match averageReloaded s.catenary (s.stretched x) rel w with
  | .val y => .val (y.map (· - x))
  | .throws => .throws
  | .ub => .ub

/-- `UpdateConstraintCableModel` for the conditions with stretch, L227-339. -/
noncomputable def solveConstraintStretch (s : LineLoader) (c : SectionCable) (rel : ElongationModel)
    (w : Option WeatherLoadCase) : Run LineLoader Bool :=
  match c.unitLoad w, c.cable with
  | .val v, some k =>
    match stretchSearch (s.stretchDifference rel v) k.strengthRated with
    | .val (.found x) => .ok { s with modelConstraint := s.stretched x } true
    | .val .failed => .ok { s with modelConstraint := s.stretched 0 } false
    | .val .nan => .nan
    | .throws => .throws s
    | .ub => .ub
  | _, _ => .ub

/-- `UpdateConstraintCableModel`, L220-340. -/
noncomputable def updateConstraintModel (s : LineLoader) (c : SectionCable) : Run LineLoader Bool :=
  match c.constraint.condition with
  | .initial => .ok s true
  | .creep => s.solveConstraintStretch c s.modelCreep c.weatherCreep
  | .load => s.solveConstraintStretch c s.modelLoad c.weatherLoad
  | .null => .ok s false

/-- The stretch caused by one weather case, L366-381 and L389-403: the state, or `none` if the reload is rejected. -/
noncomputable def solveStretch (s : LineLoader) (c : SectionCable) (rel : ElongationModel)
    (w : Option WeatherLoadCase) : Res (Option CableStretchState) :=
  match c.unitLoad w with
  | .val v =>
    match (CatenaryReloader.given s.catenary s.modelConstraint rel v).validate with
    | .ok r true => .val (some ⟨rel.state.temperature, rel.state.type, r.catenaryReloaded.tensionAverage⟩)
    | .ok _ false => .val none
    | .throws _ => .throws
    | .ub => .ub
  | .throws => .throws
  | .ub => .ub

/-- The creep half of `UpdateLoadStretch`, L361-382. -/
noncomputable def updateStretchCreep (s : LineLoader) (c : SectionCable) : Run LineLoader Bool :=
  if c.constraint.condition = .creep then .ok { s with stretchCreep := s.modelConstraint.stretch } true
  else
    match s.solveStretch c s.modelCreep c.weatherCreep with
    | .val (some t) => .ok { s with stretchCreep := t } true
    | .val none => .ok s false
    | .throws => .throws s
    | .ub => .ub

/-- The load half of `UpdateLoadStretch`, L384-404. -/
noncomputable def updateStretchLoad (s : LineLoader) (c : SectionCable) : Run LineLoader Bool :=
  if c.constraint.condition = .load then .ok { s with stretchLoad := s.modelConstraint.stretch } true
  else
    match s.solveStretch c s.modelLoad c.weatherLoad with
    | .val (some t) => .ok { s with stretchLoad := t } true
    | .val none => .ok s false
    | .throws => .throws s
    | .ub => .ub

/-- `UpdateLoadStretch`, L352-407. -/
noncomputable def updateLoadStretch (s : LineLoader) (c : SectionCable) : Run LineLoader Bool :=
  (s.updateStretchCreep c).bind fun s b => if b = true then s.updateStretchLoad c else .ok s false

/-- `UpdateConstraintCatenary`, L342-350 (the validated copy differs in its caches only). -/
noncomputable def updateCatenary (s : LineLoader) (c : SectionCable) : Run LineLoader Bool :=
  match c.catenaryRulingSpan with
  | .val k => if k.validate.1 = true then .ok { s with catenary := k } true else .ok s false
  | .throws => .throws s
  | .ub => .ub

/-- `Update`, L189-211: the result of `InitializeLineCableModels` is ignored. -/
noncomputable def update (s : LineLoader) : Run LineLoader Bool :=
  match s.lineCable with
  | none => .ub
  | some c =>
    (s.updateCatenary c).bind fun s b =>
      if b = false then .ok { s with updatedCatenary := false } false
      else
        (({ s with updatedCatenary := true } : LineLoader).initModels c).bind fun s _ =>
          (s.updateConstraintModel c).bind fun s b =>
            if b = false then .ok { s with updatedCatenary := false } false
            else
              (({ s with updatedCatenary := true } : LineLoader).updateLoadStretch c).bind fun s b =>
                .ok { s with updatedStretch := b } b

/-- The part of `Validate` before the update, L47-72: the cable, then the line cable. -/
noncomputable def validMembers (heap : Heap ℝ) (s : LineLoader) : Res Bool :=
  let a := match s.lineCable with
    | none => false
    | some c => match c.cable with
      | none => false
      | some k => k.validateSagTension.1
  match s.lineCable with
  | none => .val false
  | some c =>
    match c.validate heap with
    | .val b => .val (a && b.1)
    | .throws => .throws
    | .ub => .ub

/-- The stretch state of a condition, `line_cable_reloader.cc` L209-222 and `line_cable_unloader.cc` L192-205. -/
noncomputable def stretchOf (s : LineLoader) : CableCondition → Option CableStretchState
  | .initial => some ⟨0, .loadStrain, 0⟩
  | .creep => some s.stretchCreep
  | .load => some s.stretchLoad
  | .null => none

end LineLoader

/-! ## `LineCableReloader` -/

/-- The members of `LineCableReloader`, `include/models/sagtension/line_cable_reloader.h`. -/
structure LineReloader where
  base : LineLoader
  condition : CableCondition
  weather : Option WeatherLoadCase
  model : ElongationModel
  catenary : Catenary3d
  updatedModel : Bool
  updatedCatenary : Bool

namespace LineReloader

/-- Constructor, `line_cable_reloader.cc` L8-14. -/
noncomputable def new : LineReloader := ⟨.new, .null, none, .new, .new, false, false⟩

/-- `set_line_cable` of the base class. -/
def setLineCable (s : LineReloader) (c : Option SectionCable) : LineReloader :=
  { s with base := s.base.setLineCable c }

/-- `set_condition_reloaded`, L145-151. -/
def setCondition (s : LineReloader) (d : CableCondition) : LineReloader :=
  { s with condition := d, updatedModel := false, updatedCatenary := false }

/-- `set_weathercase_reloaded`, L153-159. -/
def setWeather (s : LineReloader) (w : Option WeatherLoadCase) : LineReloader :=
  { s with weather := w, updatedModel := false, updatedCatenary := false }

/-- `IsUpdated`, L165-169. -/
def isUpdated (s : LineReloader) : Bool := s.base.isUpdated && s.updatedModel && s.updatedCatenary

/-- The model built by `UpdateReloadedCableModel`, L203-230: the weather case is dereferenced first; `none` for an
unknown condition. -/
noncomputable def modelValue (s : LineReloader) : Res (Option ElongationModel) :=
  match s.weather with
  | none => .ub
  | some w =>
    match s.base.stretchOf s.condition with
    | none => .val none
    | some t =>
      match s.base.lineCable.bind (·.cable) with
      | none => .ub
      | some k => .val (some (modelOf k ⟨w.temperatureCable, .loadStrain⟩ t))

/-- `UpdateReloadedCableModel` and the flag set from it, L203-230 and L185. -/
noncomputable def updateModel (s : LineReloader) : Run LineReloader Bool :=
  match s.modelValue with
  | .val (some m) => .ok { s with model := m, updatedModel := true } true
  | .val none => .ok { s with updatedModel := false } false
  | .throws => .throws s
  | .ub => .ub

/-- The catenary found by `UpdateReloadedCatenary`, L232-249; `none` if the reload is rejected. -/
noncomputable def catenaryValue (s : LineReloader) : Res (Option Catenary3d) :=
  match s.base.lineCable with
  | none => .ub
  | some c =>
    match c.unitLoad s.weather with
    | .val v =>
      match (CatenaryReloader.given s.base.catenary s.base.modelConstraint s.model v).validate with
      | .ok r true => .val (some r.catenaryReloaded)
      | .ok _ false => .val none
      | .throws _ => .throws
      | .ub => .ub
    | .throws => .throws
    | .ub => .ub

/-- `UpdateReloadedCatenary` and the flag set from it, L232-249 and L193. -/
noncomputable def updateReloaded (s : LineReloader) : Run LineReloader Bool :=
  match s.catenaryValue with
  | .val (some k) => .ok { s with catenary := k, updatedCatenary := true } true
  | .val none => .ok { s with updatedCatenary := false } false
  | .throws => .throws s
  | .ub => .ub

/-- The first part of `Update`, L172-181. -/
noncomputable def updateBase (s : LineReloader) : Run LineReloader Bool :=
  if s.base.isUpdated = true then .ok s true
  else
    let s := { s with updatedModel := false, updatedCatenary := false }
    s.base.update.mapState fun b => { s with base := b }

/-- `Update`, L171-201. -/
noncomputable def update (s : LineReloader) : Run LineReloader Bool :=
  s.updateBase.bind fun s b =>
    if b = false then .ok s false
    else
      (if s.updatedModel = true then .ok s true
        else s.updateModel).bind fun s b =>
        if b = false then .ok s false
        else if s.updatedCatenary = true then .ok s true
        else s.updateReloaded

/-- The prologue of the queries, e.g. L21-23, and the answer after a failed update. -/
noncomputable def ask {A : Type} (s : LineReloader) (d : A) (f : LineReloader → Res A) : Run LineReloader A :=
  (if s.isUpdated = true then .ok s true else s.update).bind fun s b =>
    if b = true then .ofRes s (f s) else .ok s d

/-- `StretchStateCreep`, `line_cable_loader_base.cc` L21-28. -/
noncomputable def stretchCreep (s : LineReloader) : Run LineReloader CableStretchState :=
  s.ask .new fun s => .val s.base.stretchCreep
/-- `StretchStateLoad`, `line_cable_loader_base.cc` L30-37. -/
noncomputable def stretchLoad (s : LineReloader) : Run LineReloader CableStretchState :=
  s.ask .new fun s => .val s.base.stretchLoad
/-- `CatenaryReloaded`, L19-26. -/
noncomputable def catenaryReloaded (s : LineReloader) : Run LineReloader Catenary3d :=
  s.ask .new fun s => .val s.catenary
/-- `StateReloaded`, L28-35. -/
noncomputable def stateReloaded (s : LineReloader) : Run LineReloader CableState :=
  s.ask .new fun s => .val s.model.state
/-- `TensionHorizontal`, L52-59. -/
noncomputable def tensionHorizontal (s : LineReloader) : Run LineReloader ℝ :=
  s.ask (-999999) fun s => .val s.catenary.tensionHorizontal

/-- The load of a part at the strain the whole cable has under its average tension, L44-49. -/
noncomputable def partLoad (s : LineReloader) (t : ElongationPart) : Res ℝ :=
  match s.model.strain .combined s.catenary.tensionAverage with
  | .ok m x =>
    match m.load t x with
    | .ok _ y => .val y
    | .throws _ => .throws
    | .ub => .ub
  | .throws _ => .throws
  | .ub => .ub

/-- `TensionAverageComponent`, L37-50. -/
noncomputable def tensionAverageComponent (t : ElongationPart) (s : LineReloader) : Run LineReloader ℝ :=
  s.ask (-999999) fun s => s.partLoad t

/-- `TensionHorizontalComponent`, L61-79. -/
noncomputable def tensionHorizontalComponent (t : ElongationPart) (s : LineReloader) : Run LineReloader ℝ :=
  s.ask (-999999) fun s =>
    match s.partLoad t with
    | .val y => .val (y * (s.catenary.tensionHorizontal / s.catenary.tensionAverage))
    | .throws => .throws
    | .ub => .ub

/-- `LineCableLoaderBase::Validate`, `line_cable_loader_base.cc` L39-91, with the `Update` of the reloader. -/
noncomputable def validateBase (heap : Heap ℝ) (s : LineReloader) : Run LineReloader Bool :=
  (Run.ofRes s (s.base.validMembers heap)).bind fun s b => if b = true then s.update else .ok s false

/-- The reloaded condition and weather case, L94-115. -/
noncomputable def validInputs (s : LineReloader) : Bool :=
  (if s.condition = .null then false else true) &&
    (match s.weather with | none => false | some w => w.validate.1)

/-- `Validate`, L81-139: the flag. -/
noncomputable def validate (heap : Heap ℝ) (s : LineReloader) : Run LineReloader Bool :=
  (s.validateBase heap).bind fun s b => if (b && s.validInputs) = true then s.update else .ok s false

/-- The calls a user can make. -/
inductive Call where
  | setLineCable (c : Option SectionCable)
  | setCondition (d : CableCondition)
  | setWeather (w : Option WeatherLoadCase)
  | query
  | validate (heap : Heap ℝ)

/-- The object after a call, if there is one.  Every query updates the object in the same way (`ask`). -/
noncomputable def Call.next : Call → LineReloader → Option LineReloader
  | .setLineCable c, s => some (s.setLineCable c)
  | .setCondition d, s => some (s.setCondition d)
  | .setWeather w, s => some (s.setWeather w)
  | .query, s => s.catenaryReloaded.state?
  | .validate heap, s => (s.validate heap).state?

/-- The object after a list of calls. -/
noncomputable def run : LineReloader → List Call → Option LineReloader
  | s, [] => some s
  | s, k :: ks => (k.next s).bind fun s' => run s' ks

end LineReloader

/-! ## `LineCableUnloader` -/

/-- The members of `LineCableUnloader`, `include/models/sagtension/line_cable_unloader.h`. -/
structure LineUnloader where
  base : LineLoader
  condition : CableCondition
  spacing : V3
  temperature : ℝ
  model : ElongationModel
  length : ℝ
  updatedModel : Bool
  updatedLength : Bool

namespace LineUnloader

/-- Constructor, `line_cable_unloader.cc` L10-19. -/
noncomputable def new : LineUnloader :=
  ⟨.new, .null, ⟨-999999, -999999, -999999⟩, -999999, .new, -999999, false, false⟩

/-- `set_line_cable` of the base class. -/
def setLineCable (s : LineUnloader) (c : Option SectionCable) : LineUnloader :=
  { s with base := s.base.setLineCable c }

/-- `set_condition_unloaded`, L117-123. -/
def setCondition (s : LineUnloader) (d : CableCondition) : LineUnloader :=
  { s with condition := d, updatedModel := false, updatedLength := false }

/-- `set_spacing_attachments`, L125-130. -/
def setSpacing (s : LineUnloader) (v : V3) : LineUnloader := { s with spacing := v, updatedLength := false }

/-- `set_temperature_unloaded`, L132-138. -/
def setTemperature (s : LineUnloader) (t : ℝ) : LineUnloader :=
  { s with temperature := t, updatedModel := false, updatedLength := false }

/-- `IsUpdated`, L148-152. -/
def isUpdated (s : LineUnloader) : Bool := s.base.isUpdated && s.updatedModel && s.updatedLength

/-- The model built by `UpdateUnloadedCableModel`, L186-213; `none` for an unknown condition. -/
noncomputable def modelValue (s : LineUnloader) : Res (Option ElongationModel) :=
  match s.base.stretchOf s.condition with
  | none => .val none
  | some t =>
    match s.base.lineCable.bind (·.cable) with
    | none => .ub
    | some k => .val (some (modelOf k ⟨s.temperature, .loadStrain⟩ t))

/-- `UpdateUnloadedCableModel` and the flag set from it, L186-213 and L168. -/
noncomputable def updateModel (s : LineUnloader) : Run LineUnloader Bool :=
  match s.modelValue with
  | .val (some m) => .ok { s with model := m, updatedModel := true } true
  | .val none => .ok { s with updatedModel := false } false
  | .throws => .throws s
  | .ub => .ub

/-- The length found by `UpdateUnloadedLength`, L215-232; `none` if the unloader is rejected.  Both models have the
same cable. -/
noncomputable def lengthValue (s : LineUnloader) : Res (Option ℝ) :=
  match CatenaryUnloader.new.setCatenary (some (s.base.catenary.setSpacing s.spacing)) with
  | .val u =>
    let u := (u.setModelReference (some s.base.modelConstraint)).setModelUnloaded (some s.model)
    match u.validate true with
    | .val true =>
      match u.lengthUnloaded with
      | .val l => .val (some l)
      | .throws => .throws
      | .ub => .ub
    | .val false => .val none
    | .throws => .throws
    | .ub => .ub
  | .throws => .throws
  | .ub => .ub

/-- `UpdateUnloadedLength` and the flag set from it, L215-232 and L176. -/
noncomputable def updateLength (s : LineUnloader) : Run LineUnloader Bool :=
  match s.lengthValue with
  | .val (some l) => .ok { s with length := l, updatedLength := true } true
  | .val none => .ok { s with updatedLength := false } false
  | .throws => .throws s
  | .ub => .ub

/-- The first part of `Update`, L155-164. -/
noncomputable def updateBase (s : LineUnloader) : Run LineUnloader Bool :=
  if s.base.isUpdated = true then .ok s true
  else
    let s := { s with updatedModel := false, updatedLength := false }
    s.base.update.mapState fun b => { s with base := b }

/-- `Update`, L154-184. -/
noncomputable def update (s : LineUnloader) : Run LineUnloader Bool :=
  s.updateBase.bind fun s b =>
    if b = false then .ok s false
    else
      (if s.updatedModel = true then .ok s true
        else s.updateModel).bind fun s b =>
        if b = false then .ok s false
        else if s.updatedLength = true then .ok s true
        else s.updateLength

/-- The prologue of the queries and the answer after a failed update. -/
noncomputable def ask {A : Type} (s : LineUnloader) (d : A) (f : LineUnloader → Res A) : Run LineUnloader A :=
  (if s.isUpdated = true then .ok s true else s.update).bind fun s b =>
    if b = true then .ofRes s (f s) else .ok s d

/-- `LengthUnloaded`, L24-31. -/
noncomputable def lengthUnloaded (s : LineUnloader) : Run LineUnloader ℝ := s.ask (-999999) fun s => .val s.length
/-- `StretchStateCreep`, `line_cable_loader_base.cc` L21-28. -/
noncomputable def stretchCreep (s : LineUnloader) : Run LineUnloader CableStretchState :=
  s.ask .new fun s => .val s.base.stretchCreep
/-- `StretchStateLoad`, `line_cable_loader_base.cc` L30-37. -/
noncomputable def stretchLoad (s : LineUnloader) : Run LineUnloader CableStretchState :=
  s.ask .new fun s => .val s.base.stretchLoad

open Classical in
/-- The checks of L46-87. -/
noncomputable def validInputs (s : LineUnloader) : Bool :=
  decide (¬ s.condition = .null ∧ ¬ s.spacing.x ≤ 0 ∧ ¬ s.spacing.y ≠ 0 ∧ ¬ 2000 < |s.spacing.z| ∧
    ¬ s.temperature < -50)

/-- `LineCableLoaderBase::Validate`, `line_cable_loader_base.cc` L39-91, with the `Update` of the unloader. -/
noncomputable def validateBase (heap : Heap ℝ) (s : LineUnloader) : Run LineUnloader Bool :=
  (Run.ofRes s (s.base.validMembers heap)).bind fun s b => if b = true then s.update else .ok s false

/-- `Validate`, L33-111: the flag. -/
noncomputable def validate (heap : Heap ℝ) (s : LineUnloader) : Run LineUnloader Bool :=
  (s.validateBase heap).bind fun s b => if (b && s.validInputs) = true then s.update else .ok s false

/-- The calls a user can make. -/
inductive Call where
  | setLineCable (c : Option SectionCable)
  | setCondition (d : CableCondition)
  | setSpacing (v : V3)
  | setTemperature (t : ℝ)
  | query
  | validate (heap : Heap ℝ)

/-- The object after a call, if there is one. -/
noncomputable def Call.next : Call → LineUnloader → Option LineUnloader
  | .setLineCable c, s => some (s.setLineCable c)
  | .setCondition d, s => some (s.setCondition d)
  | .setSpacing v, s => some (s.setSpacing v)
  | .setTemperature t, s => some (s.setTemperature t)
  | .query, s => s.lengthUnloaded.state?
  | .validate heap, s => (s.validate heap).state?

/-- The object after a list of calls. -/
noncomputable def run : LineUnloader → List Call → Option LineUnloader
  | s, [] => some s
  | s, k :: ks => (k.next s).bind fun s' => run s' ks

end LineUnloader

end Verif
