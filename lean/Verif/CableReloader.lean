import Verif.CableElongation
import Verif.Catenary3d

/-!
# Model of `sagtension/cable_strainer.cc`, `catenary_cable_unloader.cc` and `catenary_cable_reloader.cc`

These classes keep pointers to catenaries and elongation models; the model keeps the objects pointed to (they are
assumed to stay as they are while in use, null is `none`).  Asking an elongation model for a strain changes only
its caches, which does not change later answers (`Props.strain_again`), so the strains are functions here.

Exact real arithmetic.
-/

namespace Verif

/-- `Strain(kCombined, load)` of an elongation model behind a pointer. -/
noncomputable def strainThrough (m : Option ElongationModel) (l : ℝ) : Res ℝ :=
  match m with
  | none => .ub
  | some m =>
    match m.strain .combined l with
    | .ok _ x => .val x
    | .throws _ => .throws
    | .ub => .ub

/-- `CableStrainer`, `include/models/sagtension/cable_strainer.h`. -/
structure CableStrainer where
  lengthStart : ℝ
  loadFinish : ℝ
  loadStart : ℝ
  modelFinish : Option ElongationModel
  modelStart : Option ElongationModel

namespace CableStrainer

/-- Constructor, `cable_strainer.cc` L8-14. -/
noncomputable def new : CableStrainer := ⟨-999999, -999999, -999999, none, none⟩

open Classical in
/-- The generic strain equation, `cable_strainer.cc` L33-42. -/
noncomputable def elongate (length start finish : ℝ) : ℝ :=
  let transition := finish - start
  if transition < 0 then length / (1 + |transition|) else length * (1 + transition)

/-- `LengthFinish`, `cable_strainer.cc` L25-42. -/
noncomputable def lengthFinish (s : CableStrainer) : Res ℝ :=
  match strainThrough s.modelStart s.loadStart with
  | .val a =>
    match strainThrough s.modelFinish s.loadFinish with
    | .val b => .val (elongate s.lengthStart a b)
    | .throws => .throws
    | .ub => .ub
  | .throws => .throws
  | .ub => .ub

/-- `set_length_start`, L129-131. -/
def setLengthStart (s : CableStrainer) (l : ℝ) : CableStrainer := { s with lengthStart := l }
/-- `set_load_finish`, L133-135. -/
def setLoadFinish (s : CableStrainer) (l : ℝ) : CableStrainer := { s with loadFinish := l }
/-- `set_load_start`, L137-139. -/
def setLoadStart (s : CableStrainer) (l : ℝ) : CableStrainer := { s with loadStart := l }
/-- `set_model_finish`, L141-143. -/
def setModelFinish (s : CableStrainer) (m : Option ElongationModel) : CableStrainer := { s with modelFinish := m }
/-- `set_model_start`, L145-147. -/
def setModelStart (s : CableStrainer) (m : Option ElongationModel) : CableStrainer := { s with modelStart := m }

end CableStrainer

/-- `CatenaryCableUnloader`. -/
structure CatenaryUnloader where
  catenary : Option Catenary3d
  strainer : CableStrainer

namespace CatenaryUnloader

/-- Constructor, `catenary_cable_unloader.cc` L6-10. -/
noncomputable def new : CatenaryUnloader := ⟨none, CableStrainer.new.setLoadFinish 0⟩

/-- `set_catenary`, L60-65: the catenary is read at once, so null is undefined. -/
noncomputable def setCatenary (u : CatenaryUnloader) (k : Option Catenary3d) : Res CatenaryUnloader :=
  match k with
  | none => .ub
  | some k => .val ⟨some k, (u.strainer.setLengthStart k.length).setLoadStart k.tensionAverage⟩

/-- `set_model_reference`, L67-70. -/
def setModelReference (u : CatenaryUnloader) (m : Option ElongationModel) : CatenaryUnloader :=
  { u with strainer := u.strainer.setModelStart m }

/-- `set_model_unloaded`, L72-75. -/
def setModelUnloaded (u : CatenaryUnloader) (m : Option ElongationModel) : CatenaryUnloader :=
  { u with strainer := u.strainer.setModelFinish m }

/-- `LengthUnloaded`, L15-17. -/
noncomputable def lengthUnloaded (u : CatenaryUnloader) : Res ℝ := u.strainer.lengthFinish

end CatenaryUnloader

/-- Loop variables of `SolveReloadedCatenaryTension`, `catenary_cable_reloader.cc` L246-265. -/
structure ReloadSearch where
  left : V2
  right : V2
  current : V2
  iter : ℕ

open Classical in
/-- The tension tried next, L270-282.  A vanishing slope is an infinite or undefined tension in the code; here the
quotient is 0. -/
noncomputable def ReloadSearch.tension (s : ReloadSearch) : ℝ :=
  if 0 < s.left.y ∧ s.right.y < 0 then (s.left.x + s.right.x) / 2
  else s.left.x + (0 - s.left.y) / ((s.right.y - s.left.y) / (s.right.x - s.left.x))

open Classical in
/-- The rest of the loop body, L284-314. -/
noncomputable def ReloadSearch.place (s : ReloadSearch) (current : V2) : ReloadSearch :=
  let s := { s with current := current, iter := s.iter + 1 }
  if current.x < s.left.x then { s with right := s.left, left := current }
  else if s.left.x < current.x ∧ current.x < s.right.x then
    if current.y < 0 then { s with right := current }
    else if 0 < current.y then { s with left := current }
    else s
  else if s.right.x < current.x then { s with left := s.right, right := current }
  else s

/-- `CatenaryCableReloader`, members of `include/models/sagtension/catenary_cable_reloader.h`. -/
structure CatenaryReloader where
  catenary : Option Catenary3d
  modelReference : Option ElongationModel
  modelReloaded : Option ElongationModel
  weight : Option V3
  catenaryReloaded : Catenary3d
  strainer : CableStrainer
  isUpdated : Bool

namespace CatenaryReloader

/-- Constructor, `catenary_cable_reloader.cc` L10-17. -/
noncomputable def new : CatenaryReloader := ⟨none, none, none, none, .new, .new, false⟩

/-- `set_catenary`, L165-169. -/
def setCatenary (r : CatenaryReloader) (k : Option Catenary3d) : CatenaryReloader :=
  { r with catenary := k, isUpdated := false }
/-- `set_model_reference`, L171-176. -/
def setModelReference (r : CatenaryReloader) (m : Option ElongationModel) : CatenaryReloader :=
  { r with modelReference := m, isUpdated := false }
/-- `set_model_reloaded`, L178-183. -/
def setModelReloaded (r : CatenaryReloader) (m : Option ElongationModel) : CatenaryReloader :=
  { r with modelReloaded := m, isUpdated := false }
/-- `set_weight_unit_reloaded`, L185-190. -/
def setWeight (r : CatenaryReloader) (v : Option V3) : CatenaryReloader :=
  { r with weight := v, isUpdated := false }

/-- `UpdateReloadedCatenaryAndStrainer`, L339-346. -/
noncomputable def setTension (r : CatenaryReloader) (h : ℝ) : CatenaryReloader :=
  let k := r.catenaryReloaded.setTension h
  { r with catenaryReloaded := k, strainer := r.strainer.setLoadFinish k.tensionAverage }

/-- `LengthDifference`, L218-226: the object afterwards, and the difference. -/
noncomputable def lengthDifference (r : CatenaryReloader) (h : ℝ) : CatenaryReloader × Res ℝ :=
  let r := r.setTension h
  (r, match r.strainer.lengthFinish with
    | .val l => .val (r.catenaryReloaded.length - l)
    | .throws => .throws
    | .ub => .ub)

open Classical in
/-- The loop of `SolveReloadedCatenaryTension`, L263-315; `fuel` is `100 - iter`. -/
noncomputable def loop : ℕ → CatenaryReloader → ReloadSearch → Outcome CatenaryReloader ReloadSearch
  | 0, r, s => .ok r s
  | fuel + 1, r, s =>
    if 0.01 < |s.left.x - s.right.x| then
      match r.lengthDifference s.tension with
      | (r, .val y) => loop fuel r (s.place ⟨s.tension, y⟩)
      | (r, .throws) => .throws r
      | (_, .ub) => .ub
    else .ok r s

/-- `InitializeReloadedCatenary` and `InitializeStrainer`, L196-212 (the transverse direction of the catenary is
not copied). -/
noncomputable def prepare (r : CatenaryReloader) (k : Catenary3d) (w : V3) : CatenaryReloader :=
  { r with
    catenaryReloaded := ((Catenary3d.new.setSpacing k.spacing).setTension k.tensionHorizontal).setWeight w
    strainer := (((r.strainer.setLengthStart k.length).setLoadStart k.tensionAverage).setModelFinish
      r.modelReloaded).setModelStart r.modelReference }

/-- The lowest acceptable tension, L246-251. -/
noncomputable def tensionLeast (k : Catenary3d) (w : V3) : ℝ :=
  Catenary2d.constantMinimum k.spacing.magnitude * w.magnitude

open Classical in
/-- `SolveReloadedCatenaryTension` after the initialization, L242-324.  `point_current` starts as the default point
(`include/models/base/point.h` L14-17). -/
noncomputable def solveFrom (x : ℝ) (r : CatenaryReloader) : Outcome CatenaryReloader Bool :=
  match r.lengthDifference x with
  | (r, .val yl) =>
    match r.lengthDifference (2 * x) with
    | (r, .val yr) =>
      match r.loop 100 ⟨⟨x, yl⟩, ⟨2 * x, yr⟩, ⟨-999999, -999999⟩, 0⟩ with
      | .ok r s => .ok r (if s.iter < 100 then decide (s.current.y < 0.1) else false)
      | .throws r => .throws r
      | .ub => .ub
    | (r, .throws) => .throws r
    | (_, .ub) => .ub
  | (r, .throws) => .throws r
  | (_, .ub) => .ub

/-- `SolveReloadedCatenaryTension`, L235-324. -/
noncomputable def solve (r : CatenaryReloader) : Outcome CatenaryReloader Bool :=
  match r.catenary, r.weight with
  | some k, some w => (r.prepare k w).solveFrom (tensionLeast k w)
  | _, _ => .ub

/-- `IsUpdated`/`Update`, L214-216 and L326-337. -/
noncomputable def update (r : CatenaryReloader) : Outcome CatenaryReloader Bool :=
  if r.isUpdated = true then .ok r true
  else
    match r.solve with
    | .ok r b => .ok { r with isUpdated := b } b
    | .throws r => .throws r
    | .ub => .ub

/-- `CatenaryReloaded`, L22-29. -/
noncomputable def catenaryQ (r : CatenaryReloader) : Outcome CatenaryReloader Catenary3d :=
  match r.update with
  | .ok r true => .ok r r.catenaryReloaded
  | .ok r false => .ok r .new
  | .throws r => .throws r
  | .ub => .ub

/-- `TensionHorizontal`, L46-53. -/
noncomputable def tensionHorizontal (r : CatenaryReloader) : Outcome CatenaryReloader ℝ :=
  match r.update with
  | .ok r true => .ok r r.catenaryReloaded.tensionHorizontal
  | .ok r false => .ok r (-999999)
  | .throws r => .throws r
  | .ub => .ub

/-- `LengthUnloaded`, L31-44. -/
noncomputable def lengthUnloaded (r : CatenaryReloader) : Outcome CatenaryReloader ℝ :=
  match r.update with
  | .ok r true =>
    match (CatenaryUnloader.new.setCatenary r.catenary) with
    | .val u =>
      match ((u.setModelReference r.modelReference).setModelUnloaded r.modelReference).lengthUnloaded with
      | .val x => .ok r x
      | .throws => .throws r
      | .ub => .ub
    | .throws => .throws r
    | .ub => .ub
  | .ok r false => .ok r (-999999)
  | .throws r => .throws r
  | .ub => .ub

/-- The calls a user can make (without `Validate`). -/
inductive Call where
  | setCatenary (k : Option Catenary3d)
  | setModelReference (m : Option ElongationModel)
  | setModelReloaded (m : Option ElongationModel)
  | setWeight (w : Option V3)
  | catenary
  | tensionHorizontal
  | lengthUnloaded

/-- The object after a call; nothing after undefined behaviour. -/
noncomputable def Call.next : Call → CatenaryReloader → Option CatenaryReloader
  | .setCatenary k, r => some (r.setCatenary k)
  | .setModelReference m, r => some (r.setModelReference m)
  | .setModelReloaded m, r => some (r.setModelReloaded m)
  | .setWeight w, r => some (r.setWeight w)
  | .catenary, r => r.catenaryQ.state?
  | .tensionHorizontal, r => r.tensionHorizontal.state?
  | .lengthUnloaded, r => r.lengthUnloaded.state?

/-- The object after a list of calls, if none of them runs into undefined behaviour. -/
noncomputable def run : CatenaryReloader → List Call → Option CatenaryReloader
  | r, [] => some r
  | r, k :: ks => (k.next r).bind fun r' => run r' ks

end CatenaryReloader

end Verif
