import Verif.SectionCable

/-!
# Model of `sagging/cable_sag_position_corrector.cc`

The line cable and the attachment points are held by pointer; as in `Verif/SectionCable.lean` a pointer is
modelled by the contents it points to, `none` being the null pointer.  Exact real arithmetic; a zero slope divides
to an infinity or NaN in the code and to 0 here.  The catenaries are `mutable`, so the queries return the object
afterwards, too.
-/

namespace Verif

/-- The members of `CableSagPositionCorrector`. -/
structure SagCorrector where
  lineCable : Option SectionCable
  points : Option (List V3)
  clipped : List Catenary3d
  pulleyed : List Catenary3d
  lengthClipped : ℝ
  lengthPulleyed : ℝ
  isUpdated : Bool

namespace SagCorrector

/-- Constructor, `cable_sag_position_corrector.cc` L10-20. -/
noncomputable def new : SagCorrector := ⟨none, none, [], [], -999999, -999999, false⟩

/-- `set_linecable`, L164-167. -/
def setLineCable (s : SagCorrector) (c : Option SectionCable) : SagCorrector :=
  { s with lineCable := c, isUpdated := false }

/-- `set_points_attachment`, L169-173. -/
def setPoints (s : SagCorrector) (ps : Option (List V3)) : SagCorrector :=
  { s with points := ps, isUpdated := false }

/-- The catenaries after each was asked. -/
noncomputable def asked (ks : List Catenary3d) : List Catenary3d := ks.map Catenary3d.Event.query.next

/-- `LengthCatenaries`, L179-191: the sum starts at 0 and runs from the first span; the catenaries are asked. -/
noncomputable def lengthCatenaries (ks : List Catenary3d) : ℝ := ks.foldl (fun l k => l + k.length) 0

/-- The catenary of one span of the clipped state, L266-281. -/
noncomputable def clippedSpan (section_ : Catenary3d) (back ahead : V3) : Catenary3d :=
  (((Catenary3d.new.setDirection .positive).setSpacing
    ⟨ahead.x - back.x, ahead.y - back.y, ahead.z - back.z⟩).setTension section_.tensionHorizontal).setWeight
      section_.weightUnit

/-- The loop over the spans, L264-282. -/
noncomputable def clippedSpans (section_ : Catenary3d) : List V3 → List Catenary3d
  | a :: b :: ps => clippedSpan section_ a b :: clippedSpans section_ (b :: ps)
  | _ => []

/-- `UpdateClippedState`, L250-288.  Null pointers are dereferenced (UB); without attachment points the vector is
resized to -1, which throws. -/
noncomputable def updateClipped (s : SagCorrector) : Outcome SagCorrector Bool :=
  let s := { s with clipped := [], lengthClipped := -999999 }
  match s.lineCable with
  | none => .ub
  | some c =>
    match c.catenaryRulingSpan with
    | .ub => .ub
    | .throws => .throws s
    | .val k =>
      if k.validate.1 = false then .ok s false
      else
        match s.points with
        | none => .ub
        | some [] => .throws s
        | some (p :: ps) =>
          let ks := clippedSpans k (p :: ps)
          .ok { s with clipped := asked ks, lengthClipped := lengthCatenaries ks } true

/-- The solver of `SolvePulleyStateTensions`, L195-199. -/
noncomputable def pulleySolver (weight : V3) : CatenarySolver :=
  ((CatenarySolver.new.setPositionTarget 0).setTypeTarget .tension).setWeight weight

/-- The spans after the first in `SolvePulleyStateTensions`, L204-228, `prev` being the span before: whether all
were solved, and `prev` and the spans afterwards. -/
noncomputable def pulleyRest (solver : CatenarySolver) (prev : Catenary3d) :
    List Catenary3d → Bool × List Catenary3d
  | [] => (true, [prev])
  | k :: ks =>
    let prev' := Catenary3d.Event.query.next prev
    let v := ((solver.setSpacing k.spacing).setValueTarget (prev.tension 1)).validate
    if v.1 = true then
      let t := v.2.tensionHorizontal
      let r := pulleyRest t.2 (k.setTension t.1) ks
      (r.1, prev' :: r.2)
    else (false, prev' :: k :: ks)

/-- `SolvePulleyStateTensions`, L193-231, for at least one span (without spans its first line is UB; `updatePulley`
checks this). -/
noncomputable def solvePulley (start : ℝ) : List Catenary3d → Bool × List Catenary3d
  | [] => (false, [])
  | k :: ks => pulleyRest (pulleySolver k.weightUnit) (k.setTension start) ks

open Classical in
/-- The loop of `UpdatePulleyState`, L325-367; `fuel` is the number of iterations left.  Its branches are those of
the loop in `catenary_solver.cc`, so `SecantState` is used again.  `none`: the spans could not be solved, with the
spans as they are then. -/
noncomputable def pulleyLoop (target : ℝ) : ℕ → SecantState → List Catenary3d →
    Option SecantState × List Catenary3d
  | 0, s, ks => (some s, ks)
  | fuel + 1, s, ks =>
    if 0.1 < |s.left.x - s.right.x| ∧ 0.01 < |s.current.y - target| then
      let x := s.next target
      let r := solvePulley x ks
      if r.1 = false then (none, r.2)
      else pulleyLoop target fuel (s.advance target ⟨x, lengthCatenaries r.2⟩) (asked r.2)
    else (some s, ks)

/-- `UpdatePulleyState`, L290-377; without spans the first access is out of bounds (UB). -/
noncomputable def updatePulley (s : SagCorrector) : Outcome SagCorrector Bool :=
  let s := { s with pulleyed := s.clipped, lengthPulleyed := -999999 }
  match s.clipped with
  | [] => .ub
  | k :: _ =>
    let xl := k.tensionHorizontal
    let l := solvePulley xl s.clipped
    if l.1 = false then .ok { s with pulleyed := l.2 } false
    else
      let xr := xl * 1.10
      let r := solvePulley xr (asked l.2)
      if r.1 = false then .ok { s with pulleyed := r.2 } false
      else
        let o := pulleyLoop s.lengthClipped 101 ⟨⟨xl, lengthCatenaries l.2⟩, ⟨xr, lengthCatenaries r.2⟩,
          ⟨-999999, -999999⟩, 0⟩ (asked r.2)
        match o.1 with
        | none => .ok { s with pulleyed := o.2 } false
        | some st =>
          if st.iter < 100 then .ok { s with pulleyed := o.2, lengthPulleyed := st.current.y } true
          else .ok { s with pulleyed := o.2 } false

/-- `Update`, L233-248. -/
noncomputable def update (s : SagCorrector) : Outcome SagCorrector Bool :=
  match s.updateClipped with
  | .ub => .ub
  | .throws s => .throws s
  | .ok s false => .ok { s with isUpdated := false } false
  | .ok s true =>
    match ({ s with isUpdated := true } : SagCorrector).updatePulley with
    | .ub => .ub
    | .throws s => .throws s
    | .ok s b => .ok { s with isUpdated := b } b

/-- The prologue of the queries, e.g. L28-30. -/
noncomputable def ensure (s : SagCorrector) : Outcome SagCorrector Bool :=
  if s.isUpdated = true then .ok s true else s.update

/-- A query: the prologue, then `f` on an updated object. -/
noncomputable def ask {A : Type} (s : SagCorrector) (failed : A) (f : SagCorrector → SagCorrector × A) :
    Outcome SagCorrector A :=
  match s.ensure with
  | .ub => .ub
  | .throws s => .throws s
  | .ok s false => .ok s failed
  | .ok s true => .ok (f s).1 (f s).2

/-- `CatenariesClipped`, L25-33; the null pointer is `none`. -/
noncomputable def catenariesClipped (s : SagCorrector) : Outcome SagCorrector (Option (List Catenary3d)) :=
  s.ask none fun s => (s, some s.clipped)

/-- `CatenariesPulleyed`, L35-43. -/
noncomputable def catenariesPulleyed (s : SagCorrector) : Outcome SagCorrector (Option (List Catenary3d)) :=
  s.ask none fun s => (s, some s.pulleyed)

/-- The loop of `ClippingOffsets` from structure `i` on, L59-76, with the lengths summed so far. -/
noncomputable def offsetsFrom (s : SagCorrector) (size : ℕ) (i : ℕ) (lc lp : ℝ) : ℕ → List ℝ
  | 0 => []
  | fuel + 1 =>
    if i = 0 ∨ i = size - 1 then 0 :: offsetsFrom s size (i + 1) lc lp fuel
    else
      let lc := lc + ((s.clipped[i - 1]?).map Catenary3d.length).getD 0
      let lp := lp + ((s.pulleyed[i - 1]?).map Catenary3d.length).getD 0
      (lc - lp) :: offsetsFrom s size (i + 1) lc lp fuel

/-- `ClippingOffsets`, L45-78.  Both vectors have the same size after an update, so no access is out of bounds
(`C75_offsets` in `Verif/Props/SagCorrector.lean`). -/
noncomputable def clippingOffsets (s : SagCorrector) : Outcome SagCorrector (List ℝ) :=
  s.ask [] fun s => ({ s with clipped := asked s.clipped, pulleyed := asked s.pulleyed },
    offsetsFrom s (s.clipped.length + 1) 0 0 0 (s.clipped.length + 1))

/-- `SagCorrections`, L80-105. -/
noncomputable def sagCorrections (s : SagCorrector) : Outcome SagCorrector (List ℝ) :=
  s.ask [] fun s => ({ s with clipped := asked s.clipped, pulleyed := asked s.pulleyed },
    List.zipWith (fun c p => p.sag - c.sag) s.clipped s.pulleyed)

/-- The line cable's part of `Validate`, L114-126. -/
noncomputable def validateLineCable (heap : Heap ℝ) (c : Option SectionCable) : Res (Bool × List String) :=
  match c with
  | none => .val (false, ["Invalid line cable"])
  | some c => c.validate heap

/-- The attachment points' part of `Validate`, L129-139: too few points are not reported. -/
def validatePoints (ps : Option (List V3)) : Bool × List String :=
  match ps with
  | none => (false, ["Invalid line cable"])
  | some ps => (!decide (ps.length ≤ 1), [])

/-- `Validate`, L107-153. -/
noncomputable def validate (heap : Heap ℝ) (s : SagCorrector) : Outcome SagCorrector (Bool × List String) :=
  match validateLineCable heap s.lineCable with
  | .ub => .ub
  | .throws => .throws s
  | .val a =>
    let b := validatePoints s.points
    match s.update with
    | .ub => .ub
    | .throws s => .throws s
    | .ok s true => .ok s (a.1 && b.1, a.2 ++ b.2)
    | .ok s false => .ok s (false, a.2 ++ b.2 ++ ["Error updating class"])

/-! Histories. -/

/-- Calls on a corrector. -/
inductive Event where
  | setLineCable (c : Option SectionCable)
  | setPoints (ps : Option (List V3))
  | clipped
  | pulleyed
  | offsets
  | corrections
  | validate (heap : Heap ℝ)

/-- State after a call that returned or threw. -/
noncomputable def Event.next (s : SagCorrector) : Event → Option SagCorrector
  | .setLineCable c => some (s.setLineCable c)
  | .setPoints ps => some (s.setPoints ps)
  | .clipped => s.catenariesClipped.state?
  | .pulleyed => s.catenariesPulleyed.state?
  | .offsets => s.clippingOffsets.state?
  | .corrections => s.sagCorrections.state?
  | .validate heap => (s.validate heap).state?

/-- Correctors reached from a new one by any history without UB. -/
inductive Reachable : SagCorrector → Prop
  | new : Reachable new
  | step {s s' : SagCorrector} (e : Event) : Reachable s → e.next s = some s' → Reachable s'

end SagCorrector
end Verif
