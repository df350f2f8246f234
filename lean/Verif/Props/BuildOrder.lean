import Mathlib.Data.List.Sort
import Verif.Props.Undo

/-! # The order of building does not matter (C164) -/

set_option linter.unusedSectionVars false

namespace Verif.Props
open Line

/-- Two lists in strictly increasing order of a key with the same elements are equal. -/
theorem eq_of_increasing {α κ : Type} [LinearOrder κ] (key : α → κ) {a b : List α}
    (ha : a.Pairwise fun x y => key x < key y) (hb : b.Pairwise fun x y => key x < key y)
    (h : ∀ x, x ∈ a ↔ x ∈ b) : a = b := by
  have na : a.Nodup := ha.imp fun h e => absurd h (by rw [e]; exact lt_irrefl _)
  have nb : b.Nodup := hb.imp fun h e => absurd h (by rw [e]; exact lt_irrefl _)
  have hp := (List.perm_ext_iff_of_nodup na nb).2 h
  exact hp.eq_of_pairwise (fun x y _ _ h1 h2 => absurd (h1.trans h2) (lt_irrefl _)) ha hb

/-- Sorted insertion: nothing if the key is there already. -/
def insertKey {α κ : Type} [LinearOrder κ] (key : α → κ) (l : List α) (x : α) : Option (List α) :=
  (searchPos key (key x) l).map fun i => l.insertIdx i x

theorem insertKey_iff {α κ : Type} [LinearOrder κ] (key : α → κ) {l : List α}
    (hl : l.Pairwise fun x y => key x < key y) (x : α) (r : List α) :
    insertKey key l x = some r ↔
      (∀ q ∈ l, key q ≠ key x) ∧ (r.Pairwise fun x y => key x < key y) ∧ r.Perm (x :: l) := by
  unfold insertKey
  cases h : searchPos key (key x) l with
  | none =>
    obtain ⟨q, hq, e⟩ := (searchPos_none_iff key hl).1 h
    simp only [Option.map_none, reduceCtorEq, false_iff]
    rintro ⟨h1, -⟩
    exact h1 q hq e
  | some i =>
    have hle := searchPos_le key h
    have hno : ∀ q ∈ l, key q ≠ key x := by
      intro q hq e
      rw [(searchPos_none_iff key hl).2 ⟨q, hq, e⟩] at h
      cases h
    have hp : (l.insertIdx i x).Perm (x :: l) := List.perm_insertIdx x l hle
    simp only [Option.map_some, Option.some.injEq]
    constructor
    · rintro rfl
      exact ⟨hno, sorted_insertIdx key hl h, hp⟩
    · rintro ⟨-, h2, h3⟩
      exact eq_of_increasing key (sorted_insertIdx key hl h) h2 fun y => (hp.trans h3.symm).mem_iff

theorem insertKey_comm {α κ : Type} [LinearOrder κ] (key : α → κ) {l : List α}
    (hl : l.Pairwise fun x y => key x < key y) (x y : α) :
    ((insertKey key l x).bind fun m => insertKey key m y) =
      (insertKey key l y).bind fun m => insertKey key m x := by
  have key' : ∀ x y r, ((insertKey key l x).bind fun m => insertKey key m y) = some r →
      ((insertKey key l y).bind fun m => insertKey key m x) = some r := by
    intro x y r h
    obtain ⟨m, h1, h2⟩ := Option.bind_eq_some_iff.1 h
    obtain ⟨a1, a2, a3⟩ := (insertKey_iff key hl x m).1 h1
    obtain ⟨b1, b2, b3⟩ := (insertKey_iff key a2 y r).1 h2
    have hxy : key x ≠ key y := b1 x (a3.mem_iff.2 (by simp))
    have hy : ∀ q ∈ l, key q ≠ key y := fun q hq => b1 q (a3.mem_iff.2 (by simp [hq]))
    cases hm : insertKey key l y with
    | none =>
      exfalso
      unfold insertKey at hm
      obtain ⟨q, hq, e⟩ := (searchPos_none_iff key hl).1 (Option.map_eq_none_iff.1 hm)
      exact hy q hq e
    | some m' =>
      obtain ⟨c1, c2, c3⟩ := (insertKey_iff key hl y m').1 hm
      rw [Option.bind_some, insertKey_iff key c2]
      refine ⟨fun q hq => ?_, b2, ?_⟩
      · rcases List.mem_cons.1 (c3.mem_iff.1 hq) with rfl | hq
        · exact hxy.symm
        · exact a1 q hq
      · exact b3.trans (((a3.cons y).trans (List.Perm.swap x y l)).trans (c3.cons x).symm)
  apply Option.ext
  intro r
  exact ⟨key' x y r, key' y x r⟩

/-- Calls made one after the other, all of which have to be accepted. -/
def allAccepted {S X : Type} (f : S → X → Option S) : S → List X → Option S
  | s, [] => some s
  | s, x :: xs => (f s x).bind fun s' => allAccepted f s' xs

/-- If any two calls commute, so do all. -/
theorem allAccepted_perm {S X : Type} {f : S → X → Option S} {I : S → Prop}
    (hI : ∀ s x s', I s → f s x = some s' → I s')
    (hc : ∀ s x y, I s → ((f s x).bind fun t => f t y) = (f s y).bind fun t => f t x) {xs ys : List X}
    (h : xs.Perm ys) : ∀ s, I s → allAccepted f s xs = allAccepted f s ys := by
  induction h with
  | nil => intro s _; rfl
  | cons x _ ih =>
    intro s hs
    simp only [allAccepted]
    cases hx : f s x with
    | none => rfl
    | some s' => exact ih s' (hI s x s' hs hx)
  | swap x y l =>
    intro s hs
    have := congrArg (fun o => Option.bind o fun t => allAccepted f t l) (hc s y x hs)
    simpa only [allAccepted, Option.bind_assoc] using this
  | trans _ _ h1 h2 => intro s hs; exact (h1 s hs).trans (h2 s hs)

variable {K : Type} [Field K] [LinearOrder K] [IsStrictOrderedRing K]

/-! ## Alignment points -/

/-- C164: an alignment is determined by the points in it, whatever calls produced it. -/
theorem C164_points {a b : List (AlignmentPoint K)} (ha : Alignment.Reachable a) (hb : Alignment.Reachable b)
    (h : ∀ p, p ∈ a ↔ p ∈ b) : a = b := by
  obtain ⟨oa, rfl⟩ := ha
  obtain ⟨ob, rfl⟩ := hb
  exact eq_of_increasing AlignmentPoint.station (Alignment.run_sorted oa)
    (Alignment.run_sorted ob) h

/-- `AddAlignmentPoint`, if accepted. -/
def acceptedPoint (l : Line K) (p : AlignmentPoint K) : Option (Line K) :=
  match l.addAlignmentPoint p with
  | .ok l' r => if r = -1 then none else some l'
  | _ => none

theorem acceptedPoint_eq (l : Line K) (p : AlignmentPoint K) : acceptedPoint l p =
    (insertKey AlignmentPoint.station l.alignment p).map fun a => { l with alignment := a } := by
  unfold acceptedPoint Line.addAlignmentPoint Alignment.addPoint insertKey
  cases h : searchPos AlignmentPoint.station p.station l.alignment with
  | none => simp
  | some i =>
    simp

/-- C164: whether points are all accepted, and the line that results, does not depend on the order in which they are
added. -/
theorem C164_add_points {l : Line K} (h : Reachable l) {ps qs : List (AlignmentPoint K)} (hp : ps.Perm qs) :
    allAccepted acceptedPoint l ps = allAccepted acceptedPoint l qs := by
  refine allAccepted_perm (I := fun l : Line K => l.alignment.Pairwise fun a b => a.station < b.station) ?_ ?_ hp l
    h.inv.align
  · intro s x s' hs e
    rw [acceptedPoint_eq] at e
    obtain ⟨a, ha, rfl⟩ := Option.map_eq_some_iff.1 e
    exact ((insertKey_iff _ hs x a).1 ha).2.1
  · intro s x y hs
    have := congrArg (Option.map fun a => ({ s with alignment := a } : Line K))
      (insertKey_comm AlignmentPoint.station hs x y)
    simp only [acceptedPoint_eq]
    simpa [Option.map_bind, Option.bind_map, Function.comp_def] using this

/-! ## Structures -/

/-- C164: the order of the structures is determined by which structures there are. -/
theorem C164_structures {l m : Line K} (hl : Reachable l) (hm : Reachable m)
    (h : ∀ e, e ∈ l.structures ↔ e ∈ m.structures) : l.structures = m.structures :=
  eq_of_increasing (fun e : Ptr × LineStructure K => e.2.station) hl.inv.core.sorted hm.inv.core.sorted h

/-- `AddLineStructure`, if accepted. -/
def acceptedStructure (l : Line K) (e : Ptr × LineStructure K) : Option (Line K) :=
  match l.addLineStructure e.1 e.2 with
  | .ok l' r => if r = -1 then none else some l'
  | _ => none

theorem acceptedStructure_eq (l : Line K) (e : Ptr × LineStructure K) : acceptedStructure l e =
    if Alignment.isValidStation l.alignment e.2.station = .val true then
      (insertKey (fun e : Ptr × LineStructure K => e.2.station) l.structures e).map
        fun ss => { l with structures := ss }
    else none := by
  unfold acceptedStructure Line.addLineStructure insertKey
  cases hv : Alignment.isValidStation l.alignment e.2.station with
  | ub => simp
  | throws => simp
  | val b =>
    cases b with
    | false => simp
    | true =>
      cases h : searchPos (fun e : Ptr × LineStructure K => e.2.station) e.2.station l.structures with
      | none => simp
      | some i =>
        have : ¬ ((i : Int) = -1) := by omega
        simp [this]

/-- C164: whether structures are all accepted, and the line that results, does not depend on the order in which they
are added. -/
theorem C164_add_structures {l : Line K} (h : Reachable l) {xs ys : List (Ptr × LineStructure K)} (hp : xs.Perm ys) :
    allAccepted acceptedStructure l xs = allAccepted acceptedStructure l ys := by
  refine allAccepted_perm (I := fun l : Line K => l.structures.Pairwise fun a b => a.2.station < b.2.station) ?_ ?_ hp l
    h.inv.core.sorted
  · intro s x s' hs e
    rw [acceptedStructure_eq] at e
    split at e
    · obtain ⟨a, ha, rfl⟩ := Option.map_eq_some_iff.1 e
      exact ((insertKey_iff _ hs x a).1 ha).2.1
    · cases e
  · intro s x y hs
    have := congrArg (Option.map fun a => ({ s with structures := a } : Line K))
      (insertKey_comm (fun e : Ptr × LineStructure K => e.2.station) hs x y)
    simp only [acceptedStructure_eq]
    by_cases h1 : Alignment.isValidStation s.alignment x.2.station = .val true <;>
      by_cases h2 : Alignment.isValidStation s.alignment y.2.station = .val true
    · simpa [h1, h2, Option.map_bind, Option.bind_map, Function.comp_def] using this
    all_goals simp [h1, h2, Option.bind_map]

theorem isValidStation_iff (pts : List (AlignmentPoint K)) (x : K) :
    Alignment.isValidStation pts x = .val true ↔ CoversExact pts x := by
  unfold Alignment.isValidStation CoversExact
  cases h1 : pts.head? with
  | none => simp
  | some f =>
    cases h2 : pts.getLast? with
    | none => simp
    | some b => simp

/-- C164: an alignment point can as well be added before a structure as after it, provided the structure is accepted
first. -/
theorem C164_point_before_structure {l l1 l2 : Line K} (h : Reachable l) {e : Ptr × LineStructure K}
    {p : AlignmentPoint K} (h1 : acceptedStructure l e = some l1) (h2 : acceptedPoint l1 p = some l2) :
    ∃ m, acceptedPoint l p = some m ∧ acceptedStructure m e = some l2 := by
  rw [acceptedStructure_eq] at h1
  split at h1
  · rename_i hv
    obtain ⟨ss, hs, rfl⟩ := Option.map_eq_some_iff.1 h1
    rw [acceptedPoint_eq] at h2
    obtain ⟨a, ha, rfl⟩ := Option.map_eq_some_iff.1 h2
    have hi := (insertKey_iff _ h.inv.align p a).1 ha
    refine ⟨{ l with alignment := a }, by rw [acceptedPoint_eq, ha]; rfl, ?_⟩
    have hv' : CoversExact a e.2.station := CoversExact.mono hi.2.1
      (fun f hf => hi.2.2.mem_iff.2 (List.mem_cons_of_mem _ (head_mem hf)))
      (fun b hb => hi.2.2.mem_iff.2 (List.mem_cons_of_mem _ (last_mem hb))) ((isValidStation_iff _ _).1 hv)
    rw [acceptedStructure_eq, if_pos ((isValidStation_iff _ _).2 hv'), hs]
    rfl
  · cases h1

/-- Points and structures are really accepted, in orders other than that of the stations. -/
example : (allAccepted acceptedPoint (Line.empty : Line ℚ) [⟨0, 0, 100⟩, ⟨5, 30, 0⟩, ⟨0, 0, 50⟩]).map Line.alignment =
      some [⟨5, 30, 0⟩, ⟨0, 0, 50⟩, ⟨0, 0, 100⟩] ∧
    (allAccepted acceptedStructure { exampleLine with cables := [], structures := [] }
      [(13, exampleStructure 50), (11, exampleStructure 90), (12, exampleStructure 10)]).map Line.structures =
      some exampleLine.structures ∧
    allAccepted acceptedPoint (Line.empty : Line ℚ) [⟨0, 0, 100⟩, ⟨5, 30, 0⟩, ⟨0, 0, 100⟩] = none := by decide +kernel

/-! ## Connections of a cable -/

/-- C164: the order of a cable's connections is determined by which connections there are. -/
theorem C164_connections {heap : Heap K} {a b : List Connection} (ha : LineCable.Reachable heap a)
    (hb : LineCable.Reachable heap b) (h : ∀ c, c ∈ a ↔ c ∈ b) : a = b :=
  eq_of_increasing (LineCable.key heap) (ha.good.1.imp fun h => LineCable.Before.key_lt h)
    (hb.good.1.imp fun h => LineCable.Before.key_lt h) h

/-- `AddConnection`, if accepted. -/
def acceptedConnection (heap : Heap K) (cs : List Connection) (c : Connection) : Option (List Connection) :=
  match LineCable.addConnection heap cs c with
  | .ok cs' r => if r = -1 then none else some cs'
  | _ => none

/-- C164: whether connections to live structures are all accepted, and the cable that results, does not depend on the
order in which they are added. -/
theorem C164_add_connections {heap : Heap K} {cs : List Connection} (h : LineCable.Reachable heap cs)
    (hcs : ∀ c ∈ cs, (heap c.ptr).isSome) {xs ys : List Connection} (hx : ∀ c ∈ xs, (heap c.ptr).isSome)
    (hp : xs.Perm ys) :
    allAccepted (acceptedConnection heap) cs xs = allAccepted (acceptedConnection heap) cs ys := by
  let f : List Connection → Connection → Option (List Connection) := fun cs c =>
    if c.ptr = 0 then none else insertKey (LineCable.key heap) cs c
  let I : List Connection → Prop := fun cs => (cs.Pairwise fun a b => LineCable.key heap a < LineCable.key heap b) ∧
    ∀ c ∈ cs, (heap c.ptr).isSome
  have hf : ∀ cs c, (∀ d ∈ cs, (heap d.ptr).isSome) → (heap c.ptr).isSome → acceptedConnection heap cs c = f cs c := by
    intro cs c h1 h2
    simp only [acceptedConnection, LineCable.addConnection, f, insertKey]
    by_cases h0 : c.ptr = 0
    · simp [h0]
    · rw [if_neg h0, if_neg h0, LineCable.searchConnection_live h2 h1]
      cases searchPos (LineCable.key heap) (LineCable.key heap c) cs with
      | none => simp
      | some i =>
        simp
  have fI : ∀ s x s', I s → (heap x.ptr).isSome → f s x = some s' → I s' := by
    intro s x s' hs hl e
    simp only [f] at e
    split at e
    · cases e
    · obtain ⟨-, h2, h3⟩ := (insertKey_iff _ hs.1 x s').1 e
      refine ⟨h2, fun c hc => ?_⟩
      rcases List.mem_cons.1 (h3.mem_iff.1 hc) with rfl | hc
      · exact hl
      · exact hs.2 c hc
  let g : List Connection → Connection → Option (List Connection) := fun cs c =>
    if (heap c.ptr).isSome then f cs c else none
  have gI : ∀ s x s', I s → g s x = some s' → I s' := by
    intro s x s' hs e
    simp only [g] at e
    split at e
    · exact fI s x s' hs (by assumption) e
    · cases e
  have eq : ∀ xs : List Connection, (∀ c ∈ xs, (heap c.ptr).isSome) → ∀ cs, I cs →
      allAccepted (acceptedConnection heap) cs xs = allAccepted g cs xs := by
    intro xs
    induction xs with
    | nil => intro _ cs _; rfl
    | cons x xs ih =>
      intro hx cs hI
      have hxl := hx x (by simp)
      have e : acceptedConnection heap cs x = g cs x := by
        rw [hf cs x hI.2 hxl]; simp [g, hxl]
      simp only [allAccepted, e]
      cases hg : g cs x with
      | none => rfl
      | some cs' => exact ih (fun c hc => hx c (by simp [hc])) cs' (gI cs x cs' hI hg)
  have I0 : I cs := ⟨h.good.1.imp fun h => LineCable.Before.key_lt h, hcs⟩
  rw [eq xs hx cs I0, eq ys (fun c hc => hx c (hp.mem_iff.2 hc)) cs I0]
  refine allAccepted_perm (I := I) gI ?_ hp cs I0
  intro s x y hs
  have := insertKey_comm (LineCable.key heap) hs.1 x y
  simp only [g, f]
  by_cases h1 : (heap x.ptr).isSome <;> by_cases h2 : (heap y.ptr).isSome <;>
    by_cases h3 : x.ptr = 0 <;> by_cases h4 : y.ptr = 0 <;> simp [h1, h2, h3, h4, this]

/-- Connections are accepted in an order other than that of the stations. -/
example : allAccepted (acceptedConnection (exampleLine.heap noExt)) [] [⟨11, 0⟩, ⟨12, 0⟩, ⟨13, 1⟩] =
    some [⟨12, 0⟩, ⟨13, 1⟩, ⟨11, 0⟩] := by decide +kernel

/-! ## Cables -/

/-- C164 is false for cables: the order in which two cables are added shows in the order of `line_cables()`. -/
theorem C164_cables_fails : ∃ (l l1 l2 m1 m2 : Line ℚ) (k d : LineCable), Reachable l ∧
    l.addLineCable noExt k = .ok l1 0 ∧ l1.addLineCable noExt d = .ok l2 1 ∧
    l.addLineCable noExt d = .ok m1 0 ∧ m1.addLineCable noExt k = .ok m2 1 ∧
    l2.cables = [k, d] ∧ m2.cables = [d, k] ∧ k ≠ d := by
  refine ⟨{ exampleLine with cables := [] }, { exampleLine with cables := [⟨[⟨12, 1⟩, ⟨11, 1⟩], 8⟩] },
    { exampleLine with cables := [⟨[⟨12, 1⟩, ⟨11, 1⟩], 8⟩, ⟨[⟨13, 0⟩, ⟨11, 0⟩], 7⟩] },
    { exampleLine with cables := [⟨[⟨13, 0⟩, ⟨11, 0⟩], 7⟩] },
    { exampleLine with cables := [⟨[⟨13, 0⟩, ⟨11, 0⟩], 7⟩, ⟨[⟨12, 1⟩, ⟨11, 1⟩], 8⟩] },
    ⟨[⟨12, 1⟩, ⟨11, 1⟩], 8⟩, ⟨[⟨13, 0⟩, ⟨11, 0⟩], 7⟩, reachable_exec (ext := noExt) .empty exampleLineOps
      (by decide +kernel), ?_⟩
  decide +kernel

theorem accepted_cable {l l' : Line K} (h : Core l.structures l.cables) {ext : Heap K} {k : LineCable} {r : Int}
    (e : l.addLineCable ext k = .ok l' r) (hr : r ≠ -1) :
    Accepts ext l k ∧ ∃ i : ℕ, i ≤ l.cables.length ∧ l' = { l with cables := l.cables.insertIdx i k } := by
  rcases addLineCable_cases ext h k with ⟨h1, -⟩ | ⟨h1, -⟩ | ⟨h1, -⟩ | ⟨ha, i, hle, h1⟩
  · rw [h1] at e; simp only [Outcome.ok.injEq] at e; exact absurd e.2.symm hr
  · rw [h1] at e; cases e
  · rw [h1] at e; cases e
  · rw [h1] at e; simp only [Outcome.ok.injEq] at e
    exact ⟨ha, i, hle, e.1.symm⟩

theorem accepts_added {l : Line K} (h : Core l.structures l.cables) {ext : Heap K} {k : LineCable}
    (ha : Accepts ext l k) :
    ∃ i : ℕ, i ≤ l.cables.length ∧ l.addLineCable ext k = .ok { l with cables := l.cables.insertIdx i k } (i : Int) := by
  rcases addLineCable_cases ext h k with ⟨-, hn⟩ | ⟨-, hn⟩ | ⟨-, hn⟩ | ⟨-, i, hle, h1⟩
  · exact absurd ha hn
  · exact absurd ha hn
  · exact absurd ha hn
  · exact ⟨i, hle, h1⟩

theorem mem_connections_insert {cs : List LineCable} {i : ℕ} (hi : i ≤ cs.length) (k : LineCable) (c : Connection) :
    c ∈ connections (cs.insertIdx i k) ↔ c ∈ k.connections ∨ c ∈ connections cs := by
  simp only [mem_connections, List.mem_insertIdx hi]
  constructor
  · rintro ⟨k', rfl | h, hc⟩
    · exact .inl hc
    · exact .inr ⟨k', h, hc⟩
  · rintro (hc | ⟨k', h, hc⟩)
    · exact ⟨k, .inl rfl, hc⟩
    · exact ⟨k', .inr h, hc⟩

/-- C164, what holds of cables: two cables that are accepted one after the other are also accepted the other way round,
and then the line has the same cables; alignment and structures are unchanged in both cases.  Missing: the order of the
cables (C164_cables_fails). -/
theorem C164_cables_partial {l l1 l2 : Line K} (h : Reachable l) {ext : Heap K} {k d : LineCable} {i j : Int}
    (hk : CableArg (l.heap ext) k) (hd : CableArg (l.heap ext) d)
    (e1 : l.addLineCable ext k = .ok l1 i) (hi : i ≠ -1) (e2 : l1.addLineCable ext d = .ok l2 j) (hj : j ≠ -1) :
    ∃ m1 m2 i' j', l.addLineCable ext d = .ok m1 j' ∧ j' ≠ -1 ∧ m1.addLineCable ext k = .ok m2 i' ∧ i' ≠ -1 ∧
      m2.cables.Perm l2.cables ∧ m2.structures = l2.structures ∧ m2.alignment = l2.alignment := by
  have c0 := h.inv.core
  have R1 : Reachable l1 := .step (.addLineCable k) ext h hk (by simp [Op.apply, e1, wrap, Outcome.state?])
  obtain ⟨a1, n, hn, rfl⟩ := accepted_cable c0 e1 hi
  obtain ⟨a2, n', hn', rfl⟩ := accepted_cable R1.inv.core e2 hj
  have b1 : Accepts ext l d := ⟨a2.1, a2.2.1, fun c hc => ⟨(a2.2.2 c hc).1, fun hm =>
    (a2.2.2 c hc).2 ((mem_connections_insert hn k c).2 (.inr hm))⟩⟩
  obtain ⟨q, hq, f1⟩ := accepts_added c0 b1
  have R2 : Reachable { l with cables := l.cables.insertIdx q d } :=
    .step (.addLineCable d) ext h hd (by simp [Op.apply, f1, wrap, Outcome.state?])
  have b2 : Accepts ext { l with cables := l.cables.insertIdx q d } k := by
    refine ⟨a1.1, a1.2.1, fun c hc => ⟨(a1.2.2 c hc).1, fun hm => ?_⟩⟩
    rcases (mem_connections_insert hq d c).1 hm with hm | hm
    · exact (a2.2.2 c hm).2 ((mem_connections_insert hn k c).2 (.inl hc))
    · exact (a1.2.2 c hc).2 hm
  obtain ⟨q', hq', f2⟩ := accepts_added R2.inv.core b2
  refine ⟨_, _, _, _, f1, by omega, f2, by omega, ?_, rfl, rfl⟩
  have p1 := List.perm_insertIdx k l.cables hn
  have p2 := List.perm_insertIdx d (l.cables.insertIdx n k) hn'
  have p3 := List.perm_insertIdx d l.cables hq
  have p4 := List.perm_insertIdx k (l.cables.insertIdx q d) hq'
  exact (p4.trans ((p3.cons k).trans (List.Perm.swap d k _))).trans (p2.trans (p1.cons d)).symm

end Verif.Props
