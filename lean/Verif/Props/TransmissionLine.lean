import Mathlib.Algebra.Order.Ring.Rat
import Mathlib.Algebra.Field.Rat
import Mathlib.Data.List.Perm.Basic
import Verif.LineExec
import Verif.LineInside
import Verif.Props.LineCable

/-! # Properties of transmission line editing (C12-C22, C25, C82, C83)

`Line.Reachable l`: `l` results from a new line by any finite history of editing calls and copies, with
the rest of memory in any state at each call. -/

set_option linter.unusedSectionVars false

namespace Verif.Props
open Line

variable {K : Type} [Field K] [LinearOrder K] [IsStrictOrderedRing K]

/-! ### A concrete line used in the examples -/

/-- A structure at station `x` with dead-end hardware at attachment 0, suspension at 1. -/
def exampleStructure (x : ℚ) : LineStructure ℚ :=
  ⟨[some ⟨.deadEnd⟩, some ⟨.suspension⟩], 0, 0, 0, x, some (exampleBase 2)⟩

/-- No line structures outside the line. -/
def noExt : Heap ℚ := fun _ => none

/-- Three alignment points and three structures. -/
def exampleLineOps : List (Line.Op ℚ) :=
  [.addAlignmentPoint ⟨0, 0, 0⟩, .addAlignmentPoint ⟨0, 0, 100⟩, .addAlignmentPoint ⟨0, 0, 50⟩,
   .addLineStructure 11 (exampleStructure 90), .addLineStructure 12 (exampleStructure 10),
   .addLineStructure 13 (exampleStructure 50)]

/-- The line after `exampleLineOps` and two cables. -/
def exampleLine : Line ℚ :=
  ⟨[⟨0, 0, 0⟩, ⟨0, 0, 50⟩, ⟨0, 0, 100⟩],
   [(12, exampleStructure 10), (13, exampleStructure 50), (11, exampleStructure 90)],
   [⟨[⟨12, 0⟩, ⟨13, 1⟩, ⟨11, 0⟩], 7⟩, ⟨[⟨12, 1⟩, ⟨13, 0⟩], 8⟩]⟩

theorem exampleLine_reachable : Reachable exampleLine :=
  reachable_exec (ext := noExt) .empty
    (exampleLineOps ++ [.addLineCable ⟨[⟨12, 1⟩, ⟨13, 0⟩], 8⟩,
      .addLineCable ⟨[⟨12, 0⟩, ⟨13, 1⟩, ⟨11, 0⟩], 7⟩]) (by decide +kernel)

/-! ### C12-C16: class invariants -/

/-- C12: line structures are strictly increasing in station. -/
theorem C12_structures_strictly_ordered {l : Line K} (h : Reachable l) :
    (l.structures.map fun e => e.2.station).Pairwise (· < ·) := by
  rw [List.pairwise_map]; exact h.inv.core.sorted

example : Reachable exampleLine ∧ exampleLine.structures.length = 3 :=
  ⟨exampleLine_reachable, rfl⟩

/-- C13 is false as stated: `ModifyLineStructure` accepts a station beyond the last alignment point. -/
theorem C13_structure_outside_alignment :
    ∃ l : Line ℚ, Reachable l ∧ ∃ e ∈ l.structures, ∀ p ∈ l.alignment, p.station < e.2.station := by
  refine ⟨⟨[⟨0, 0, 0⟩, ⟨0, 0, 50⟩, ⟨0, 0, 100⟩],
     [(12, exampleStructure 10), (13, exampleStructure 50), (11, exampleStructure (201 / 2))], []⟩,
    reachable_exec (ext := noExt) .empty
      (exampleLineOps ++ [.modifyLineStructure 2 (exampleStructure (201 / 2))]) (by decide +kernel), ?_⟩
  decide +kernel

/-- C13, what holds for every history: every structure is less than one station unit outside the
alignment (so there is an alignment).  Missing: being inside it. -/
theorem C13_within_one_partial {l : Line K} (h : Reachable l) (e) (he : e ∈ l.structures) :
    ∃ first last, l.alignment.head? = some first ∧ l.alignment.getLast? = some last ∧
      first.station - 1 < e.2.station ∧ e.2.station < last.station + 1 := h.inv.range e he

/-- C13, what holds exactly: if every `ModifyLineStructure` call is given a station between the first and
the last alignment station, all structures always lie between them, whatever alignment edits are made. -/
theorem C13_within_partial {l : Line K} (h : ReachableInside l) (e) (he : e ∈ l.structures) :
    ∃ first last, l.alignment.head? = some first ∧ l.alignment.getLast? = some last ∧
      first.station ≤ e.2.station ∧ e.2.station ≤ last.station := h.allInside e he

/-- Non-vacuity of `C13_within_partial`: a history with a structure and a shrinking alignment. -/
example : ReachableInside (K := ℚ) ⟨[⟨0, 0, 0⟩, ⟨0, 0, 50⟩], [(1, exampleStructure 10)], []⟩ := by
  have h1 : ReachableInside (K := ℚ) ⟨[⟨0, 0, 0⟩], [], []⟩ :=
    .step (.addAlignmentPoint ⟨0, 0, 0⟩) noExt .empty trivial trivial (by decide +kernel)
  have h2 : ReachableInside (K := ℚ) ⟨[⟨0, 0, 0⟩, ⟨0, 0, 50⟩], [], []⟩ :=
    .step (.addAlignmentPoint ⟨0, 0, 50⟩) noExt h1 trivial trivial (by decide +kernel)
  have h3 : ReachableInside (K := ℚ) ⟨[⟨0, 0, 0⟩, ⟨0, 0, 50⟩, ⟨0, 0, 100⟩], [], []⟩ :=
    .step (.addAlignmentPoint ⟨0, 0, 100⟩) noExt h2 trivial trivial (by decide +kernel)
  have h4 : ReachableInside (K := ℚ)
      ⟨[⟨0, 0, 0⟩, ⟨0, 0, 50⟩, ⟨0, 0, 100⟩], [(1, exampleStructure 10)], []⟩ :=
    .step (.addLineStructure 1 (exampleStructure 10)) noExt h3 (preB_spec (by decide +kernel)) trivial
      (by decide +kernel)
  have h5 : ReachableInside (K := ℚ) ⟨[⟨0, 0, 0⟩, ⟨0, 0, 50⟩, ⟨0, 0, 100⟩],
      [(1, exampleStructure 10), (2, exampleStructure 60)], []⟩ :=
    .step (.addLineStructure 2 (exampleStructure 60)) noExt h4 (preB_spec (by decide +kernel)) trivial
      (by decide +kernel)
  exact .step (.deleteAlignmentPoint 2) noExt h5 trivial trivial (by decide +kernel)

/-- C14: every connection of every stored cable refers to a structure of the same line, at an existing
attachment with hardware. -/
theorem C14_no_dangling_connection {l : Line K} (h : Reachable l) (k) (hk : k ∈ l.cables)
    (c) (hc : c ∈ k.connections) :
    ∃ s, (c.ptr, s) ∈ l.structures ∧ 0 ≤ c.attachment ∧
      ∃ hw, s.hardwares[c.attachment.toNat]? = some (some hw) := by
  obtain ⟨t, ht⟩ := (h.inv.core.cablesOk k hk).2.2 c hc
  obtain ⟨s, hs, h0, hw⟩ := LineCable.checkConnection_val_iff.mp ht
  exact ⟨s, lookup_mem hs, h0, _, hw⟩

/-- C14: addresses of structures are distinct, so the reference of C14 is unambiguous. -/
theorem C14_addresses_distinct {l : Line K} (h : Reachable l) :
    (l.structures.map Prod.fst).Nodup ∧ 0 ∉ l.structures.map Prod.fst := by
  refine ⟨h.inv.core.nodup, ?_⟩
  rw [List.mem_map]
  rintro ⟨e, he, h0⟩
  exact h.inv.core.nonnull e he h0

/-- C15: no two stored connections, in the same or in different cables, use the same attachment of the
same structure. -/
theorem C15_attachment_exclusive {l : Line K} (h : Reachable l) :
    (l.cables.flatMap fun k => k.connections).Nodup := h.inv.core.excl

/-- C15: `HasConnection(i, a)` reports exactly the used attachments. -/
theorem C15_has_connection_iff (l : Line K) (i : Nat) (hi : i < l.structures.length) (a : Int) :
    ∃ b, l.hasConnection (i : Int) a = .val b ∧
      (b = true ↔ ∃ k ∈ l.cables, ∃ c ∈ k.connections, c.ptr = (l.structures[i]).1 ∧
        c.attachment = a) := by
  obtain ⟨b, hb, hiff⟩ := hasConnection_eq l hi a
  refine ⟨b, hb, hiff.trans ?_⟩
  rw [mem_connections]
  constructor
  · rintro ⟨k, hk, hc⟩; exact ⟨k, hk, _, hc, rfl, rfl⟩
  · rintro ⟨k, hk, c, hc, h1, h2⟩
    refine ⟨k, hk, ?_⟩
    have : c = ⟨(l.structures[i]).1, a⟩ := by cases c; simp_all
    rw [← this]; exact hc

example : exampleLine.hasConnection 1 1 = .val true ∧ exampleLine.hasConnection 2 1 = .val false := by
  decide +kernel

/-- C16: every stored cable has at least two connections, strictly increasing in the station of the
structures they refer to. -/
theorem C16_cable_connections {l : Line K} (h : Reachable l) (k) (hk : k ∈ l.cables) :
    2 ≤ k.connections.length ∧
    k.connections.Pairwise (fun c d => ∃ s t, (c.ptr, s) ∈ l.structures ∧ (d.ptr, t) ∈ l.structures ∧
      s.station < t.station) := by
  obtain ⟨h1, h2, -⟩ := h.inv.core.cablesOk k hk
  refine ⟨h1, h2.imp ?_⟩
  rintro c d ⟨s, t, hs, ht, hlt⟩
  exact ⟨s, t, lookup_mem hs, lookup_mem ht, hlt⟩

example : Reachable exampleLine ∧ ⟨[⟨12, 0⟩, ⟨13, 1⟩, ⟨11, 0⟩], 7⟩ ∈ exampleLine.cables :=
  ⟨exampleLine_reachable, by decide +kernel⟩

/-! ### C17: rejected calls -/

/-- The value by which a call reports rejection. -/
def isRejection : Ret → Prop
  | .int i => i = -1
  | .bool b => b = false

/-- C17: a rejected call other than `ModifyLineCable` leaves the line unchanged. -/
theorem C17_rejected_unchanged {l l' : Line K} (h : Reachable l) (ext : Heap K) (op : Op K) (r : Ret)
    (hop : ∀ i k, op ≠ .modifyLineCable i k) (e : op.apply ext l = .ok l' r) (hr : isRejection r) :
    l' = l := by
  have hwrap : ∀ {A : Type} {f : A → Ret} {o : Outcome (Line K) A},
      wrap f o = .ok l' r → ∃ a, o = .ok l' a ∧ r = f a := by
    intro A f o ho
    cases o <;> simp only [wrap, Outcome.ok.injEq, reduceCtorEq] at ho
    exact ⟨_, by rw [ho.1], ho.2.symm⟩
  cases op with
  | addAlignmentPoint p =>
    rw [Op.apply] at e
    obtain ⟨a, h1, rfl⟩ := hwrap e
    simp only [Line.addAlignmentPoint, Outcome.ok.injEq] at h1
    obtain ⟨rfl, rfl⟩ := h1
    rw [Alignment.addPoint_fail p hr]
  | deleteAlignmentPoint index =>
    obtain ⟨a, h1, rfl⟩ := hwrap e
    unfold Line.deleteAlignmentPoint at h1
    by_cases hv : validIndex index l.alignment.length = true
    · simp only [Alignment.deletePoint, hv, if_true, Bool.true_and] at h1
      exfalso
      have ha : a = false := hr
      subst ha
      split at h1
      · unfold cleanUp finishCables at h1
        split at h1
        · cases h1
        · split at h1 <;> simp at h1
      · simp at h1
    · simp only [Alignment.deletePoint, hv, if_false, Bool.false_and, Bool.false_eq_true] at h1
      simp only [Outcome.ok.injEq] at h1
      exact h1.1.symm
  | modifyAlignmentPoint index p =>
    obtain ⟨a, h1, rfl⟩ := hwrap e
    have ha : a = -1 := hr
    subst ha
    unfold Line.modifyAlignmentPoint at h1
    simp only at h1
    by_cases hm : (Alignment.modifyPoint l.alignment index p).2 = -1
    · have hsame := Alignment.modifyPoint_fail (index := index) p h.inv.align hm
      simp only [hm, hsame, ne_eq, not_true, decide_false, Bool.false_and, Bool.false_eq_true, if_false,
        Outcome.ok.injEq] at h1
      exact h1.1.symm
    · exfalso
      split at h1
      · unfold cleanUp finishCables at h1
        split at h1
        · cases h1
        · split at h1
          · simp only [Outcome.ok.injEq] at h1; exact hm h1.2
          · cases h1
          · cases h1
      · simp only [Outcome.ok.injEq] at h1; exact hm h1.2
  | addLineStructure p s =>
    obtain ⟨a, h1, rfl⟩ := hwrap e
    have ha : a = -1 := hr
    subst ha
    rcases addLineStructure_cases l p s with ⟨-, h2⟩ | ⟨-, h2⟩ | ⟨i, -, -, -, h2⟩
    · rw [h2] at h1; cases h1
    · rw [h2] at h1; simp only [Outcome.ok.injEq] at h1; exact h1.1.symm
    · rw [h2] at h1; simp only [Outcome.ok.injEq] at h1; omega
  | deleteLineStructure index =>
    obtain ⟨a, h1, rfl⟩ := hwrap e
    have ha : a = false := hr
    subst ha
    unfold Line.deleteLineStructure at h1
    split at h1
    · simp only at h1; split at h1 <;> simp at h1
    · simp only [Outcome.ok.injEq] at h1; exact h1.1.symm
  | modifyLineStructure index s =>
    obtain ⟨a, h1, rfl⟩ := hwrap e
    have ha : a = false := hr
    subst ha
    unfold Line.modifyLineStructure at h1
    split at h1
    · split at h1
      · split at h1
        · simp only [Outcome.ok.injEq] at h1; exact h1.1.symm
        · simp only at h1
          split at h1
          · cases h1
          · unfold finishCables at h1
            split at h1 <;> simp at h1
      · cases h1
    · simp only [Outcome.ok.injEq] at h1; exact h1.1.symm
  | addLineCable k =>
    obtain ⟨a, h1, rfl⟩ := hwrap e
    have ha : a = -1 := hr
    subst ha
    rcases addLineCable_cases ext h.inv.core k with ⟨h2, -⟩ | ⟨h2, -⟩ | ⟨h2, -⟩ | ⟨-, i, -, h2⟩
    · rw [h2] at h1; simp only [Outcome.ok.injEq] at h1; exact h1.1.symm
    · rw [h2] at h1; cases h1
    · rw [h2] at h1; cases h1
    · rw [h2] at h1; simp only [Outcome.ok.injEq] at h1; omega
  | deleteLineCable i =>
    simp only [Op.apply, Outcome.ok.injEq] at e
    obtain ⟨h1, rfl⟩ := e
    have ha : (l.deleteLineCable i).2 = false := hr
    unfold Line.deleteLineCable at ha h1
    split at ha
    · simp at ha
    · rename_i hv; rw [if_neg hv] at h1; exact h1.symm
  | modifyLineCable i k => exact absurd rfl (hop i k)

/-- The call names a point, structure or cable that does not exist. -/
def NamesNothing (l : Line K) : Op K → Prop
  | .deleteAlignmentPoint i | .modifyAlignmentPoint i _ => ¬ (0 ≤ i ∧ i < l.alignment.length)
  | .deleteLineStructure i | .modifyLineStructure i _ => ¬ (0 ≤ i ∧ i < l.structures.length)
  | .deleteLineCable i | .modifyLineCable i _ => ¬ (0 ≤ i ∧ i < l.cables.length)
  | _ => False

/-- C17: a call with an index that is out of range is rejected, `ModifyLineCable` included, and leaves the line
unchanged; this holds for every line and every state of memory. -/
theorem C17_bad_index (l : Line K) (ext : Heap K) {op : Op K} (h : NamesNothing l op) :
    ∃ r, isRejection r ∧ op.apply ext l = .ok l r := by
  have bad : ∀ {i : Int} {n : Nat}, ¬ (0 ≤ i ∧ i < n) → ¬ validIndex i n = true := fun h e => h (validIndex_iff.1 e)
  cases op with
  | addAlignmentPoint p => exact h.elim
  | addLineStructure p s => exact h.elim
  | addLineCable k => exact h.elim
  | deleteAlignmentPoint i =>
    refine ⟨.bool false, rfl, ?_⟩
    simp only [Op.apply, Line.deleteAlignmentPoint, Alignment.deletePoint, if_neg (bad h), Bool.false_and,
      Bool.false_eq_true, if_false, wrap]
  | modifyAlignmentPoint i p =>
    refine ⟨.int (-1), rfl, ?_⟩
    simp only [Op.apply, Line.modifyAlignmentPoint, Alignment.modifyPoint, dif_neg (bad h), ne_eq, not_true_eq_false,
      decide_false, Bool.false_and, Bool.false_eq_true, if_false, wrap]
  | deleteLineStructure i =>
    refine ⟨.bool false, rfl, ?_⟩
    simp only [Op.apply, Line.deleteLineStructure, dif_neg (bad h), wrap]
  | modifyLineStructure i s =>
    refine ⟨.bool false, rfl, ?_⟩
    simp only [Op.apply, Line.modifyLineStructure, dif_neg (bad h), wrap]
  | deleteLineCable i =>
    refine ⟨.bool false, rfl, ?_⟩
    simp only [Op.apply, Line.deleteLineCable, if_neg (bad h), Bool.false_eq_true, if_false]
  | modifyLineCable i k =>
    refine ⟨.int (-1), rfl, ?_⟩
    simp only [Op.apply, Line.modifyLineCable, dif_neg (bad h), wrap]

example : NamesNothing exampleLine (.modifyLineCable 7 ⟨[⟨12, 0⟩, ⟨13, 0⟩], 0⟩) ∧
    NamesNothing exampleLine (.deleteAlignmentPoint (-1)) := by
  constructor <;> simp [NamesNothing] <;> decide +kernel

/-- Non-vacuity of C17: six rejected calls on a populated line. -/
example : (∀ op ∈ ([.addAlignmentPoint ⟨0, 0, 50⟩, .deleteAlignmentPoint 3,
      .modifyAlignmentPoint 0 ⟨0, 0, 100⟩, .addLineStructure 20 (exampleStructure 101),
      .modifyLineStructure 1 (exampleStructure 90), .deleteLineStructure (-1),
      .addLineCable ⟨[⟨12, 0⟩, ⟨13, 0⟩], 0⟩, .deleteLineCable 2] : List (Op ℚ)),
    op.apply noExt exampleLine = .ok exampleLine (.int (-1)) ∨
    op.apply noExt exampleLine = .ok exampleLine (.bool false)) := by
  decide +kernel

/-! ### C18: returned indices -/

/-- C18: an accepted structure is at the returned index, and removing it gives back the old list. -/
theorem C18_structure_index {l l' : Line K} (p : Ptr) (s : LineStructure K) (r : Int)
    (e : l.addLineStructure p s = .ok l' r) (hr : r ≠ -1) :
    ∃ i : Nat, r = (i : Int) ∧ l'.structures[i]? = some (p, s) ∧
      l'.structures.eraseIdx i = l.structures ∧ l'.alignment = l.alignment ∧ l'.cables = l.cables := by
  rcases addLineStructure_cases l p s with ⟨-, h1⟩ | ⟨-, h1⟩ | ⟨i, hle, -, -, h1⟩
  · rw [h1] at e; cases e
  · rw [h1] at e; simp only [Outcome.ok.injEq] at e; exact absurd e.2.symm hr
  · rw [h1] at e; simp only [Outcome.ok.injEq] at e
    obtain ⟨rfl, rfl⟩ := e
    refine ⟨i, rfl, ?_, List.eraseIdx_insertIdx_self _, rfl, rfl⟩
    rw [List.getElem?_insertIdx_self, if_pos hle]

/-- C18: an accepted cable is at the returned index, and removing it gives back the old list. -/
theorem C18_cable_index {l l' : Line K} (h : Reachable l) (ext : Heap K) (k : LineCable) (r : Int)
    (e : l.addLineCable ext k = .ok l' r) (hr : r ≠ -1) :
    ∃ i : Nat, r = (i : Int) ∧ l'.cables[i]? = some k ∧
      l'.cables.eraseIdx i = l.cables ∧ l'.alignment = l.alignment ∧ l'.structures = l.structures := by
  rcases addLineCable_cases ext h.inv.core k with ⟨h1, -⟩ | ⟨h1, -⟩ | ⟨h1, -⟩ | ⟨-, i, hle, h1⟩
  · rw [h1] at e; simp only [Outcome.ok.injEq] at e; exact absurd e.2.symm hr
  · rw [h1] at e; cases e
  · rw [h1] at e; cases e
  · rw [h1] at e; simp only [Outcome.ok.injEq] at e
    obtain ⟨rfl, rfl⟩ := e
    refine ⟨i, rfl, ?_, List.eraseIdx_insertIdx_self _, rfl, rfl⟩
    rw [List.getElem?_insertIdx_self, if_pos hle]

/-- C18: the accepted cables are exactly the ones with at least two connections, all to distinct free
attachments of own structures that carry hardware (`own` pointers, see C14). -/
theorem C18_cable_accepted_iff {l : Line K} (h : Reachable l) (ext : Heap K) (k : LineCable) :
    (∃ l' r, l.addLineCable ext k = .ok l' r ∧ r ≠ -1) ↔
      2 ≤ k.connections.length ∧ ∀ c ∈ k.connections,
        (∃ s, (c.ptr, s) ∈ l.structures ∧ 0 ≤ c.attachment ∧
          ∃ hw, s.hardwares[c.attachment.toNat]? = some (some hw)) ∧
        ∀ k' ∈ l.cables, c ∉ k'.connections := by
  have hacc : (∃ l' r, l.addLineCable ext k = .ok l' r ∧ r ≠ -1) ↔ Accepts ext l k := by
    rcases addLineCable_cases ext h.inv.core k with ⟨h1, hn⟩ | ⟨h1, hn⟩ | ⟨h1, hn⟩ | ⟨ha, i, hle, h1⟩
    · rw [h1]; simp [hn]
    · rw [h1]; simp [hn]
    · rw [h1]; simp [hn]
    · rw [h1]; simp only [ha, iff_true]
      exact ⟨_, _, rfl, by omega⟩
  rw [hacc]
  unfold Accepts
  refine and_congr_right (fun _ => ?_)
  constructor
  · rintro ⟨hu, ho⟩ c hc
    obtain ⟨t, ht⟩ := hu c hc
    obtain ⟨s, hs, h0, hw⟩ := LineCable.checkConnection_val_iff.mp ht
    rw [heap_eq_own (ho c hc).1] at hs
    refine ⟨⟨s, lookup_mem hs, h0, _, hw⟩, ?_⟩
    intro k' hk' hck
    exact (ho c hc).2 (mem_connections.mpr ⟨k', hk', hck⟩)
  · intro hall
    constructor
    · intro c hc
      obtain ⟨⟨s, hs, h0, ⟨t⟩, hw⟩, -⟩ := hall c hc
      refine ⟨t, LineCable.checkConnection_val_iff.mpr ⟨s, ?_, h0, hw⟩⟩
      exact heap_of_own (lookup_of_mem h.inv.core.nodup hs)
    · intro c hc
      obtain ⟨⟨s, hs, -⟩, hno⟩ := hall c hc
      refine ⟨by rw [lookup_of_mem h.inv.core.nodup hs]; rfl, ?_⟩
      rw [mem_connections]
      rintro ⟨k', hk', hck⟩
      exact hno k' hk' hck

example : exampleLine.addLineStructure 20 (exampleStructure 60) =
      .ok { exampleLine with structures := [(12, exampleStructure 10), (13, exampleStructure 50),
        (20, exampleStructure 60), (11, exampleStructure 90)] } 2 ∧
    exampleLine.deleteLineCable 0 = ({ exampleLine with cables := exampleLine.cables.drop 1 }, true) ∧
    Line.addLineCable noExt { exampleLine with cables := exampleLine.cables.drop 1 }
      ⟨[⟨13, 1⟩, ⟨11, 0⟩], 7⟩ =
      .ok { exampleLine with cables := [⟨[⟨12, 1⟩, ⟨13, 0⟩], 8⟩, ⟨[⟨13, 1⟩, ⟨11, 0⟩], 7⟩] } 1 := by
  decide +kernel

/-! ### C19: order of cables -/

/-- C19 is false as stated: a cable starting at the first structure is put after one that starts at the
second structure. -/
theorem C19_cables_not_ordered :
    ∃ l l' : Line ℚ, Reachable l ∧ ∃ k d, l.cables = [d] ∧
      l.addLineCable noExt k = .ok l' 1 ∧ l'.cables = [d, k] ∧
      k.connections.map (fun c => l.indexLineStructure c.ptr) = [0, 2] ∧
      d.connections.map (fun c => l.indexLineStructure c.ptr) = [1, 2] := by
  refine ⟨{ exampleLine with cables := [⟨[⟨13, 0⟩, ⟨11, 0⟩], 7⟩] },
    { exampleLine with cables := [⟨[⟨13, 0⟩, ⟨11, 0⟩], 7⟩, ⟨[⟨12, 1⟩, ⟨11, 1⟩], 8⟩] },
    reachable_exec (ext := noExt) .empty (exampleLineOps ++ [.addLineCable ⟨[⟨13, 0⟩, ⟨11, 0⟩], 7⟩])
      (by decide +kernel),
    ⟨[⟨12, 1⟩, ⟨11, 1⟩], 8⟩, ⟨[⟨13, 0⟩, ⟨11, 0⟩], 7⟩, rfl, ?_⟩
  decide +kernel

/-- First attachment index of a cable. -/
def firstAttachment (k : LineCable) : Option Int := k.connections.head?.map fun c => c.attachment

theorem cablePos_same {l : Line K} {p : Ptr} (a : Int) :
    ∀ {ks : List LineCable}, (∀ k ∈ ks, (k.connections.head?.map fun c => c.ptr) = some p) →
    ks.Pairwise (fun k k' => ∀ x y, firstAttachment k = some x → firstAttachment k' = some y → x ≤ y) →
    ∃ i : Nat, l.cablePos (l.indexLineStructure p) a ks = .val i ∧ i ≤ ks.length ∧
      (∀ j (hj : j < ks.length), j < i → ∀ x, firstAttachment ks[j] = some x → x ≤ a) ∧
      (∀ j (hj : j < ks.length), i ≤ j → ∀ x, firstAttachment ks[j] = some x → a < x) := by
  intro ks
  induction ks with
  | nil => intro _ _; exact ⟨0, rfl, by simp, by simp, by simp⟩
  | cons k ks ih =>
    intro hp hs
    obtain ⟨hs1, hs2⟩ := List.pairwise_cons.mp hs
    obtain ⟨i, hi, hle, hlo, hhi⟩ := ih (fun k' hk' => hp k' (by simp [hk'])) hs2
    simp only [cablePos]
    have hk := hp k (by simp)
    cases hh : k.connections.head? with
    | none => rw [hh] at hk; simp at hk
    | some d =>
      rw [hh] at hk
      simp only [Option.map_some, Option.some.injEq] at hk
      have hfa : firstAttachment k = some d.attachment := by simp [firstAttachment, hh]
      simp only [hk, le_refl, true_and]
      by_cases hlt : a < d.attachment
      · rw [if_pos hlt]
        refine ⟨0, rfl, by simp, by simp, ?_⟩
        intro j hj _ x hx
        cases j with
        | zero =>
          simp only [List.getElem_cons_zero, hfa, Option.some.injEq] at hx
          omega
        | succ j =>
          simp only [List.getElem_cons_succ] at hx
          have := hs1 _ (List.getElem_mem (by simpa using hj)) _ _ hfa hx
          omega
      · rw [if_neg hlt, hi]
        refine ⟨i + 1, rfl, by simp; omega, ?_, ?_⟩
        · intro j hj hji x hx
          cases j with
          | zero =>
            simp only [List.getElem_cons_zero, hfa, Option.some.injEq] at hx
            omega
          | succ j =>
            simp only [List.getElem_cons_succ] at hx
            exact hlo j (by simpa using hj) (by omega) x hx
        · intro j hj hji x hx
          cases j with
          | zero => omega
          | succ j =>
            simp only [List.getElem_cons_succ] at hx
            exact hhi j (by simpa using hj) (by omega) x hx

/-- C19, what holds: among cables that all start at one structure, adding keeps the order by first
attachment.  Missing: cables that start at different structures. -/
theorem C19_cables_ordered_partial {l l' : Line K} (ext : Heap K) (k : LineCable)
    (r : Int) (p : Ptr)
    (hsame : ∀ k' ∈ k :: l.cables, (k'.connections.head?.map fun c => c.ptr) = some p)
    (hord : l.cables.Pairwise fun a b =>
      ∀ x y, firstAttachment a = some x → firstAttachment b = some y → x ≤ y)
    (e : l.addLineCable ext k = .ok l' r) :
    l'.cables.Pairwise fun a b =>
      ∀ x y, firstAttachment a = some x → firstAttachment b = some y → x ≤ y := by
  unfold Line.addLineCable at e
  split at e
  · cases e
  · cases e
  · cases e; exact hord
  · split at e
    · cases e
    · cases e
    · cases e; exact hord
    · have hk := hsame k (by simp)
      cases hh : k.connections.head? with
      | none => rw [hh] at hk; simp at hk
      | some c =>
        rw [hh] at hk
        simp only [Option.map_some, Option.some.injEq] at hk
        obtain ⟨i, hi, hle, hlo, hhi⟩ := cablePos_same (l := l) (p := p) c.attachment
          (ks := l.cables) (fun k' hk' => hsame k' (by simp [hk'])) hord
        rw [hh] at e
        simp only [hk, hi, Outcome.ok.injEq] at e
        obtain ⟨rfl, -⟩ := e
        have hfa : firstAttachment k = some c.attachment := by simp [firstAttachment, hh]
        show (l.cables.insertIdx i k).Pairwise _
        rw [insertIdx_eq_take_drop _ _ _ hle]
        rw [← List.take_append_drop i l.cables, List.pairwise_append] at hord
        rw [List.pairwise_append]
        refine ⟨hord.1, List.pairwise_cons.mpr ⟨?_, hord.2.1⟩, ?_⟩
        · intro b hb x y hx hy
          obtain ⟨j, hj, rfl⟩ := List.getElem_of_mem hb
          rw [List.getElem_drop] at hy
          have := hhi (i + j) (by rw [List.length_drop] at hj; omega) (by omega) y hy
          rw [hfa] at hx; cases hx; omega
        · intro a ha b hb x y hx hy
          rcases List.mem_cons.mp hb with rfl | hb
          · obtain ⟨j, hj, rfl⟩ := List.getElem_of_mem ha
            rw [List.getElem_take] at hx
            rw [List.length_take] at hj
            have := hlo j (by omega) (by omega) x hx
            rw [hfa] at hy; cases hy; omega
          · exact hord.2.2 a ha b hb x y hx hy

example : Line.addLineCable noExt { exampleLine with cables := [⟨[⟨12, 1⟩, ⟨13, 0⟩], 8⟩] }
      ⟨[⟨12, 0⟩, ⟨11, 0⟩], 7⟩ =
    .ok { exampleLine with cables := [⟨[⟨12, 0⟩, ⟨11, 0⟩], 7⟩, ⟨[⟨12, 1⟩, ⟨13, 0⟩], 8⟩] } 0 := by
  decide +kernel

/-! ### C20: failed cable modification -/

/-- C20 is false as stated: after a rejected modification the cables are in a different order. -/
theorem C20_failed_modify_reorders :
    ∃ l l' : Line ℚ, Reachable l ∧ ∃ k a b, l.cables = [a, b] ∧ a ≠ b ∧
      l.modifyLineCable noExt 0 k = .ok l' (-1) ∧ l'.cables = [b, a] := by
  refine ⟨{ exampleLine with cables := [⟨[⟨13, 0⟩, ⟨11, 0⟩], 7⟩, ⟨[⟨12, 0⟩, ⟨13, 1⟩], 8⟩] },
    { exampleLine with cables := [⟨[⟨12, 0⟩, ⟨13, 1⟩], 8⟩, ⟨[⟨13, 0⟩, ⟨11, 0⟩], 7⟩] },
    reachable_exec (ext := noExt) .empty (exampleLineOps ++ [.addLineCable ⟨[⟨13, 0⟩, ⟨11, 0⟩], 7⟩,
      .addLineCable ⟨[⟨12, 0⟩, ⟨13, 1⟩], 8⟩]) (by decide +kernel),
    ⟨[⟨12, 1⟩], 0⟩, ⟨[⟨13, 0⟩, ⟨11, 0⟩], 7⟩, ⟨[⟨12, 0⟩, ⟨13, 1⟩], 8⟩, rfl, ?_⟩
  decide +kernel

/-- C20: when `AddLineCable` throws inside the modification (attachment index out of range), the original
cable is lost. -/
theorem C20_exception_loses_cable :
    ∃ l l' : Line ℚ, Reachable l ∧ ∃ k a b, l.cables = [a, b] ∧
      CableArg (l.heap noExt) k ∧ l.modifyLineCable noExt 0 k = .throws l' ∧ l'.cables = [b] := by
  refine ⟨exampleLine, { exampleLine with cables := [⟨[⟨12, 1⟩, ⟨13, 0⟩], 8⟩] },
    exampleLine_reachable, ⟨[⟨12, 0⟩, ⟨13, 2⟩], 0⟩, _, _, rfl, ?_, ?_⟩
  · exact preB_spec (op := .addLineCable ⟨[⟨12, 0⟩, ⟨13, 2⟩], 0⟩) (by decide +kernel)
  · decide +kernel

/-- C20, what holds: a rejected modification keeps the same cables up to their order, and the alignment
and structures; with an invalid index nothing changes.  Missing: the order. -/
theorem C20_failed_modify_restores_partial {l l' : Line K} (h : Reachable l) (ext : Heap K)
    (index : Int) (k : LineCable) (e : l.modifyLineCable ext index k = .ok l' (-1)) :
    l'.cables.Perm l.cables ∧ l'.alignment = l.alignment ∧ l'.structures = l.structures ∧
      (¬ (0 ≤ index ∧ index < l.cables.length) → l' = l) := by
  by_cases hv : validIndex index l.cables.length = true
  · obtain ⟨hi, hcast⟩ := validIndex_toNat hv
    have hv' := validIndex_iff.mp hv
    rw [← hcast] at e
    rcases modifyLineCable_cases ext h.inv.core hi k with
      ⟨-, j, hj, h1⟩ | ⟨-, h1⟩ | ⟨-, h1⟩ | ⟨-, j, -, h1⟩
    · rw [h1] at e; simp only [Outcome.ok.injEq] at e
      obtain ⟨rfl, -⟩ := e
      refine ⟨?_, rfl, rfl, fun hno => absurd hv' hno⟩
      refine (List.perm_insertIdx _ _ hj).trans ?_
      exact (List.getElem_cons_eraseIdx_perm hi)
    · rw [h1] at e; cases e
    · rw [h1] at e; cases e
    · rw [h1] at e; simp only [Outcome.ok.injEq] at e; omega
  · unfold Line.modifyLineCable at e; rw [dif_neg hv] at e
    simp only [Outcome.ok.injEq] at e
    obtain ⟨rfl, -⟩ := e
    exact ⟨List.Perm.refl _, rfl, rfl, fun _ => rfl⟩

/-! ### C21, C82, C83: removal of structures and connections -/

/-- Keep the connections satisfying `q`, then drop the cables left with fewer than two. -/
def pruneCables (q : Connection → Bool) (cables : List LineCable) : List LineCable :=
  (cables.map fun k => LineCable.mk (k.connections.filter q) k.rest).filter
    fun k => decide (2 ≤ k.connections.length)

/-- C21: `DeleteLineStructure` removes the structure and exactly the connections to it, and drops exactly
the cables left with fewer than two connections. -/
theorem C21_delete_structure {l : Line K} (h : Reachable l) (ext : Heap K) (i : Nat)
    (hi : i < l.structures.length) :
    l.deleteLineStructure ext (i : Int) =
      .ok ⟨l.alignment, l.structures.eraseIdx i,
        pruneCables (fun c => decide (c.ptr ≠ (l.structures[i]).1)) l.cables⟩ true :=
  (deleteLineStructure_eq ext h.inv.core hi).1

example : exampleLine.deleteLineStructure noExt 1 =
    .ok ⟨exampleLine.alignment, [(12, exampleStructure 10), (11, exampleStructure 90)],
      [⟨[⟨12, 0⟩, ⟨11, 0⟩], 7⟩]⟩ true := by decide +kernel

/-- Structures between two stations (bounds included). -/
def structuresWithin (lo hi : K) (ss : List (Ptr × LineStructure K)) : List (Ptr × LineStructure K) :=
  ss.filter fun e => decide (lo ≤ e.2.station) && decide (e.2.station ≤ hi)

/-- C82: an accepted change of the first or last alignment point keeps exactly the structures within the
new bounds, removes exactly the connections to the others, and drops exactly the cables left with fewer
than two connections. -/
theorem C82_bounds_change_delete {l : Line K} (h : Reachable l) (ext : Heap K) (i : Nat)
    (hi : i < l.alignment.length) (hb : i = 0 ∨ i + 1 = l.alignment.length) (first last : AlignmentPoint K)
    (hf : (l.alignment.eraseIdx i).head? = some first)
    (hl : (l.alignment.eraseIdx i).getLast? = some last) :
    ∃ ss, ss = structuresWithin first.station last.station l.structures ∧
      l.deleteAlignmentPoint ext (i : Int) =
        .ok ⟨l.alignment.eraseIdx i, ss,
          pruneCables (fun c => decide (c.ptr ∈ ss.map Prod.fst)) l.cables⟩ true := by
  refine ⟨_, rfl, ?_⟩
  have hv := validIndex_natCast.mpr hi
  have hbd : isBoundary (i : Int) l.alignment.length = true := by
    simp only [isBoundary, Bool.or_eq_true, decide_eq_true_eq]; omega
  unfold Line.deleteAlignmentPoint
  simp only [Alignment.deletePoint, hv, if_true, hbd, Bool.and_self, Int.toNat_natCast]
  obtain ⟨cs, h1, h2, -⟩ := cleanUp_eq ext (l := { l with alignment := l.alignment.eraseIdx i })
    h.inv.core true hf hl
  rw [h1, h2]
  congr 2
  unfold pruneCables
  have : ∀ c : Connection, (lookup c.ptr (l.structures.filter
      (inBounds first.station last.station))).isSome =
      decide (c.ptr ∈ (structuresWithin first.station last.station l.structures).map Prod.fst) := by
    intro c
    rw [Bool.eq_iff_iff, decide_eq_true_eq, List.mem_map]
    constructor
    · intro hs
      obtain ⟨s, hs⟩ := Option.isSome_iff_exists.mp hs
      exact ⟨_, lookup_mem hs, rfl⟩
    · rintro ⟨e, he, hep⟩
      by_contra hno
      rw [Option.not_isSome_iff_eq_none, lookup_eq_none] at hno
      exact hno e he hep
  simp only [filterCables, this]
  rfl

/-- C82 for `ModifyAlignmentPoint`. -/
theorem C82_bounds_change_modify {l : Line K} (h : Reachable l) (ext : Heap K) (i : Nat)
    (hi : i < l.alignment.length) (hb : i = 0 ∨ i + 1 = l.alignment.length) (p : AlignmentPoint K)
    (hok : (Alignment.modifyPoint l.alignment (i : Int) p).2 ≠ -1) (first last : AlignmentPoint K)
    (hf : (Alignment.modifyPoint l.alignment (i : Int) p).1.head? = some first)
    (hl : (Alignment.modifyPoint l.alignment (i : Int) p).1.getLast? = some last) :
    ∃ ss, ss = structuresWithin first.station last.station l.structures ∧
      l.modifyAlignmentPoint ext (i : Int) p =
        .ok ⟨(Alignment.modifyPoint l.alignment (i : Int) p).1, ss,
          pruneCables (fun c => decide (c.ptr ∈ ss.map Prod.fst)) l.cables⟩
          (Alignment.modifyPoint l.alignment (i : Int) p).2 := by
  refine ⟨_, rfl, ?_⟩
  have hbd : isBoundary (i : Int) l.alignment.length = true := by
    simp only [isBoundary, Bool.or_eq_true, decide_eq_true_eq]; omega
  unfold Line.modifyAlignmentPoint
  simp only [hbd, hok, ne_eq, not_false_eq_true, decide_true, Bool.and_self, if_true]
  obtain ⟨cs, h1, h2, -⟩ := cleanUp_eq ext
    (l := { l with alignment := (Alignment.modifyPoint l.alignment (i : Int) p).1 })
    h.inv.core (Alignment.modifyPoint l.alignment (i : Int) p).2 hf hl
  rw [h1, h2]
  congr 2
  unfold pruneCables
  have : ∀ c : Connection, (lookup c.ptr (l.structures.filter
      (inBounds first.station last.station))).isSome =
      decide (c.ptr ∈ (structuresWithin first.station last.station l.structures).map Prod.fst) := by
    intro c
    rw [Bool.eq_iff_iff, decide_eq_true_eq, List.mem_map]
    constructor
    · intro hs
      obtain ⟨s, hs⟩ := Option.isSome_iff_exists.mp hs
      exact ⟨_, lookup_mem hs, rfl⟩
    · rintro ⟨e, he, hep⟩
      by_contra hno
      rw [Option.not_isSome_iff_eq_none, lookup_eq_none] at hno
      exact hno e he hep
  simp only [filterCables, this]
  rfl

example : exampleLine.deleteAlignmentPoint noExt 2 =
    .ok ⟨[⟨0, 0, 0⟩, ⟨0, 0, 50⟩], [(12, exampleStructure 10), (13, exampleStructure 50)],
      [⟨[⟨12, 0⟩, ⟨13, 1⟩], 7⟩, ⟨[⟨12, 1⟩, ⟨13, 0⟩], 8⟩]⟩ true ∧
    exampleLine.modifyAlignmentPoint noExt 0 ⟨0, 0, 20⟩ =
    .ok ⟨[⟨0, 0, 20⟩, ⟨0, 0, 50⟩, ⟨0, 0, 100⟩], [(13, exampleStructure 50), (11, exampleStructure 90)],
      [⟨[⟨13, 1⟩, ⟨11, 0⟩], 7⟩]⟩ 0 := by decide +kernel

/-- C83: when `ModifyLineStructure` reports success, the structure was replaced in place (same address,
neighbours untouched), the connections to attachments the new structure does not have are gone, nothing
else was disconnected, and exactly the cables left with fewer than two connections are gone. -/
theorem C83_modify_structure {l l' : Line K} (h : Reachable l) (ext : Heap K) (index : Int)
    (s : LineStructure K) (hs : LineStructure.Reachable s)
    (e : l.modifyLineStructure ext index s = .ok l' true) :
    ∃ i : Nat, ∃ hi : i < l.structures.length, ∃ t, index = (i : Int) ∧ s.base = some t ∧
      l' = ⟨l.alignment, l.structures.set i ((l.structures[i]).1, s),
        pruneCables (fun c => !(decide (c.ptr = (l.structures[i]).1) &&
          decide ((t.attachments.length : Int) ≤ c.attachment))) l.cables⟩ := by
  rcases modifyLineStructure_cases ext h.inv index s hs.wf with
    h1 | ⟨i, hi, h0, -, -, ⟨-, h1⟩ | ⟨t, ht, ⟨-, h1⟩ | ⟨-, h1⟩⟩⟩
  · rw [h1] at e; simp at e
  · rw [h1] at e; cases e
  · rw [h1] at e; simp only [Outcome.ok.injEq] at e
    exact ⟨i, hi, t, h0, ht, e.1.symm⟩
  · rw [h1] at e; cases e

/-- C83: `ModifyLineStructure` is rejected exactly when the index is invalid or the new station is not
strictly between the neighbouring structures (first/last alignment station widened by one at the ends). -/
theorem C83_modify_rejected_iff {l : Line K} (h : Reachable l) (ext : Heap K) (index : Int)
    (s : LineStructure K) :
    l.modifyLineStructure ext index s = .ok l false ↔
      ¬ (0 ≤ index ∧ index < l.structures.length) ∨
      (∃ first last, l.alignment.head? = some first ∧ l.alignment.getLast? = some last ∧
        ((s.station ≤ if index = 0 then first.station - 1
            else ((l.structures[index.toNat - 1]?).map fun e => e.2.station).getD 0) ∨
         ((if index + 1 = l.structures.length then last.station + 1
            else ((l.structures[index.toNat + 1]?).map fun e => e.2.station).getD 0) ≤ s.station))) := by
  by_cases hv : validIndex index l.structures.length = true
  swap
  · have hv' := hv
    rw [validIndex_iff] at hv'
    simp only [hv', not_false_eq_true, true_or, iff_true]
    unfold Line.modifyLineStructure; rw [dif_neg hv]
  obtain ⟨hi, hcast⟩ := validIndex_toNat hv
  have hv' := validIndex_iff.mp hv
  obtain ⟨f, b, hf, hb, -, -⟩ := h.inv.range _ (List.getElem_mem hi)
  have hback : l.stationBack f.station index.toNat = if index = 0 then f.station - 1
            else ((l.structures[index.toNat - 1]?).map fun e => e.2.station).getD 0 := by
    unfold stationBack
    by_cases h0 : index = 0
    · subst h0; simp
    · rw [if_pos (by omega), if_neg h0, List.getElem?_eq_getElem (by omega)]
      rfl
  have hahead : l.stationAhead b.station index.toNat =
      if index + 1 = l.structures.length then b.station + 1
            else ((l.structures[index.toNat + 1]?).map fun e => e.2.station).getD 0 := by
    unfold stationAhead
    by_cases h0 : index + 1 = l.structures.length
    · rw [if_neg (by omega), if_pos h0]
    · rw [if_pos (by omega), if_neg h0, List.getElem?_eq_getElem (by omega)]
      rfl
  rw [show (¬ (0 ≤ index ∧ index < l.structures.length)) = False by simp [hv']]
  simp only [false_or]
  unfold Line.modifyLineStructure
  rw [dif_pos hv, hf, hb]
  simp only [hback, hahead, Option.some.injEq, exists_and_left, exists_eq_left']
  constructor
  · intro e
    by_contra hno
    rw [if_neg hno] at e
    split at e
    · cases e
    · unfold finishCables at e
      split at e <;> simp at e
  · intro hc; rw [if_pos hc]

example : exampleLine.modifyLineStructure noExt 0
      ⟨[some ⟨.deadEnd⟩], 0, 0, 0, 20, some (exampleBase 1)⟩ =
    .ok ⟨exampleLine.alignment, [(12, ⟨[some ⟨.deadEnd⟩], 0, 0, 0, 20, some (exampleBase 1)⟩),
      (13, exampleStructure 50), (11, exampleStructure 90)], [⟨[⟨12, 0⟩, ⟨13, 1⟩, ⟨11, 0⟩], 7⟩]⟩ true := by
  decide +kernel

/-! ### C22: copying -/

/-- C22: copying a line to fresh addresses always works and gives the same alignment, the same structures
in the same order at the new addresses, and the same cables in the same order, whose connections have the
same attachments and refer to the copy's structure at the same index as in the original, which is never
one of the original's structures. -/
theorem C22_copy_equivalent {l : Line K} (h : Reachable l) (ext : Heap K) (ptrs : List Ptr)
    (hlen : ptrs.length = l.structures.length) (hnodup : ptrs.Nodup) (hnull : 0 ∉ ptrs)
    (hfresh : ∀ e ∈ l.structures, e.1 ∉ ptrs) :
    ∃ l', l.copy ext ptrs = some l' ∧ l'.alignment = l.alignment ∧
      l'.structures.map Prod.fst = ptrs ∧
      l'.structures.map Prod.snd = l.structures.map Prod.snd ∧
      l'.cables.length = l.cables.length ∧
      ∀ (i : Nat) (hi : i < l.cables.length), ∃ k', l'.cables[i]? = some k' ∧
        k'.rest = (l.cables[i]).rest ∧ k'.connections.length = (l.cables[i]).connections.length ∧
        ∀ (j : Nat) (hj : j < (l.cables[i]).connections.length), ∃ c', k'.connections[j]? = some c' ∧
          c'.attachment = ((l.cables[i]).connections[j]).attachment ∧
          (∃ n : Nat, ((l.structures[n]?).map Prod.fst) = some ((l.cables[i]).connections[j]).ptr ∧
            ((l'.structures[n]?).map Prod.fst) = some c'.ptr) ∧
          ∀ e ∈ l.structures, e.1 ≠ c'.ptr := by
  have hf : FreshPtrs l ptrs := ⟨hlen, hnodup, hnull, hfresh⟩
  refine ⟨copied l ptrs, copy_eq ext h.inv.core hf, rfl, zip_fst hlen, zip_snd hlen,
    by simp [copied], ?_⟩
  intro i hi
  refine ⟨⟨(l.cables[i]).connections.map (renameC l.structures ptrs), (l.cables[i]).rest⟩, ?_, rfl,
    by simp, ?_⟩
  · simp [copied, List.getElem?_eq_getElem hi]
  · intro j hj
    have hown := h.inv.core.owned (List.getElem_mem hi) (List.getElem_mem hj)
    obtain ⟨n, hn, hn', h1, -, h3, -, -⟩ := rename_spec h.inv.core.nodup hf hown
    refine ⟨renameC l.structures ptrs ((l.cables[i]).connections[j]), ?_, rfl, ⟨n, ?_, ?_⟩, ?_⟩
    · simp [List.getElem?_eq_getElem hj]
    · rw [List.getElem?_eq_getElem hn, Option.map_some, h1]
    · have hz : n < (copied l ptrs).structures.length := by simp [copied]; omega
      rw [List.getElem?_eq_getElem hz, Option.map_some]
      simp only [copied, List.getElem_zip, renameC, h3]
    · intro e he
      simp only [renameC, h3]
      intro heq
      exact hfresh e he (heq ▸ List.getElem_mem hn')

example : exampleLine.copy noExt [21, 22, 23] =
    some ⟨exampleLine.alignment,
      [(21, exampleStructure 10), (22, exampleStructure 50), (23, exampleStructure 90)],
      [⟨[⟨21, 0⟩, ⟨22, 1⟩, ⟨23, 0⟩], 7⟩, ⟨[⟨21, 1⟩, ⟨22, 0⟩], 8⟩]⟩ := by decide +kernel

/-! ### C25: definedness -/

/-- C25 is false as stated: deleting the only alignment point, adding a structure to an empty alignment,
and modifying a structure to one without base structure all run into undefined behaviour, and an
attachment index out of range makes `AddLineCable` throw. -/
theorem C25_undefined_calls :
    (∃ l : Line ℚ, Reachable l ∧ l.deleteAlignmentPoint noExt 0 = .ub) ∧
    (∃ l : Line ℚ, Reachable l ∧ l.addLineStructure 1 (exampleStructure 0) = .ub) ∧
    (∃ l : Line ℚ, ∃ s, Reachable l ∧ LineStructure.Reachable s ∧
      l.modifyLineStructure noExt 0 s = .ub) ∧
    (∃ l : Line ℚ, ∃ k, Reachable l ∧ CableArg (l.heap noExt) k ∧ l.addLineCable noExt k = .throws l) := by
  refine ⟨⟨⟨[⟨0, 0, 0⟩], [], []⟩, reachable_exec (ext := noExt) .empty [.addAlignmentPoint ⟨0, 0, 0⟩]
      (by decide +kernel), by decide +kernel⟩,
    ⟨Line.empty, .empty, by decide +kernel⟩,
    ⟨exampleLine, ⟨[], 0, 0, 0, 15, none⟩, exampleLine_reachable,
      LineStructure.reachable_of_wf (by decide +kernel), by decide +kernel⟩,
    ⟨exampleLine, ⟨[⟨12, 5⟩, ⟨13, 0⟩], 0⟩, exampleLine_reachable,
      preB_spec (op := .addLineCable ⟨[⟨12, 5⟩, ⟨13, 0⟩], 0⟩) (by decide +kernel), by decide +kernel⟩⟩

/-- Every connection points to a live structure (own or foreign) with hardware at the attachment. -/
def connectionsUsable (h : Heap K) (cs : List Connection) : Prop :=
  ∀ c ∈ cs, ∃ s hw, h c.ptr = some s ∧ 0 ≤ c.attachment ∧
    s.hardwares[c.attachment.toNat]? = some (some hw)

/-- The conditions under which a call is defined (see `C25_defined_partial`). -/
def Safe (ext : Heap K) (l : Line K) : Op K → Prop
  | .deleteAlignmentPoint i => ¬ (i = 0 ∧ l.alignment.length = 1)
  | .addLineStructure _ _ => l.alignment ≠ []
  | .modifyLineStructure i s =>
      l.modifyLineStructure ext i s = .ok l false ∨
      ∃ t, s.base = some t ∧
        ∀ k ∈ pruneCables (fun c => !(decide (some c.ptr = (l.structures[i.toNat]?).map Prod.fst) &&
          decide ((t.attachments.length : Int) ≤ c.attachment))) l.cables,
        ∀ c ∈ k.connections, some c.ptr = (l.structures[i.toNat]?).map Prod.fst →
          ∃ hw, s.hardwares[c.attachment.toNat]? = some (some hw)
  | .addLineCable k => k.connections.length < 2 ∨ connectionsUsable (l.heap ext) k.connections
  | .modifyLineCable i k => ¬ (0 ≤ i ∧ i < l.cables.length) ∨ k.connections.length < 2 ∨
      connectionsUsable (l.heap ext) k.connections
  | _ => True

theorem connectionsUsable_iff {h : Heap K} {cs : List Connection} :
    connectionsUsable h cs ↔ LineCable.Usable h cs := by
  unfold connectionsUsable LineCable.Usable
  refine forall_congr' fun c => imp_congr_right fun _ => ?_
  constructor
  · rintro ⟨s, ⟨t⟩, h1, h2, h3⟩
    exact ⟨t, LineCable.checkConnection_val_iff.mpr ⟨s, h1, h2, h3⟩⟩
  · rintro ⟨t, ht⟩
    obtain ⟨s, h1, h2, h3⟩ := LineCable.checkConnection_val_iff.mp ht
    exact ⟨s, ⟨t⟩, h1, h2, h3⟩

theorem validate_ok_iff {h : Heap K} {cs : List Connection} :
    (∃ b, LineCable.validateConnections h cs = .val b) ↔
      cs.length < 2 ∨ LineCable.Usable h cs := by
  constructor
  · rintro ⟨b, hb⟩
    cases b with
    | true => right; exact (LineCable.validateConnections_true_iff.mp hb).2
    | false => left; exact LineCable.validateConnections_false_iff.mp hb
  · rintro (hl | hu)
    · exact ⟨false, LineCable.validateConnections_false_iff.mpr hl⟩
    · by_cases hl : cs.length < 2
      · exact ⟨false, LineCable.validateConnections_false_iff.mpr hl⟩
      · exact ⟨true, LineCable.validateConnections_true_iff.mpr ⟨by omega, hu⟩⟩

theorem addLineCable_ok_iff (ext : Heap K) {l : Line K} (h : Core l.structures l.cables)
    (k : LineCable) : (∃ l' r, l.addLineCable ext k = .ok l' r) ↔
      k.connections.length < 2 ∨ LineCable.Usable (l.heap ext) k.connections := by
  rw [← validate_ok_iff]
  constructor
  · rintro ⟨l', r, e⟩
    unfold Line.addLineCable at e
    split at e
    · cases e
    · cases e
    · exact ⟨_, by assumption⟩
    · exact ⟨_, by assumption⟩
  · rintro ⟨b, hb⟩
    rcases addLineCable_cases ext h k with ⟨h1, -⟩ | ⟨h1, -⟩ | ⟨h1, -⟩ | ⟨-, i, -, h1⟩
    · exact ⟨_, _, h1⟩
    · exfalso
      obtain ⟨o, ho, -⟩ := checkOpen_eq l k.connections
      unfold Line.addLineCable at h1
      rw [hb] at h1
      cases b <;> simp only [ho, reduceCtorEq] at h1
      cases o <;> simp only [reduceCtorEq] at h1
      cases hh : k.connections.head? with
      | none => rw [hh] at h1; simp at h1
      | some c =>
        obtain ⟨i, hi, -⟩ := cablePos_eq l (l.indexLineStructure c.ptr) c.attachment l.cables (by
            intro k' hk' hnil
            have := (h.cablesOk k' hk').1
            rw [hnil] at this; simp at this)
        rw [hh] at h1
        simp [hi] at h1
    · exfalso
      obtain ⟨o, ho, -⟩ := checkOpen_eq l k.connections
      unfold Line.addLineCable at h1
      rw [hb] at h1
      cases b <;> simp only [ho, reduceCtorEq] at h1
      have hlen := (LineCable.validateConnections_true_iff.mp hb).1
      cases o <;> simp only [reduceCtorEq] at h1
      cases hh : k.connections.head? with
      | none =>
        have : k.connections = [] := by simpa using hh
        rw [this] at hlen; simp at hlen
      | some c =>
        obtain ⟨i, hi, -⟩ := cablePos_eq l (l.indexLineStructure c.ptr) c.attachment l.cables (by
            intro k' hk' hnil
            have := (h.cablesOk k' hk').1
            rw [hnil] at this; simp at this)
        rw [hh] at h1
        simp [hi] at h1
    · exact ⟨_, _, h1⟩

/-- C25, what holds: a call with well-formed arguments returns normally (no undefined behaviour, no
exception) exactly under the condition `Safe`.  In particular `AddAlignmentPoint`,
`ModifyAlignmentPoint`, `DeleteLineStructure` and `DeleteLineCable` always do.  Missing from the full
statement: the calls excluded by `Safe`, which are undefined or throw. -/
theorem C25_defined_partial {l : Line K} (h : Reachable l) (ext : Heap K) (op : Op K)
    (pre : op.Pre ext l) : (∃ l' r, op.apply ext l = .ok l' r) ↔ Safe ext l op := by
  have hwrap : ∀ {A : Type} {f : A → Ret} {o : Outcome (Line K) A},
      (∃ l' r, wrap f o = .ok l' r) ↔ ∃ l' a, o = .ok l' a := by
    intro A f o
    cases o <;> simp [wrap]
  cases op with
  | addAlignmentPoint p =>
    simp only [Op.apply, hwrap, Safe, iff_true]
    exact ⟨_, _, rfl⟩
  | deleteAlignmentPoint index =>
    simp only [Op.apply, hwrap, Safe]
    unfold Line.deleteAlignmentPoint
    by_cases hv : validIndex index l.alignment.length = true
    · have hv' := validIndex_iff.mp hv
      simp only [Alignment.deletePoint, hv, if_true, Bool.true_and]
      cases hpts : l.alignment.eraseIdx index.toNat with
      | nil =>
        have hlen : l.alignment.length = 1 := by
          have := congrArg List.length hpts
          rw [List.length_eraseIdx_of_lt (by omega)] at this
          simp at this; omega
        have hidx : index = 0 := by omega
        subst hidx
        simp [isBoundary, hlen, cleanUp, deleteInvalidLineStructures]
      | cons a as =>
        have hlen : ¬ (index = 0 ∧ l.alignment.length = 1) := by
          rintro ⟨-, h1⟩
          have := congrArg List.length hpts
          rw [List.length_eraseIdx_of_lt (by omega), h1] at this
          simp at this
        simp only [hlen, not_false_eq_true, iff_true]
        split
        · obtain ⟨f, b, hf, hb⟩ := exists_head_last (List.mem_cons_self (a := a) (l := as))
          obtain ⟨cs, h1, -, -⟩ := cleanUp_eq ext (l := { l with alignment := a :: as })
            h.inv.core true hf hb
          exact ⟨_, _, h1⟩
        · exact ⟨_, _, rfl⟩
    · have : ¬ (index = 0 ∧ l.alignment.length = 1) := by
        rintro ⟨rfl, h1⟩
        apply hv; rw [validIndex_iff, h1]; simp
      simp [Alignment.deletePoint, hv, this]
  | modifyAlignmentPoint index p =>
    simp only [Op.apply, hwrap, Safe, iff_true]
    unfold Line.modifyAlignmentPoint
    simp only
    split
    · rename_i hc
      simp only [Bool.and_eq_true, decide_eq_true_eq] at hc
      have hv : validIndex index l.alignment.length = true := by
        by_contra hv
        rw [Alignment.modifyPoint_of_not_valid p hv] at hc
        exact hc.1 rfl
      have hm := Alignment.modifyPoint_of_valid p hv h.inv.align
      have hne : (Alignment.modifyPoint l.alignment index p).1 ≠ [] := by
        intro hnil
        by_cases hcc : (Alignment.addPoint (l.alignment.eraseIdx index.toNat) p).2 = -1
        · rw [if_pos hcc] at hm; exact hc.1 (by rw [hm])
        · rw [if_neg hcc] at hm
          obtain ⟨i, -, hle, -, hl⟩ := Alignment.addPoint_success p hcc
          rw [hm, hl] at hnil
          have := congrArg List.length hnil
          rw [List.length_insertIdx_of_le_length hle] at this
          simp at this
      obtain ⟨a, ha⟩ := List.exists_mem_of_ne_nil _ hne
      obtain ⟨f, b, hf, hb⟩ := exists_head_last ha
      obtain ⟨cs, h1, -, -⟩ := cleanUp_eq ext
        (l := { l with alignment := (Alignment.modifyPoint l.alignment index p).1 }) h.inv.core
        (Alignment.modifyPoint l.alignment index p).2 hf hb
      exact ⟨_, _, h1⟩
    · exact ⟨_, _, rfl⟩
  | addLineStructure p s =>
    simp only [Op.apply, hwrap, Safe]
    rcases addLineStructure_cases l p s with ⟨h0, h1⟩ | ⟨h0, h1⟩ | ⟨i, -, hcov, -, h1⟩
    · rw [h1]; simp [h0]
    · rw [h1]; simp [h0]
    · rw [h1]
      obtain ⟨f, b, hf, -⟩ := hcov
      have : l.alignment ≠ [] := by rintro h; rw [h] at hf; simp at hf
      simp [this]
  | deleteLineStructure index =>
    simp only [Op.apply, hwrap, Safe, iff_true]
    by_cases hv : validIndex index l.structures.length = true
    · obtain ⟨hlt, hcast⟩ := validIndex_toNat hv
      obtain ⟨h1, -⟩ := deleteLineStructure_eq ext h.inv.core hlt
      rw [← hcast]; exact ⟨_, _, h1⟩
    · unfold Line.deleteLineStructure; rw [dif_neg hv]; exact ⟨_, _, rfl⟩
  | modifyLineStructure index s =>
    simp only [Op.apply, hwrap, Safe]
    have hw := LineStructure.Reachable.wf pre
    rcases modifyLineStructure_cases ext h.inv index s hw with
      h1 | ⟨i, hi, h0, hss, -, ⟨hbase, h1⟩ | ⟨t, ht, h1⟩⟩
    · rw [h1]; simp
    · rw [h1]; simp [hbase]
    · subst h0
      have hget : (l.structures[(i : Int).toNat]?).map Prod.fst = some (l.structures[i]).1 := by
        rw [Int.toNat_natCast, List.getElem?_eq_getElem hi]; rfl
      have hn' : PtrNodup (l.structures.set i ((l.structures[i]).1, s)) := by
        show (List.map Prod.fst _).Nodup
        rw [map_fst_set hi s]; exact h.inv.core.nodup
      have hself : lookup (l.structures[i]).1 (l.structures.set i ((l.structures[i]).1, s)) = some s := by
        apply lookup_of_mem hn'
        have hi' : i < (l.structures.set i ((l.structures[i]).1, s)).length := by
          rw [List.length_set]; exact hi
        have : (l.structures.set i ((l.structures[i]).1, s))[i] = ((l.structures[i]).1, s) :=
          List.getElem_set_self _
        exact List.mem_of_getElem this
      have hother : ∀ p, p ≠ (l.structures[i]).1 →
          (lookup p l.structures).isSome →
          lookup p (l.structures.set i ((l.structures[i]).1, s)) = lookup p l.structures := by
        intro p hp hsome
        obtain ⟨u, hu⟩ := Option.isSome_iff_exists.mp hsome
        rw [hu]
        obtain ⟨j, hj, ej⟩ := List.getElem_of_mem (lookup_mem hu)
        have hne : i ≠ j := by
          rintro rfl
          rw [ej] at hp; exact hp rfl
        apply lookup_of_mem hn'
        have hj' : j < (l.structures.set i ((l.structures[i]).1, s)).length := by
          rw [List.length_set]; exact hj
        have : (l.structures.set i ((l.structures[i]).1, s))[j] = (p, u) := by
          rw [← ej]; exact List.getElem_set_ne hne _
        rw [← this]; exact List.getElem_mem hj'
      simp only [hget, Option.some.injEq]
      simp only at h1
      set q : Connection → Bool := fun c => !(decide (c.ptr = (l.structures[i]).1) &&
        decide ((t.attachments.length : Int) ≤ c.attachment)) with hq
      have hprune : pruneCables q l.cables = (filterCables q l.cables).filter enough := rfl
      have key : (∀ k ∈ filterCables q l.cables, 2 ≤ k.connections.length →
            LineCable.Usable (fun p => lookup p (l.structures.set i ((l.structures[i]).1, s)))
              k.connections) ↔
          ∀ k ∈ pruneCables q l.cables, ∀ c ∈ k.connections, c.ptr = (l.structures[i]).1 →
            ∃ hw, s.hardwares[c.attachment.toNat]? = some (some hw) := by
        rw [hprune]
        constructor
        · intro hall k hk c hc hp
          obtain ⟨hk1, hk2⟩ := List.mem_filter.mp hk
          obtain ⟨ty, hty⟩ := hall k hk1 (by simpa [enough] using hk2) c hc
          obtain ⟨s', hs', -, hhw⟩ := LineCable.checkConnection_val_iff.mp hty
          simp only [hp, hself, Option.some.injEq] at hs'
          subst hs'
          exact ⟨_, hhw⟩
        · intro hall k hk hl c hc
          obtain ⟨k0, hk0, rfl⟩ := mem_filterCables.mp hk
          have hc0 := (List.mem_filter.mp hc).1
          obtain ⟨ty, hty⟩ := (h.inv.core.cablesOk k0 hk0).2.2 c hc0
          obtain ⟨u, hu, hpos, hhw⟩ := LineCable.checkConnection_val_iff.mp hty
          by_cases hp : c.ptr = (l.structures[i]).1
          · obtain ⟨⟨t'⟩, hhw'⟩ := hall _ (List.mem_filter.mpr ⟨hk, by simpa [enough] using hl⟩) c hc hp
            refine ⟨t', LineCable.checkConnection_val_iff.mpr ⟨s, ?_, hpos, hhw'⟩⟩
            simp only [hp, hself]
          · refine ⟨ty, LineCable.checkConnection_val_iff.mpr ⟨u, ?_, hpos, hhw⟩⟩
            exact (hother _ hp (h.inv.core.owned hk0 hc0)).trans hu
      rcases h1 with ⟨hall, h1⟩ | ⟨hall, h1⟩
      · rw [h1]
        constructor
        · intro _; right; exact ⟨t, ht, key.mp hall⟩
        · intro _; exact ⟨_, _, rfl⟩
      · rw [h1]
        constructor
        · rintro ⟨_, _, e⟩; cases e
        · rintro (e | ⟨t', ht', e⟩)
          · cases e
          · exfalso
            rw [ht] at ht'; cases ht'
            exact hall (key.mpr e)
  | addLineCable k =>
    simp only [Op.apply, hwrap, Safe, connectionsUsable_iff]
    exact addLineCable_ok_iff ext h.inv.core k
  | deleteLineCable i =>
    simp only [Op.apply, Safe, iff_true]
    exact ⟨_, _, rfl⟩
  | modifyLineCable index k =>
    simp only [Op.apply, hwrap, Safe, connectionsUsable_iff]
    by_cases hv : validIndex index l.cables.length = true
    swap
    · have hv' := hv
      rw [validIndex_iff] at hv'
      unfold Line.modifyLineCable; rw [dif_neg hv]
      simp [hv']
    have hv' := validIndex_iff.mp hv
    obtain ⟨hi, hcast⟩ := validIndex_toNat hv
    rw [show (¬ (0 ≤ index ∧ index < l.cables.length)) = False by simp [hv'], false_or]
    have hc1 := eraseCable_core h.inv.core index.toNat
    have hadd := addLineCable_ok_iff ext (l := { l with cables := l.cables.eraseIdx index.toNat }) hc1 k
    rw [show LineCable.Usable (l.heap ext) k.connections =
      LineCable.Usable (Line.heap { l with cables := l.cables.eraseIdx index.toNat } ext)
        k.connections from rfl, ← hadd]
    unfold Line.modifyLineCable
    rw [dif_pos hv]
    have hdel : l.deleteLineCable index =
        ({ l with cables := l.cables.eraseIdx index.toNat }, true) := by
      unfold Line.deleteLineCable; rw [if_pos hv]
    simp only [hdel, Bool.true_eq_false, if_false]
    constructor
    · rintro ⟨l', r, e⟩
      split at e
      · rename_i l2 n heq; exact ⟨l2, n, heq⟩
      · cases e
      · cases e
    · rintro ⟨l2, n, heq⟩
      rw [heq]
      simp only
      split
      · rename_i hn
        subst hn
        rcases addLineCable_cases ext (l := { l with cables := l.cables.eraseIdx index.toNat }) hc1 k with
          ⟨h1, -⟩ | ⟨h1, -⟩ | ⟨h1, -⟩ | ⟨-, j, hj, h1⟩
        · rw [h1] at heq; simp only [Outcome.ok.injEq] at heq
          obtain ⟨rfl, -⟩ := heq
          rcases addLineCable_cases ext (l := { l with cables := l.cables.eraseIdx index.toNat }) hc1
            l.cables[index.toNat] with ⟨-, hn⟩ | ⟨-, hn⟩ | ⟨-, hn⟩ | ⟨-, j, hj, h2⟩
          · exact absurd (readd_accepts ext h.inv.core hi).1 hn
          · exact absurd (readd_accepts ext h.inv.core hi).1 hn
          · exact absurd (readd_accepts ext h.inv.core hi).1 hn
          · rw [h2]; exact ⟨_, _, rfl⟩
        · rw [h1] at heq; cases heq
        · rw [h1] at heq; cases heq
        · rw [h1] at heq; simp only [Outcome.ok.injEq] at heq; omega
      · exact ⟨_, _, rfl⟩

example : Safe noExt exampleLine (.deleteAlignmentPoint 0) ∧
    Safe noExt exampleLine (.addLineStructure 9 (exampleStructure 33)) :=
  ⟨by simp [Safe, exampleLine], by simp [Safe, exampleLine]⟩

end Verif.Props
