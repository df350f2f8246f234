import Mathlib.Data.List.Perm.Lattice
import Mathlib.Data.List.Basic
import Mathlib.Tactic.Linarith
import Verif.LineCableLemmas
import Verif.TransmissionLine

/-! Helper lemmas for the line model: the invariant and its preservation.
Property theorems are in `Verif/Props/TransmissionLine.lean`. -/

set_option linter.unusedSectionVars false

namespace Verif

namespace LineCable
variable {K : Type} [LinearOrder K]

theorem checkConnection_congr {h h' : Heap K} {c : Connection} (e : h c.ptr = h' c.ptr) :
    checkConnection h c = checkConnection h' c := by
  unfold checkConnection; rw [e]

theorem Before.congr {h h' : Heap K} {c d : Connection} (ec : h c.ptr = h' c.ptr)
    (ed : h d.ptr = h' d.ptr) (hb : Before h c d) : Before h' c d := by
  obtain ⟨s, t, hs, ht, hlt⟩ := hb
  exact ⟨s, t, ec ▸ hs, ed ▸ ht, hlt⟩

theorem Sorted.congr {h h' : Heap K} {cs : List Connection} (e : ∀ c ∈ cs, h c.ptr = h' c.ptr)
    (hs : Sorted h cs) : Sorted h' cs :=
  hs.imp_of_mem (fun ha hb hab => hab.congr (e _ ha) (e _ hb))

theorem Sorted.ptr_nodup {h : Heap K} {cs : List Connection} (hs : Sorted h cs) :
    (cs.map Connection.ptr).Nodup := by
  rw [List.Nodup, List.pairwise_map]
  refine hs.imp ?_
  rintro c d ⟨s, t, h1, h2, hlt⟩ he
  rw [he, h2] at h1; cases h1
  exact lt_irrefl _ hlt

theorem Sorted.nodup {h : Heap K} {cs : List Connection} (hs : Sorted h cs) : cs.Nodup :=
  List.Nodup.of_map _ hs.ptr_nodup

/-- A cable whose connections are all usable. -/
def Usable (h : Heap K) (cs : List Connection) : Prop :=
  ∀ c ∈ cs, ∃ t, checkConnection h c = .val t

/-- Invariant of a stored cable. -/
def Ok (h : Heap K) (k : LineCable) : Prop :=
  2 ≤ k.connections.length ∧ Sorted h k.connections ∧ Usable h k.connections

theorem Usable.live {h : Heap K} {cs : List Connection} (hu : Usable h cs) :
    ∀ c ∈ cs, (h c.ptr).isSome := by
  intro c hc
  obtain ⟨t, ht⟩ := hu c hc
  obtain ⟨s, hs, -⟩ := checkConnection_val_iff.mp ht
  simp [hs]

theorem Usable.congr {h h' : Heap K} {cs : List Connection} (e : ∀ c ∈ cs, h c.ptr = h' c.ptr)
    (hu : Usable h cs) : Usable h' cs := by
  intro c hc
  obtain ⟨t, ht⟩ := hu c hc
  exact ⟨t, by rw [← checkConnection_congr (e c hc)]; exact ht⟩

theorem Ok.congr {h h' : Heap K} {k : LineCable} (e : ∀ c ∈ k.connections, h c.ptr = h' c.ptr)
    (hk : Ok h k) : Ok h' k := ⟨hk.1, hk.2.1.congr e, hk.2.2.congr e⟩

end LineCable

namespace Line
open LineCable

variable {K : Type} [Field K] [LinearOrder K] [IsStrictOrderedRing K]

/-! ### Node lists -/

abbrev Nodes (K : Type) := List (Ptr × LineStructure K)

abbrev PtrNodup (ss : Nodes K) : Prop := (ss.map Prod.fst).Nodup

abbrev SSorted (ss : Nodes K) : Prop := ss.Pairwise (fun a b => a.2.station < b.2.station)

theorem lookup_mem {p : Ptr} {s : LineStructure K} {ss : Nodes K} (h : lookup p ss = some s) :
    (p, s) ∈ ss := by
  induction ss with
  | nil => simp [lookup] at h
  | cons e ss ih =>
    obtain ⟨q, t⟩ := e
    simp only [lookup] at h
    split at h
    · rename_i hpq; simp only [Option.some.injEq] at h; subst hpq; subst h; simp
    · exact List.mem_cons_of_mem _ (ih h)

theorem lookup_of_mem {p : Ptr} {s : LineStructure K} {ss : Nodes K} (hn : PtrNodup ss)
    (h : (p, s) ∈ ss) : lookup p ss = some s := by
  induction ss with
  | nil => simp at h
  | cons e ss ih =>
    obtain ⟨q, t⟩ := e
    have hn : (q :: ss.map Prod.fst).Nodup := hn
    rw [List.nodup_cons] at hn
    simp only [lookup]
    rcases List.mem_cons.mp h with h' | h'
    · cases h'; simp
    · have hne : p ≠ q := by
        rintro rfl
        exact hn.1 (List.mem_map.mpr ⟨(p, s), h', rfl⟩)
      rw [if_neg hne]; exact ih hn.2 h'

theorem lookup_eq_none {p : Ptr} {ss : Nodes K} : lookup p ss = none ↔ ∀ e ∈ ss, e.1 ≠ p := by
  induction ss with
  | nil => simp [lookup]
  | cons e ss ih =>
    obtain ⟨q, t⟩ := e
    simp only [lookup]
    split
    · rename_i h; simp [h]
    · rename_i h; simp [ih, Ne.symm h]

theorem lookup_mono {p : Ptr} {s : LineStructure K} {ss ss' : Nodes K} (hn : PtrNodup ss')
    (hsub : ∀ e ∈ ss, e ∈ ss') (h : lookup p ss = some s) : lookup p ss' = some s :=
  lookup_of_mem hn (hsub _ (lookup_mem h))

theorem lookup_getElem {ss : Nodes K} (hn : PtrNodup ss) {i : Nat} (hi : i < ss.length) :
    lookup (ss[i]).1 ss = some (ss[i]).2 := lookup_of_mem hn (List.getElem_mem hi)

theorem indexLoop_eq_some {p : Ptr} {ss : Nodes K} {i : Nat} (h : indexLoop p ss = some i) :
    ∃ hi : i < ss.length, (ss[i]).1 = p := by
  induction ss generalizing i with
  | nil => simp [indexLoop] at h
  | cons e ss ih =>
    obtain ⟨q, t⟩ := e
    simp only [indexLoop] at h
    split at h
    · rename_i hpq; simp at h; subst h; exact ⟨by simp, by simp [hpq]⟩
    · simp only [Option.map_eq_some_iff] at h
      obtain ⟨j, hj, rfl⟩ := h
      obtain ⟨h1, h2⟩ := ih hj
      exact ⟨by simp; omega, by simpa using h2⟩

theorem indexLoop_eq_none {p : Ptr} {ss : Nodes K} : indexLoop p ss = none ↔ lookup p ss = none := by
  induction ss with
  | nil => simp [indexLoop, lookup]
  | cons e ss ih =>
    obtain ⟨q, t⟩ := e
    simp only [indexLoop, lookup]
    split
    · simp
    · simp [ih]

theorem indexLoop_getElem {ss : Nodes K} (hn : PtrNodup ss) {i : Nat} (hi : i < ss.length) :
    indexLoop (ss[i]).1 ss = some i := by
  cases h : indexLoop (ss[i]).1 ss with
  | none =>
    rw [indexLoop_eq_none, lookup_getElem hn hi] at h; simp at h
  | some j =>
    obtain ⟨hj, he⟩ := indexLoop_eq_some h
    congr 1
    have := (List.nodup_iff_injective_getElem.mp hn)
      (a₁ := ⟨j, by simpa using hj⟩) (a₂ := ⟨i, by simpa using hi⟩) (by simpa using he)
    simpa using this

theorem indexLineStructure_cases (l : Line K) (p : Ptr) :
    (l.indexLineStructure p = -1 ∧ lookup p l.structures = none) ∨
    (∃ i : Nat, ∃ hi : i < l.structures.length, l.indexLineStructure p = (i : Int) ∧
      (l.structures[i]).1 = p) := by
  unfold indexLineStructure
  cases h : indexLoop p l.structures with
  | none => left; exact ⟨rfl, indexLoop_eq_none.mp h⟩
  | some i =>
    obtain ⟨hi, he⟩ := indexLoop_eq_some h
    right; exact ⟨i, hi, rfl, he⟩

/-- The line's own nodes as a heap. -/
def own (l : Line K) : Heap K := fun p => lookup p l.structures

theorem heap_of_own {l : Line K} {ext : Heap K} {p : Ptr} {s} (h : l.own p = some s) :
    l.heap ext p = some s := by
  unfold own at h; simp [heap, h]

theorem heap_eq_own {l : Line K} {ext : Heap K} {p : Ptr} (h : (l.own p).isSome) :
    l.heap ext p = l.own p := by
  obtain ⟨s, hs⟩ := Option.isSome_iff_exists.mp h
  rw [hs, heap_of_own hs]

/-- The order of stations is the order of positions. -/
theorem before_iff_index {ss : Nodes K} (hs : SSorted ss) (hn : PtrNodup ss) {c d : Connection} :
    Before (fun p => lookup p ss) c d ↔
      ∃ i j : Nat, i < j ∧ (ss.map Prod.fst)[i]? = some c.ptr ∧ (ss.map Prod.fst)[j]? = some d.ptr := by
  constructor
  · rintro ⟨s, t, h1, h2, hlt⟩
    obtain ⟨i, hi, ei⟩ := List.getElem_of_mem (lookup_mem h1)
    obtain ⟨j, hj, ej⟩ := List.getElem_of_mem (lookup_mem h2)
    refine ⟨i, j, ?_, by simp [hi, ei], by simp [hj, ej]⟩
    rcases Nat.lt_trichotomy i j with h | h | h
    · exact h
    · subst h
      have : s = t := congrArg Prod.snd (ei.symm.trans ej)
      rw [this] at hlt; exact absurd hlt (lt_irrefl _)
    · have := List.pairwise_iff_getElem.mp hs j i hj hi h
      rw [ei, ej] at this
      exact absurd hlt (lt_asymm this)
  · rintro ⟨i, j, hij, hi, hj⟩
    simp only [List.getElem?_map, Option.map_eq_some_iff] at hi hj
    obtain ⟨⟨p, s⟩, hi, rfl⟩ := hi
    obtain ⟨⟨q, t⟩, hj, rfl⟩ := hj
    obtain ⟨hi', ei⟩ := List.getElem?_eq_some_iff.mp hi
    obtain ⟨hj', ej⟩ := List.getElem?_eq_some_iff.mp hj
    refine ⟨s, t, lookup_of_mem hn (by rw [← ei]; exact List.getElem_mem hi'),
      lookup_of_mem hn (by rw [← ej]; exact List.getElem_mem hj'), ?_⟩
    have := List.pairwise_iff_getElem.mp hs i j hi' hj' hij
    rw [ei, ej] at this
    exact this

/-! ### The loops -/

theorem take_succ_getElem {α : Type} {l : List α} {i : Nat} (h : i < l.length) :
    l.take (i + 1) = l.take i ++ [l[i]] := by
  rw [List.take_add_one, List.getElem?_eq_getElem h]; rfl

theorem eraseLoop_eq (bad : Connection → Bool) (cs : List Connection) (i : Nat) :
    eraseLoop bad cs i = cs.take i ++ (cs.drop i).filter (fun c => !bad c) := by
  induction hn : cs.length - i using Nat.strong_induction_on generalizing cs i with
  | _ n ih =>
    unfold eraseLoop
    split
    · rename_i h
      split
      · rename_i hb
        have hd : (deleteConnection cs (i : Int)).1 = cs.eraseIdx i := by
          simp [deleteConnection, validIndex_natCast.mpr h]
        rw [hd, ih (cs.length - 1 - i) (by omega) (cs.eraseIdx i) i
          (by rw [List.length_eraseIdx_of_lt h]), eraseIdx_eq_take_drop]
        have hlen : (cs.take i).length = i := by simp; omega
        rw [List.take_left' hlen, List.drop_left' hlen]
        rw [List.drop_eq_getElem_cons h, List.filter_cons]
        simp [hb]
      · rename_i hb
        rw [ih (cs.length - (i + 1)) (by omega) cs (i + 1) rfl]
        rw [List.drop_eq_getElem_cons h, List.filter_cons, take_succ_getElem h]
        simp only [hb, Bool.not_false, if_true, List.append_assoc]
        rfl
    · rename_i h
      rw [List.take_of_length_le (by omega), List.drop_eq_nil_of_le (by omega)]
      simp

theorem eraseLoop_zero (bad : Connection → Bool) (cs : List Connection) :
    eraseLoop bad cs 0 = cs.filter (fun c => !bad c) := by
  rw [eraseLoop_eq]; simp

/-- Keep the connections of every cable that satisfy `q`. -/
def filterCables (q : Connection → Bool) (cables : List LineCable) : List LineCable :=
  cables.map fun k => LineCable.mk (k.connections.filter q) k.rest

theorem deleteConnectionsFromStructure_eq (cables : List LineCable) (p : Ptr) :
    deleteConnectionsFromStructure cables p = filterCables (fun c => decide (c.ptr ≠ p)) cables := by
  unfold deleteConnectionsFromStructure filterCables
  congr 1; funext k
  rw [eraseLoop_zero]
  congr 2; funext c; simp

theorem deleteInvalidConnections_eq (cables : List LineCable) (p : Ptr) (n : Nat) :
    deleteInvalidConnections cables p n =
      filterCables (fun c => !(decide (c.ptr = p) && decide ((n : Int) ≤ c.attachment))) cables := by
  unfold deleteInvalidConnections filterCables
  congr 1; funext k
  rw [eraseLoop_zero]

theorem filterCables_filterCables (q r : Connection → Bool) (cables : List LineCable) :
    filterCables q (filterCables r cables) = filterCables (fun c => q c && r c) cables := by
  unfold filterCables
  rw [List.map_map]
  congr 1; funext k
  simp [List.filter_filter]

theorem filterCables_true (cables : List LineCable) : filterCables (fun _ => true) cables = cables := by
  unfold filterCables
  conv_rhs => rw [← List.map_id cables]
  congr 1; funext k; simp

theorem filterCables_congr {q r : Connection → Bool} {cables : List LineCable}
    (h : ∀ k ∈ cables, ∀ c ∈ k.connections, q c = r c) :
    filterCables q cables = filterCables r cables := by
  unfold filterCables
  apply List.map_congr_left
  intro k hk
  rw [List.filter_congr (fun c hc => h k hk c hc)]

/-- Cables with at least two connections. -/
def enough (k : LineCable) : Bool := decide (2 ≤ k.connections.length)

theorem deleteInvalidLineCables_ok {h : Heap K} {done ks : List LineCable}
    (hu : ∀ k ∈ ks, 2 ≤ k.connections.length → Usable h k.connections) :
    deleteInvalidLineCables h done ks = .ok (done ++ ks.filter enough) () := by
  induction ks generalizing done with
  | nil => simp [deleteInvalidLineCables]
  | cons k ks ih =>
    have ih' := fun done => ih (done := done) (fun k' hk' => hu k' (by simp [hk']))
    simp only [deleteInvalidLineCables]
    by_cases hl : 2 ≤ k.connections.length
    · rw [validateConnections_true_iff.mpr ⟨hl, hu k (by simp) hl⟩]
      simp only [ih', List.filter_cons, enough, hl]
      simp
    · rw [validateConnections_false_iff.mpr (by omega)]
      simp only [ih', List.filter_cons, enough, hl]
      simp

/-- If the loop returns at all, all surviving cables have been checked. -/
theorem deleteInvalidLineCables_of_ok {h : Heap K} {done ks cs : List LineCable}
    (e : deleteInvalidLineCables h done ks = .ok cs ()) :
    cs = done ++ ks.filter enough ∧
      ∀ k ∈ ks, 2 ≤ k.connections.length → Usable h k.connections := by
  have key : ∀ k ∈ ks, 2 ≤ k.connections.length → Usable h k.connections := by
    induction ks generalizing done with
    | nil => simp
    | cons k ks ih =>
      simp only [deleteInvalidLineCables] at e
      split at e
      · rename_i hv
        have := validateConnections_false_iff.mp hv
        intro k' hk' hl
        rcases List.mem_cons.mp hk' with rfl | hk'
        · omega
        · exact ih e k' hk' hl
      · rename_i hv
        have := validateConnections_true_iff.mp hv
        intro k' hk' hl
        rcases List.mem_cons.mp hk' with rfl | hk'
        · exact this.2
        · exact ih e k' hk' hl
      · simp at e
      · simp at e
  rw [deleteInvalidLineCables_ok key] at e
  simp only [Outcome.ok.injEq, and_true] at e
  exact ⟨e.symm, key⟩

/-- If no attachment index is out of range, the loop cannot throw. -/
theorem deleteInvalidLineCables_not_throws {h : Heap K} {done ks cs : List LineCable}
    (hu : ∀ k ∈ ks, ∀ c ∈ k.connections, checkConnection h c ≠ .throws) :
    deleteInvalidLineCables h done ks ≠ .throws cs := by
  induction ks generalizing done with
  | nil => simp [deleteInvalidLineCables]
  | cons k ks ih =>
    have ih' := fun done => ih (done := done) (fun k' hk' => hu k' (by simp [hk']))
    simp only [deleteInvalidLineCables]
    split
    · exact ih' _
    · exact ih' _
    · rename_i hv
      exfalso
      unfold validateConnections at hv
      split at hv
      · simp at hv
      · have : ∀ ds : List Connection, (∀ c ∈ ds, checkConnection h c ≠ .throws) →
            checkConnections h ds ≠ .throws := by
          intro ds
          induction ds with
          | nil => simp [checkConnections]
          | cons d ds ih2 =>
            intro hd
            simp only [checkConnections]
            split
            · exact ih2 (fun c hc => hd c (by simp [hc]))
            · rename_i h3; exact absurd h3 (hd d (by simp))
            · simp
        have h2 := this k.connections (hu k (by simp))
        split at hv <;> simp_all
    · simp

/-- Station inside closed bounds. -/
def inBounds (lo hi : K) (e : Ptr × LineStructure K) : Bool :=
  decide (lo ≤ e.2.station) && decide (e.2.station ≤ hi)

theorem invalidStructuresLoop_eq (lo hi : K) (ss : Nodes K) (cables : List LineCable) (i : Nat) :
    invalidStructuresLoop lo hi ss cables i =
      (ss.take i ++ (ss.drop i).filter (inBounds lo hi),
       filterCables (fun c => decide (c.ptr ∉ ((ss.drop i).filter (fun e => !inBounds lo hi e)).map
         Prod.fst)) cables) := by
  induction hn : ss.length - i using Nat.strong_induction_on generalizing ss cables i with
  | _ n ih =>
    unfold invalidStructuresLoop
    split
    · rename_i h
      split
      · rename_i hb
        have hout : inBounds lo hi ss[i] = false := by
          unfold inBounds
          rcases hb with hb | hb
          · simp [not_le.mpr hb]
          · simp [not_le.mpr hb]
        rw [ih (ss.length - 1 - i) (by omega) (ss.eraseIdx i) _ i
          (by rw [List.length_eraseIdx_of_lt h]), eraseIdx_eq_take_drop]
        have hlen : (ss.take i).length = i := by simp; omega
        rw [List.take_left' hlen, List.drop_left' hlen, deleteConnectionsFromStructure_eq,
          filterCables_filterCables]
        rw [List.drop_eq_getElem_cons h]
        simp only [List.filter_cons, hout, Bool.not_false, if_true, Bool.false_eq_true, if_false,
          List.map_cons, List.mem_cons]
        congr 1
        apply congrArg (fun q => filterCables q cables)
        funext c
        simp only [not_or]
        by_cases h1 : c.ptr = ss[i].1 <;> simp [h1]
      · rename_i hb
        have hin : inBounds lo hi ss[i] = true := by
          rw [not_or, not_lt, not_lt] at hb
          simp [inBounds, hb.1, hb.2]
        rw [ih (ss.length - (i + 1)) (by omega) ss cables (i + 1) rfl]
        rw [List.drop_eq_getElem_cons h]
        simp only [List.filter_cons, hin, if_true, Bool.not_true, Bool.false_eq_true, if_false]
        rw [take_succ_getElem h, List.append_assoc]
        rfl
    · rename_i h
      rw [List.take_of_length_le (by omega), List.drop_eq_nil_of_le (by omega)]
      simp [filterCables_true]

end Line
end Verif
