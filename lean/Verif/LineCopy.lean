import Verif.LineInvariant

/-! Copying a line: explicit result and preservation of the invariant.  Property theorems are in
`Verif/Props/TransmissionLine.lean`. -/

set_option linter.unusedSectionVars false

namespace Verif

namespace LineCable
variable {K : Type} [LinearOrder K]

theorem insertIdx_eraseIdx_set {α : Type} {l : List α} {i : Nat} (hi : i < l.length) (x : α) :
    (l.eraseIdx i).insertIdx i x = l.set i x := by
  rw [insertIdx_eq_take_drop _ _ _ (by rw [List.length_eraseIdx_of_lt hi]; omega),
    eraseIdx_eq_take_drop, List.set_eq_take_append_cons_drop, if_pos hi]
  have h1 : (l.take i).length = i := by simp; omega
  rw [List.take_append_of_le_length (by omega), List.drop_append_of_le_length (by omega)]
  rw [List.take_of_length_le (by omega), List.drop_of_length_le (by omega)]
  simp

/-- Replacing a connection by one at the same station keeps its position. -/
theorem modifyConnection_same_key {heap : Heap K} {cs : List Connection} {i : Nat} (hi : i < cs.length)
    (hs : Sorted heap cs) (hnull : ∀ d ∈ cs, d.ptr ≠ 0) (hlive : ∀ d ∈ cs, (heap d.ptr).isSome)
    {c : Connection} (hc0 : c.ptr ≠ 0) (hc : (heap c.ptr).isSome)
    (hk : key heap c = key heap cs[i]) :
    modifyConnection heap cs (i : Int) c = .ok (cs.set i c) (i : Int) := by
  rw [modifyConnection_of_valid c (validIndex_natCast.mpr hi) hs hnull]
  have hsp := searchPos_eraseIdx (key heap) hi hs.key
  have h1 : searchConnection heap c (cs.eraseIdx i) = .val (some i) := by
    rw [searchConnection_live hc (fun d hd => hlive d (List.mem_of_mem_eraseIdx hd)), hk, hsp]
  have h2 : addConnection heap (cs.eraseIdx i) c = .ok (cs.set i c) (i : Int) := by
    unfold addConnection
    rw [if_neg hc0, h1]
    simp only [insertIdx_eraseIdx_set hi]
    congr 1
    push_cast
    omega
  rw [Int.toNat_natCast, h2]
  have : ¬ ((i : Int) = -1) := by omega
  simp [this]

end LineCable

namespace Line
open LineCable

variable {K : Type} [Field K] [LinearOrder K] [IsStrictOrderedRing K]

/-- Address of the copy of the node at address `p`. -/
def rename (old : Nodes K) (ptrs : List Ptr) (p : Ptr) : Ptr :=
  match indexLoop p old with
  | none => p
  | some j => (ptrs[j]?).getD 0

/-- Connection with its pointer switched to the copy. -/
def renameC (old : Nodes K) (ptrs : List Ptr) (c : Connection) : Connection :=
  ⟨rename old ptrs c.ptr, c.attachment⟩

theorem set_map_take_drop {cs0 : List Connection} (f : Connection → Connection) {i : Nat}
    (hi : i < cs0.length) :
    ((cs0.take i).map f ++ cs0.drop i).set i (f cs0[i]) =
      (cs0.take (i + 1)).map f ++ cs0.drop (i + 1) := by
  have hl : ((cs0.take i).map f).length = i := by simp; omega
  rw [List.set_append, if_neg (by omega), hl, Nat.sub_self, List.drop_eq_getElem_cons hi, List.set_cons_zero,
    take_succ_getElem hi, List.map_append, List.append_assoc]
  rfl

/-- The copy loop on one cable. -/
theorem copyConnections_eq {h : Heap K} {old new : Nodes K} {ptrs : List Ptr}
    (hlen : ptrs.length = old.length) (hnew : new = ptrs.zip (old.map Prod.snd))
    {cs0 : List Connection} (hs : Sorted h cs0) (hnull : ∀ c ∈ cs0, c.ptr ≠ 0)
    (hown : ∀ c ∈ cs0, (lookup c.ptr old).isSome)
    (hlive : ∀ c ∈ cs0, (h c.ptr).isSome)
    (hren0 : ∀ c ∈ cs0, rename old ptrs c.ptr ≠ 0)
    (hren : ∀ c ∈ cs0, h (rename old ptrs c.ptr) = h c.ptr) :
    ∀ n i, i + n = cs0.length →
      copyConnections h old new i n ((cs0.take i).map (renameC old ptrs) ++ cs0.drop i) =
        some (cs0.map (renameC old ptrs)) := by
  intro n
  induction n with
  | zero =>
    intro i hi
    have : i = cs0.length := by omega
    subst this
    simp [copyConnections]
  | succ n ih =>
    intro i hi
    have hlt : i < cs0.length := by omega
    set cs := (cs0.take i).map (renameC old ptrs) ++ cs0.drop i with hcs
    have hl : ((cs0.take i).map (renameC old ptrs)).length = i := by simp; omega
    have hclen : cs.length = cs0.length := by
      rw [hcs, List.length_append, hl, List.length_drop]; omega
    have hci : cs[i]'(by omega) = cs0[i] := by
      simp only [hcs]
      rw [List.getElem_append_right (by omega)]
      simp only [hl, List.getElem_drop]
      congr 1; omega
    -- every element of `cs` is an element of `cs0`, possibly renamed
    have hget : ∀ j (hj : j < cs.length), cs[j] = cs0[j]'(by omega) ∨
        cs[j] = renameC old ptrs (cs0[j]'(by omega)) := by
      intro j hj
      by_cases hji : j < i
      · right
        simp only [hcs]
        rw [List.getElem_append_left (by omega)]
        simp
      · left
        simp only [hcs]
        rw [List.getElem_append_right (by omega)]
        simp only [hl, List.getElem_drop]
        congr 1; omega
    have hheap : ∀ j (hj : j < cs.length), h (cs[j]).ptr = h (cs0[j]'(by omega)).ptr := by
      intro j hj
      rcases hget j hj with e | e
      · rw [e]
      · rw [e]; exact hren _ (List.getElem_mem _)
    have hs' : Sorted h cs := by
      refine List.pairwise_iff_getElem.mpr ?_
      intro a b ha hb hab
      obtain ⟨s, t, h1, h2, h3⟩ := List.pairwise_iff_getElem.mp hs a b (by omega) (by omega) hab
      exact ⟨s, t, by rw [hheap a ha]; exact h1, by rw [hheap b hb]; exact h2, h3⟩
    have hnull' : ∀ d ∈ cs, d.ptr ≠ 0 := by
      intro d hd
      obtain ⟨j, hj, rfl⟩ := List.getElem_of_mem hd
      rcases hget j hj with e | e
      · rw [e]; exact hnull _ (List.getElem_mem _)
      · rw [e]; exact hren0 _ (List.getElem_mem _)
    have hlive' : ∀ d ∈ cs, (h d.ptr).isSome := by
      intro d hd
      obtain ⟨j, hj, rfl⟩ := List.getElem_of_mem hd
      rw [hheap j hj]; exact hlive _ (List.getElem_mem _)
    have hmem := List.getElem_mem hlt
    -- the structure index in the original
    cases hidx : indexLoop (cs0[i]).ptr old with
    | none =>
      rw [indexLoop_eq_none] at hidx
      have := hown _ hmem
      rw [hidx] at this; simp at this
    | some j =>
      obtain ⟨hj, -⟩ := indexLoop_eq_some hidx
      have hjp : j < ptrs.length := by omega
      have hrename : rename old ptrs (cs0[i]).ptr = ptrs[j] := by
        simp [rename, hidx, List.getElem?_eq_getElem hjp]
      have hjn : j < new.length := by rw [hnew]; simp; omega
      have hnewj : (new[j]).1 = ptrs[j] := by
        subst hnew
        simp
      have hmod : modifyConnection h cs (i : Int) ⟨(new[j]).1, (cs0[i]).attachment⟩ =
          .ok (cs.set i ⟨(new[j]).1, (cs0[i]).attachment⟩) (i : Int) := by
        refine modifyConnection_same_key (by omega) hs' hnull' hlive' ?_ ?_ ?_
        · show (new[j]).1 ≠ 0
          rw [hnewj, ← hrename]; exact hren0 _ hmem
        · show (h (new[j]).1).isSome
          rw [hnewj, ← hrename, hren _ hmem]; exact hlive _ hmem
        · rw [hci]
          unfold key
          simp only
          rw [hnewj, ← hrename, hren _ hmem]
      rw [copyConnections, List.getElem?_eq_getElem (by omega), hci]
      simp only [hidx, List.getElem?_eq_getElem hjn, hmod]
      have hset : cs.set i ⟨(new[j]).1, (cs0[i]).attachment⟩ =
          (cs0.take (i + 1)).map (renameC old ptrs) ++ cs0.drop (i + 1) := by
        rw [← set_map_take_drop (renameC old ptrs) hlt]
        congr 1
        simp only [renameC, hrename, hnewj]
      rw [hset]
      exact ih (i + 1) (by omega)

/-- What the address supply of a copy must satisfy. -/
structure FreshPtrs (l : Line K) (ptrs : List Ptr) : Prop where
  len : ptrs.length = l.structures.length
  nodup : ptrs.Nodup
  nonnull : 0 ∉ ptrs
  fresh : ∀ e ∈ l.structures, e.1 ∉ ptrs

/-- The explicit copy. -/
def copied (l : Line K) (ptrs : List Ptr) : Line K :=
  ⟨l.alignment, ptrs.zip (l.structures.map Prod.snd),
    l.cables.map fun k => ⟨k.connections.map (renameC l.structures ptrs), k.rest⟩⟩

theorem zip_fst {l : Line K} {ptrs : List Ptr} (hlen : ptrs.length = l.structures.length) :
    (ptrs.zip (l.structures.map Prod.snd)).map Prod.fst = ptrs :=
  List.map_fst_zip (by simp [hlen])

theorem zip_snd {l : Line K} {ptrs : List Ptr} (hlen : ptrs.length = l.structures.length) :
    (ptrs.zip (l.structures.map Prod.snd)).map Prod.snd = l.structures.map Prod.snd :=
  List.map_snd_zip (by simp [hlen])

/-- Owned pointers: index, renamed pointer, and what both show. -/
theorem rename_spec {l : Line K} {ptrs : List Ptr} (hn : PtrNodup l.structures)
    (hf : FreshPtrs l ptrs) {p : Ptr} (h : (lookup p l.structures).isSome) :
    ∃ j : Nat, ∃ hj : j < l.structures.length, ∃ hj' : j < ptrs.length,
      (l.structures[j]).1 = p ∧ indexLoop p l.structures = some j ∧
      rename l.structures ptrs p = ptrs[j] ∧
      lookup (ptrs[j]) (ptrs.zip (l.structures.map Prod.snd)) = some (l.structures[j]).2 ∧
      lookup p l.structures = some (l.structures[j]).2 := by
  cases hidx : indexLoop p l.structures with
  | none => rw [indexLoop_eq_none] at hidx; rw [hidx] at h; simp at h
  | some j =>
    obtain ⟨hj, hp⟩ := indexLoop_eq_some hidx
    have hj' : j < ptrs.length := by rw [hf.len]; exact hj
    refine ⟨j, hj, hj', hp, rfl, by simp [rename, hidx, List.getElem?_eq_getElem hj'], ?_, ?_⟩
    · apply lookup_of_mem
      · show (List.map Prod.fst _).Nodup
        rw [zip_fst hf.len]; exact hf.nodup
      · have hz : j < (ptrs.zip (l.structures.map Prod.snd)).length := by simp; omega
        have : (ptrs.zip (l.structures.map Prod.snd))[j] = (ptrs[j], (l.structures[j]).2) := by simp
        rw [← this]; exact List.getElem_mem hz
    · rw [← hp]; exact lookup_getElem hn hj

theorem copyCables_eq {h : Heap K} {old new : Nodes K} (f : Connection → Connection)
    {ks : List LineCable}
    (hk : ∀ k ∈ ks, copyConnections h old new 0 k.connections.length k.connections =
      some (k.connections.map f)) :
    copyCables h old new ks = some (ks.map fun k => ⟨k.connections.map f, k.rest⟩) := by
  induction ks with
  | nil => rfl
  | cons k ks ih =>
    rw [copyCables, hk k (by simp)]
    simp only
    rw [ih (fun k' hk' => hk k' (by simp [hk']))]
    rfl

/-- Copying never fails and gives the explicit copy. -/
theorem copy_eq (ext : Heap K) {l : Line K} (h : Core l.structures l.cables) {ptrs : List Ptr}
    (hf : FreshPtrs l ptrs) : l.copy ext ptrs = some (copied l ptrs) := by
  unfold copy
  simp only
  rw [copyCables_eq (renameC l.structures ptrs)]
  · rfl
  · intro k hk
    set new := ptrs.zip (l.structures.map Prod.snd) with hnew
    set hp : Heap K := fun p => match lookup p new with
      | some s => some s
      | none => l.heap ext p with hhp
    -- an owned pointer shows the same structure as its copy
    have hold : ∀ c ∈ k.connections, hp c.ptr = lookup c.ptr l.structures := by
      intro c hc
      obtain ⟨j, hj, hj', hpj, -, -, -, h5⟩ := rename_spec h.nodup hf (h.owned hk hc)
      have hnone : lookup c.ptr new = none := by
        rw [lookup_eq_none]
        intro e he hep
        have : e.1 ∈ ptrs := by
          rw [← zip_fst hf.len]; exact List.mem_map.mpr ⟨e, he, rfl⟩
        rw [hep, ← hpj] at this
        exact hf.fresh _ (List.getElem_mem hj) this
      simp only [hhp, hnone]
      exact heap_eq_own (h.owned hk hc)
    have hren : ∀ c ∈ k.connections, hp (rename l.structures ptrs c.ptr) = hp c.ptr := by
      intro c hc
      obtain ⟨j, hj, hj', hpj, -, h3, h4, h5⟩ := rename_spec h.nodup hf (h.owned hk hc)
      rw [hold c hc, h5, h3]
      simp only [hhp]
      rw [hnew, h4]
    have key := copyConnections_eq (h := hp) (old := l.structures) (new := new) (ptrs := ptrs) hf.len hnew
      (cs0 := k.connections)
      ((h.cablesOk k hk).2.1.congr (fun c hc => (hold c hc).symm))
      (by
        intro c hc h0
        obtain ⟨s, hs⟩ := Option.isSome_iff_exists.mp (h.owned hk hc)
        exact h.nonnull _ (lookup_mem hs) h0)
      (fun c hc => h.owned hk hc)
      (fun c hc => by rw [hold c hc]; exact h.owned hk hc)
      (by
        intro c hc
        obtain ⟨j, hj, hj', hpj, -, h3, -, -⟩ := rename_spec h.nodup hf (h.owned hk hc)
        rw [h3]
        intro h0
        exact hf.nonnull (h0 ▸ List.getElem_mem hj'))
      hren k.connections.length 0 (by omega)
    simp only [List.take_zero, List.map_nil, List.nil_append, List.drop_zero] at key
    exact key

theorem connections_map (f : Connection → Connection) (ks : List LineCable) :
    connections (ks.map fun k => ⟨k.connections.map f, k.rest⟩) = (connections ks).map f := by
  induction ks with
  | nil => rfl
  | cons k ks ih =>
    simp only [connections] at *
    rw [List.map_cons, List.flatMap_cons, List.flatMap_cons, List.map_append, ih]

theorem mem_connections {ks : List LineCable} {c : Connection} :
    c ∈ connections ks ↔ ∃ k ∈ ks, c ∈ k.connections := by
  simp [connections, List.mem_flatMap]

/-- The copy satisfies the invariant. -/
theorem copied_core {l : Line K} (h : Core l.structures l.cables) {ptrs : List Ptr}
    (hf : FreshPtrs l ptrs) : Core (copied l ptrs).structures (copied l ptrs).cables := by
  have hsnd : ∀ e ∈ (copied l ptrs).structures, ∃ e' ∈ l.structures, e.2 = e'.2 := by
    intro e he
    have : e.2 ∈ l.structures.map Prod.snd := by
      rw [← zip_snd (ptrs := ptrs) hf.len]; exact List.mem_map.mpr ⟨e, he, rfl⟩
    obtain ⟨e', h1, h2⟩ := List.mem_map.mp this
    exact ⟨e', h1, h2.symm⟩
  have hlook : ∀ k ∈ l.cables, ∀ c ∈ k.connections,
      lookup (renameC l.structures ptrs c).ptr (copied l ptrs).structures =
        lookup c.ptr l.structures := by
    intro k hk c hc
    obtain ⟨j, hj, hj', -, -, h3, h4, h5⟩ := rename_spec h.nodup hf (h.owned hk hc)
    rw [h5]
    show lookup (rename l.structures ptrs c.ptr) _ = _
    rw [h3]; exact h4
  refine ⟨?_, ?_, ?_, ?_, ?_, ?_⟩
  · show (List.map Prod.fst (ptrs.zip _)).Nodup
    rw [zip_fst hf.len]; exact hf.nodup
  · intro e he h0
    have : e.1 ∈ ptrs := by
      rw [← zip_fst hf.len]; exact List.mem_map.mpr ⟨e, he, rfl⟩
    exact hf.nonnull (h0 ▸ this)
  · have h1 : (l.structures.map Prod.snd).Pairwise (fun a b => a.station < b.station) := by
      rw [List.pairwise_map]; exact h.sorted
    rw [← zip_snd (ptrs := ptrs) hf.len, List.pairwise_map] at h1
    exact h1
  · intro e he
    obtain ⟨e', h1, h2⟩ := hsnd e he
    rw [h2]; exact h.wf e' h1
  · intro k' hk'
    obtain ⟨k, hk, rfl⟩ := List.mem_map.mp hk'
    obtain ⟨h1, h2, h3⟩ := h.cablesOk k hk
    refine ⟨by simpa using h1, ?_, ?_⟩
    · show List.Pairwise _ _
      rw [List.pairwise_map]
      refine h2.imp_of_mem ?_
      rintro a b ha hb ⟨s, t, hs, ht, hlt⟩
      exact ⟨s, t, (hlook k hk a ha).trans hs, (hlook k hk b hb).trans ht, hlt⟩
    · intro c' hc'
      obtain ⟨c, hc, rfl⟩ := List.mem_map.mp hc'
      obtain ⟨t, ht⟩ := h3 c hc
      refine ⟨t, ?_⟩
      rw [← ht]
      unfold checkConnection
      simp only [hlook k hk c hc]
      rfl
  · show (connections (l.cables.map _)).Nodup
    rw [connections_map]
    refine h.excl.map_on ?_
    intro a ha b hb hab
    obtain ⟨k, hk, ha⟩ := mem_connections.mp ha
    obtain ⟨k', hk', hb⟩ := mem_connections.mp hb
    obtain ⟨j, hj, hj', hp, -, h3, -, -⟩ := rename_spec h.nodup hf (h.owned hk ha)
    obtain ⟨j2, hj2, hj2', hp2, -, h32, -, -⟩ := rename_spec h.nodup hf (h.owned hk' hb)
    have e1 : rename l.structures ptrs a.ptr = rename l.structures ptrs b.ptr := by
      have := congrArg Connection.ptr hab; exact this
    have e2 : a.attachment = b.attachment := by
      have := congrArg Connection.attachment hab; exact this
    rw [h3, h32] at e1
    have : j = j2 := (List.Nodup.getElem_inj_iff hf.nodup).mp e1
    subst this
    have e3 : a.ptr = b.ptr := hp.symm.trans hp2
    cases a; cases b; simp_all

theorem copied_inv {l : Line K} (h : Inv l) {ptrs : List Ptr} (hf : FreshPtrs l ptrs) :
    Inv (copied l ptrs) := by
  refine ⟨h.align, copied_core h.core hf, ?_⟩
  intro e he
  have : e.2 ∈ l.structures.map Prod.snd := by
    rw [← zip_snd (ptrs := ptrs) hf.len]; exact List.mem_map.mpr ⟨e, he, rfl⟩
  obtain ⟨e', h1, h2⟩ := List.mem_map.mp this
  rw [← h2]; exact h.range e' h1

/-- Every reachable line satisfies the invariant. -/
theorem Reachable.inv {l : Line K} (h : Reachable l) : Inv l := by
  induction h with
  | empty => exact empty_inv
  | step op ext _ pre e ih => exact Op.inv ext op ih pre e
  | copy ext ptrs _ hlen hnodup hnull hfresh e ih =>
    have hf : FreshPtrs _ ptrs := ⟨hlen, hnodup, hnull, hfresh⟩
    rw [copy_eq ext ih.core hf] at e
    cases e
    exact copied_inv ih hf

end Line
end Verif
