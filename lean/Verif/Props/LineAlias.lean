import Verif.LineAlias
import Verif.Props.Undo

/-!
# C152, C153: elements of the line itself as arguments, and self-assignment
-/

set_option linter.unusedSectionVars false

namespace Verif.Props

open Verif Verif.Line

variable {K : Type} [Field K] [LinearOrder K] [IsStrictOrderedRing K]

/-- A reference that shows something before the call and does not refer to the erased element shows it afterwards. -/
theorem afterErase_eq {A : Type} {es : List A} {i : Nat} {arg : RefArg A} {a : A} (ha : arg.before es = some a)
    (hn : arg ≠ .own i) : arg.afterErase es i = some a := by
  cases arg with
  | value b => exact ha
  | own j =>
    have hj : j ≠ i := fun h => hn (by rw [h])
    simp only [RefArg.afterErase, if_neg hj]
    exact ha

theorem alignment_modifyRef {points : List (AlignmentPoint K)} {index : Int} {arg : RefArg (AlignmentPoint K)}
    {p : AlignmentPoint K} (ha : arg.before points = some p) (hn : arg ≠ .own index.toNat) :
    Alignment.modifyPointRef points index arg =
      .ok (Alignment.modifyPoint points index p).1 (Alignment.modifyPoint points index p).2 := by
  unfold Alignment.modifyPointRef Alignment.modifyPoint
  by_cases hv : validIndex index points.length
  · simp only [dif_pos hv, afterErase_eq ha hn]
    by_cases hd : (Alignment.deletePoint points index).2 = false
    · simp only [if_pos hd]
    · simp only [if_neg hd]
      by_cases hs : (Alignment.addPoint (Alignment.deletePoint points index).1 p).2 = -1
      · simp only [if_pos hs]
      · simp only [if_neg hs]
  · simp only [dif_neg hv]

/-- C152 for alignment points, what holds: a `ModifyAlignmentPoint` whose argument is an object of the caller, or a
point of the same alignment other than the one replaced, does what it does with a copy of that point. -/
theorem C152_alignment_partial (ext : Heap K) (l : Line K) (index : Int) (arg : RefArg (AlignmentPoint K))
    (p : AlignmentPoint K) (ha : arg.before l.alignment = some p) (hn : arg ≠ .own index.toNat) :
    l.modifyAlignmentPointRef ext index arg = l.modifyAlignmentPoint ext index p := by
  unfold modifyAlignmentPointRef modifyAlignmentPoint
  simp only [alignment_modifyRef ha hn]

/-- The second point of the example line is replaced by the first: refused, as with a copy. -/
example : (RefArg.own 0).before exampleLine.alignment = some ⟨0, 0, 0⟩ ∧
    (RefArg.own 0 : RefArg (AlignmentPoint ℚ)) ≠ .own (1 : Int).toNat ∧
    exampleLine.modifyAlignmentPointRef noExt 1 (.own 0) = .ok exampleLine (-1) := by
  refine ⟨by decide +kernel, by simp, ?_⟩
  rw [C152_alignment_partial noExt exampleLine 1 (.own 0) ⟨0, 0, 0⟩ (by decide +kernel) (by simp)]
  decide +kernel

/-- C152 is false for the point that is replaced: with a reference to it the call reads an erased point, for every
alignment and every valid index. -/
theorem C152_alignment_fails (ext : Heap K) (l : Line K) (i : Nat) (hi : i < l.alignment.length) :
    (RefArg.own i).before l.alignment = some l.alignment[i] ∧
    l.modifyAlignmentPointRef ext (i : Int) (.own i) = .ub := by
  have hv := validIndex_natCast.mpr hi
  refine ⟨by simp [RefArg.before, hi], ?_⟩
  have : Alignment.modifyPointRef l.alignment (i : Int) (.own i) = .ub := by
    unfold Alignment.modifyPointRef
    simp [dif_pos hv, Alignment.deletePoint, if_pos hv, RefArg.afterErase]
  unfold modifyAlignmentPointRef
  simp only [this]

/-- The same call with a copy is accepted. -/
example : exampleLine.alignment[1]? = some ⟨0, 0, 50⟩ ∧
    exampleLine.modifyAlignmentPoint noExt 1 ⟨0, 0, 50⟩ = .ok exampleLine 1 ∧
    exampleLine.modifyAlignmentPointRef noExt 1 (.own 1) = .ub :=
  ⟨by decide +kernel, by decide +kernel, (C152_alignment_fails noExt exampleLine 1 (by decide +kernel)).2⟩

/-- C152 for connections, what holds. -/
theorem C152_connection_partial (heap : Heap K) (cs : List Connection) (index : Int) (arg : RefArg Connection)
    (c : Connection) (ha : arg.before cs = some c) (hn : arg ≠ .own index.toNat) :
    LineCable.modifyConnectionRef heap cs index arg = LineCable.modifyConnection heap cs index c := by
  unfold LineCable.modifyConnectionRef LineCable.modifyConnection
  by_cases hv : validIndex index cs.length
  · simp only [dif_pos hv, afterErase_eq ha hn]
    rfl
  · simp only [dif_neg hv]

/-- C152 is false for the connection that is replaced. -/
theorem C152_connection_fails (heap : Heap K) (cs : List Connection) (i : Nat) (hi : i < cs.length) :
    (RefArg.own i).before cs = some cs[i] ∧ LineCable.modifyConnectionRef heap cs (i : Int) (.own i) = .ub := by
  have hv := validIndex_natCast.mpr hi
  refine ⟨by simp [RefArg.before, hi], ?_⟩
  unfold LineCable.modifyConnectionRef
  simp [dif_pos hv, LineCable.deleteConnection, if_pos hv, RefArg.afterErase]

/-- A cable between two structures of the example line: with the other connection the call is refused as with a copy,
with the connection itself it reads freed memory though a copy is accepted. -/
example : LineCable.modifyConnectionRef (exampleLine.heap noExt) [⟨12, 0⟩, ⟨13, 1⟩] 1 (.own 0) =
      LineCable.modifyConnection (exampleLine.heap noExt) [⟨12, 0⟩, ⟨13, 1⟩] 1 ⟨12, 0⟩ ∧
    LineCable.modifyConnectionRef (exampleLine.heap noExt) [⟨12, 0⟩, ⟨13, 1⟩] 1 (.own 1) = .ub ∧
    LineCable.modifyConnection (exampleLine.heap noExt) [⟨12, 0⟩, ⟨13, 1⟩] 1 ⟨13, 1⟩ =
      .ok [⟨12, 0⟩, ⟨13, 1⟩] 1 :=
  ⟨C152_connection_partial _ _ _ _ _ (by decide) (by simp),
    (C152_connection_fails _ [⟨12, 0⟩, ⟨13, 1⟩] 1 (by decide)).2, by decide +kernel⟩

/-- C152 for cables, what holds. -/
theorem C152_cable_partial (ext : Heap K) (l : Line K) (index : Int) (arg : RefArg LineCable) (k : LineCable)
    (ha : arg.before l.cables = some k) (hn : arg ≠ .own index.toNat) :
    l.modifyLineCableRef ext index arg = l.modifyLineCable ext index k := by
  unfold modifyLineCableRef modifyLineCable
  by_cases hv : validIndex index l.cables.length
  · simp only [dif_pos hv, afterErase_eq ha hn]
    rfl
  · simp only [dif_neg hv]

/-- C152 is false for the cable that is replaced. -/
theorem C152_cable_fails (ext : Heap K) (l : Line K) (i : Nat) (hi : i < l.cables.length) :
    (RefArg.own i).before l.cables = some l.cables[i] ∧ l.modifyLineCableRef ext (i : Int) (.own i) = .ub := by
  have hv := validIndex_natCast.mpr hi
  refine ⟨by simp [RefArg.before, hi], ?_⟩
  unfold modifyLineCableRef
  simp [dif_pos hv, deleteLineCable, if_pos hv, RefArg.afterErase]

/-- The second of two cables is replaced by the first (refused, as with a copy: the attachment points are taken) and by
itself. -/
example : ∀ l : Line ℚ, l = { exampleLine with cables := [⟨[⟨13, 0⟩, ⟨11, 0⟩], 7⟩, ⟨[⟨12, 0⟩, ⟨13, 1⟩], 8⟩] } →
    l.modifyLineCableRef noExt 1 (.own 0) = .ok l (-1) ∧
    l.modifyLineCableRef noExt 1 (.own 1) = .ub ∧
    l.modifyLineCable noExt 1 ⟨[⟨12, 0⟩, ⟨13, 1⟩], 8⟩ = .ok l 1 := by
  rintro l rfl
  refine ⟨?_, (C152_cable_fails noExt _ 1 (by decide)).2, by decide +kernel⟩
  rw [C152_cable_partial noExt _ 1 (.own 0) ⟨[⟨13, 0⟩, ⟨11, 0⟩], 7⟩ (by decide) (by simp)]
  decide +kernel

/-- C153: assigning a line to itself changes nothing, whatever was done to the line before. -/
theorem C153_self_assignment {l : Line K} (h : Reachable l) (ext : Heap K) : l.assignSelf ext = some l := by
  have hc := h.inv.core
  have hzip : l.structures = (l.structures.map Prod.fst).zip (l.structures.map Prod.snd) := by
    rw [List.zip_map', List.map_id'']
    simp
  have hren : ∀ p, (lookup p l.structures).isSome → rename l.structures (l.structures.map Prod.fst) p = p := by
    intro p hp
    cases hidx : indexLoop p l.structures with
    | none => rw [indexLoop_eq_none] at hidx; rw [hidx] at hp; simp at hp
    | some j =>
      obtain ⟨hj, hp'⟩ := indexLoop_eq_some hidx
      simp [rename, hidx, List.getElem?_eq_getElem hj, hp']
  have hnull : ∀ k ∈ l.cables, ∀ c ∈ k.connections, c.ptr ≠ 0 := by
    intro k hk c hc' h0
    obtain ⟨s, hs⟩ := Option.isSome_iff_exists.mp (hc.owned hk hc')
    exact hc.nonnull _ (lookup_mem hs) h0
  have hheap : ∀ k ∈ l.cables, ∀ c ∈ k.connections, l.heap ext c.ptr = lookup c.ptr l.structures :=
    fun k hk c hc' => heap_eq_own (hc.owned hk hc')
  unfold assignSelf
  rw [copyCables_eq (renameC l.structures (l.structures.map Prod.fst))]
  · have hmap : (l.cables.map fun k =>
        (⟨k.connections.map (renameC l.structures (l.structures.map Prod.fst)), k.rest⟩ : LineCable)) = l.cables := by
      conv_rhs => rw [← List.map_id l.cables]
      refine List.map_congr_left fun k hk => ?_
      have : k.connections.map (renameC l.structures (l.structures.map Prod.fst)) = k.connections := by
        conv_rhs => rw [← List.map_id k.connections]
        refine List.map_congr_left fun c hc' => ?_
        simp only [renameC, hren _ (hc.owned hk hc'), id]
      rw [this]; rfl
    simp only [Option.map_some, hmap]
  · intro k hk
    have key := copyConnections_eq (h := l.heap ext) (old := l.structures) (new := l.structures)
      (ptrs := l.structures.map Prod.fst) (by simp) hzip (cs0 := k.connections)
      ((hc.cablesOk k hk).2.1.congr (fun c hc' => (hheap k hk c hc').symm))
      (hnull k hk) (fun c hc' => hc.owned hk hc')
      (fun c hc' => by rw [hheap k hk c hc']; exact hc.owned hk hc')
      (fun c hc' => by rw [hren _ (hc.owned hk hc')]; exact hnull k hk c hc')
      (fun c hc' => by rw [hren _ (hc.owned hk hc')]) k.connections.length 0 (by omega)
    simp only [List.take_zero, List.map_nil, List.nil_append, List.drop_zero] at key
    exact key

/-- A line with three structures and a cable. -/
example : ∃ l : Line ℚ, Reachable l ∧ l.cables.length = 2 ∧ l.assignSelf noExt = some l := by
  have h : Reachable { exampleLine with cables := [⟨[⟨13, 0⟩, ⟨11, 0⟩], 7⟩, ⟨[⟨12, 0⟩, ⟨13, 1⟩], 8⟩] } :=
    reachable_exec (ext := noExt) .empty (exampleLineOps ++ [.addLineCable ⟨[⟨13, 0⟩, ⟨11, 0⟩], 7⟩,
      .addLineCable ⟨[⟨12, 0⟩, ⟨13, 1⟩], 8⟩]) (by decide +kernel)
  exact ⟨_, h, rfl, C153_self_assignment h noExt⟩

end Verif.Props
