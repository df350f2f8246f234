import Verif.LineCopy

/-! Structures stay within the alignment as long as `ModifyLineStructure` is only called with stations
on the alignment.  Used by C13. -/

set_option linter.unusedSectionVars false

namespace Verif.Line
open LineCable

variable {K : Type} [Field K] [LinearOrder K] [IsStrictOrderedRing K]

/-- The extra condition on the arguments: a modified structure has a station between the first and the
last alignment station. -/
def Op.Inside (l : Line K) : Op K → Prop
  | .modifyLineStructure _ s => CoversExact l.alignment s.station
  | _ => True

/-- Histories in which every call satisfies the extra condition. -/
inductive ReachableInside : Line K → Prop where
  | empty : ReachableInside Line.empty
  | step {l l' : Line K} (op : Op K) (ext : Heap K) (h : ReachableInside l) (pre : op.Pre ext l)
      (inside : op.Inside l) (e : (op.apply ext l).state? = some l') : ReachableInside l'
  | copy {l l' : Line K} (ext : Heap K) (ptrs : List Ptr) (h : ReachableInside l)
      (hlen : ptrs.length = l.structures.length) (hnodup : ptrs.Nodup) (hnull : 0 ∉ ptrs)
      (hfresh : ∀ e ∈ l.structures, e.1 ∉ ptrs) (e : l.copy ext ptrs = some l') : ReachableInside l'

theorem ReachableInside.reachable {l : Line K} (h : ReachableInside l) : Reachable l := by
  induction h with
  | empty => exact .empty
  | step op ext _ pre _ e ih => exact .step op ext ih pre e
  | copy ext ptrs _ h1 h2 h3 h4 e ih => exact .copy ext ptrs ih h1 h2 h3 h4 e

theorem CoversExact.mono {pts pts' : List (AlignmentPoint K)} {x : K} (hs : Alignment.Sorted pts')
    (hf : ∀ f, pts.head? = some f → f ∈ pts') (hb : ∀ b, pts.getLast? = some b → b ∈ pts')
    (h : CoversExact pts x) : CoversExact pts' x := by
  obtain ⟨f, b, h1, h2, h3, h4⟩ := h
  obtain ⟨f', b', h1', h2'⟩ := exists_head_last (hf f h1)
  refine ⟨f', b', h1', h2', ?_, ?_⟩
  · have := head_le_of_sorted hs h1' (hf f h1); linarith
  · have := le_last_of_sorted hs h2' (hb b h2); linarith

/-- All structures lie on the alignment. -/
def AllInside (l : Line K) : Prop := ∀ x ∈ l.structures, CoversExact l.alignment x.2.station

theorem Op.allInside (ext : Heap K) {l l' : Line K} (op : Op K) (h : Inv l) (hin : AllInside l)
    (pre : op.Pre ext l) (inside : op.Inside l) (e : (op.apply ext l).state? = some l') :
    AllInside l' := by
  cases op with
  | addAlignmentPoint p =>
    rw [Op.apply, wrap_state] at e
    simp only [Line.addAlignmentPoint, Outcome.state?, Option.some.injEq] at e
    subst e
    intro x hx
    exact (hin x hx).mono (Alignment.addPoint_sorted p h.align)
      (fun f hf => mem_addPoint (head_mem hf)) (fun b hb => mem_addPoint (last_mem hb))
  | deleteAlignmentPoint index =>
    rw [Op.apply, wrap_state] at e
    unfold Line.deleteAlignmentPoint at e
    by_cases hv : validIndex index l.alignment.length = true
    · simp only [Alignment.deletePoint, hv, if_true, Bool.true_and] at e
      have hs : Alignment.Sorted (l.alignment.eraseIdx index.toNat) := pairwise_eraseIdx _ h.align
      split at e
      · exact (cleanUp_inv ext (l := { l with alignment := l.alignment.eraseIdx index.toNat })
          hs h.core true e).2
      · rename_i hb
        simp only [Outcome.state?, Option.some.injEq] at e
        subst e
        have hm := mem_erase_nonboundary hv (by simpa using hb)
        exact fun x hx => (hin x hx).mono hs hm.1 hm.2
    · simp only [Alignment.deletePoint, hv, if_false, Bool.false_and, Bool.false_eq_true] at e
      simp only [Outcome.state?, Option.some.injEq] at e
      subst e; exact hin
  | modifyAlignmentPoint index p =>
    rw [Op.apply, wrap_state] at e
    unfold Line.modifyAlignmentPoint at e
    have hs := Alignment.modifyPoint_sorted index p h.align
    simp only at e
    split at e
    · exact (cleanUp_inv ext
        (l := { l with alignment := (Alignment.modifyPoint l.alignment index p).1 }) hs h.core _ e).2
    · rename_i hb
      simp only [Outcome.state?, Option.some.injEq] at e
      subst e
      by_cases hv : validIndex index l.alignment.length = true
      · have hm := Alignment.modifyPoint_of_valid p hv h.align
        by_cases hc : (Alignment.addPoint (l.alignment.eraseIdx index.toNat) p).2 = -1
        · rw [if_pos hc] at hm
          intro x hx
          simp only [hm]
          exact hin x hx
        · rw [if_neg hc] at hm
          rw [hm] at hb hs ⊢
          have hnb : isBoundary index l.alignment.length = false := by simpa [hc] using hb
          have hmem := mem_erase_nonboundary hv hnb
          intro x hx
          exact (hin x hx).mono hs (fun f hf => mem_addPoint (hmem.1 f hf))
            (fun b hb => mem_addPoint (hmem.2 b hb))
      · rw [Alignment.modifyPoint_of_not_valid p hv]
        exact hin
  | addLineStructure p s =>
    rw [Op.apply, wrap_state] at e
    rcases addLineStructure_cases l p s with ⟨-, h1⟩ | ⟨-, h1⟩ | ⟨i, hle, hcov, -, h1⟩
    · rw [h1] at e; simp [Outcome.state?] at e
    · rw [h1] at e; simp only [Outcome.state?, Option.some.injEq] at e; exact e ▸ hin
    · rw [h1] at e; simp only [Outcome.state?, Option.some.injEq] at e
      subst e
      intro x hx
      rcases (mem_insertIdx_iff hle).mp hx with rfl | hx
      · exact hcov
      · exact hin x hx
  | deleteLineStructure index =>
    rw [Op.apply, wrap_state] at e
    by_cases hv : validIndex index l.structures.length = true
    · obtain ⟨hlt, hcast⟩ := validIndex_toNat hv
      obtain ⟨h1, -⟩ := deleteLineStructure_eq ext h.core hlt
      rw [← hcast, h1] at e
      simp only [Outcome.state?, Option.some.injEq] at e
      subst e
      exact fun x hx => hin x (List.mem_of_mem_eraseIdx hx)
    · unfold Line.deleteLineStructure at e
      rw [dif_neg hv] at e
      simp only [Outcome.state?, Option.some.injEq] at e
      exact e ▸ hin
  | modifyLineStructure index s =>
    rw [Op.apply, wrap_state] at e
    rcases modifyLineStructure_cases ext h index s (LineStructure.Reachable.wf pre) with
      h1 | ⟨i, hi, -, -, -, ⟨-, h1⟩ | ⟨t, -, ⟨-, h1⟩ | ⟨-, h1⟩⟩⟩
    · rw [h1] at e; simp only [Outcome.state?, Option.some.injEq] at e; exact e ▸ hin
    · rw [h1] at e; simp [Outcome.state?] at e
    · rw [h1] at e; simp only [Outcome.state?, Option.some.injEq] at e
      subst e
      intro x hx
      rcases List.mem_or_eq_of_mem_set hx with hx | rfl
      · exact hin x hx
      · exact inside
    · rw [h1] at e; simp [Outcome.state?] at e
  | addLineCable k =>
    rw [Op.apply, wrap_state] at e
    rcases addLineCable_cases ext h.core k with ⟨h1, -⟩ | ⟨h1, -⟩ | ⟨h1, -⟩ | ⟨-, i, -, h1⟩
    · rw [h1] at e; simp only [Outcome.state?, Option.some.injEq] at e; exact e ▸ hin
    · rw [h1] at e; simp only [Outcome.state?, Option.some.injEq] at e; exact e ▸ hin
    · rw [h1] at e; simp [Outcome.state?] at e
    · rw [h1] at e; simp only [Outcome.state?, Option.some.injEq] at e; subst e; exact hin
  | deleteLineCable i =>
    simp only [Op.apply, Outcome.state?, Option.some.injEq] at e
    subst e
    unfold Line.deleteLineCable
    split <;> exact hin
  | modifyLineCable index k =>
    rw [Op.apply, wrap_state] at e
    by_cases hv : validIndex index l.cables.length = true
    swap
    · unfold Line.modifyLineCable at e; rw [dif_neg hv] at e
      simp only [Outcome.state?, Option.some.injEq] at e; exact e ▸ hin
    obtain ⟨hi, hcast⟩ := validIndex_toNat hv
    rw [← hcast] at e
    rcases modifyLineCable_cases ext h.core hi k with
      ⟨-, j, -, h1⟩ | ⟨-, h1⟩ | ⟨-, h1⟩ | ⟨-, j, -, h1⟩
    · rw [h1] at e; simp only [Outcome.state?, Option.some.injEq] at e; subst e; exact hin
    · rw [h1] at e; simp only [Outcome.state?, Option.some.injEq] at e; subst e; exact hin
    · rw [h1] at e; simp [Outcome.state?] at e
    · rw [h1] at e; simp only [Outcome.state?, Option.some.injEq] at e; subst e; exact hin

theorem ReachableInside.allInside {l : Line K} (h : ReachableInside l) : AllInside l := by
  induction h with
  | empty => simp [AllInside, Line.empty]
  | step op ext h pre inside e ih => exact Op.allInside ext op h.reachable.inv ih pre inside e
  | @copy l0 l1 ext ptrs h hlen hnodup hnull hfresh e ih =>
    have hf : FreshPtrs l0 ptrs := ⟨hlen, hnodup, hnull, hfresh⟩
    rw [copy_eq ext h.reachable.inv.core hf] at e
    cases e
    intro x hx
    have : x.2 ∈ l0.structures.map Prod.snd := by
      rw [← zip_snd (ptrs := ptrs) hf.len]; exact List.mem_map.mpr ⟨x, hx, rfl⟩
    obtain ⟨e', h1, h2⟩ := List.mem_map.mp this
    rw [← h2]; exact ih e' h1

end Verif.Line
