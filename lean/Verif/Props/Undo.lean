import Verif.Props.TransmissionLine

/-! # Undoing and repeating line edits (C143, C144) -/

set_option linter.unusedSectionVars false

namespace Verif.Props
open Line

variable {K : Type} [Field K] [LinearOrder K] [IsStrictOrderedRing K]

theorem filterCables_owned {ss : Nodes K} {cables : List LineCable} (h : Core ss cables)
    (q : Connection → Bool) (hq : ∀ c, (lookup c.ptr ss).isSome → q c = true) :
    filterCables q cables = cables := by
  conv_rhs => rw [← filterCables_true cables]
  exact filterCables_congr fun k hk c hc => hq c (h.owned hk hc)

theorem filter_enough_core {ss : Nodes K} {cables : List LineCable} (h : Core ss cables) :
    cables.filter enough = cables := by
  rw [List.filter_eq_self]
  intro k hk
  have := (h.cablesOk k hk).1
  simpa [enough] using this

/-- When everything lies on the alignment the clean-up changes nothing. -/
theorem cleanUp_inside {A : Type} (ext : Heap K) {l : Line K} (hc : Core l.structures l.cables) (a : A)
    (hne : l.alignment ≠ []) (hin : AllInside l) : cleanUp ext l a = .ok l a := by
  obtain ⟨f, b, hf, hb⟩ := exists_head_last (List.getLast_mem hne)
  obtain ⟨cs, h1, h2, -⟩ := cleanUp_eq ext hc a hf hb
  have hss : l.structures.filter (inBounds f.station b.station) = l.structures := by
    rw [List.filter_eq_self]
    intro e he
    obtain ⟨f', b', hf', hb', h3, h4⟩ := hin e he
    rw [hf] at hf'; rw [hb] at hb'; cases hf'; cases hb'
    simp [inBounds, h3, h4]
  rw [hss] at h1 h2
  rw [filterCables_owned hc _ (fun c h => h), filter_enough_core hc] at h2
  rw [h1, h2]

/-- C143 for structures: after `AddLineStructure` has returned an index, `DeleteLineStructure` with that
index gives back exactly the line there was before: alignment, structures and cables. -/
theorem C143_structure {l l' : Line K} (h : Reachable l) (ext : Heap K) (p : Ptr) (s : LineStructure K)
    (hfresh : ∀ e ∈ l.structures, e.1 ≠ p) (hp : p ≠ 0) (hs : LineStructure.Reachable s) (r : Int)
    (e : l.addLineStructure p s = .ok l' r) (hr : r ≠ -1) :
    l'.deleteLineStructure ext r = .ok l true := by
  have hl' : Reachable l' := .step (.addLineStructure p s) ext h ⟨hp, hfresh, hs⟩ (by
    simp [Op.apply, e, wrap, Outcome.state?])
  obtain ⟨i, rfl, h1, h2, h3, h4⟩ := C18_structure_index p s r e hr
  have hi : i < l'.structures.length := by
    by_contra hno
    rw [List.getElem?_eq_none (by omega)] at h1; cases h1
  have hget : l'.structures[i] = (p, s) := by
    rw [List.getElem?_eq_getElem hi] at h1; simpa using h1
  rw [(deleteLineStructure_eq ext hl'.inv.core hi).1, h2, h3, h4, hget]
  rw [filterCables_owned h.inv.core, filter_enough_core h.inv.core]
  intro c hc
  obtain ⟨t, ht⟩ := Option.isSome_iff_exists.mp hc
  simpa using hfresh _ (lookup_mem ht)

/-- C143 for cables: after `AddLineCable` has returned an index, `DeleteLineCable` with that index gives
back exactly the line there was before. -/
theorem C143_cable {l l' : Line K} (h : Reachable l) (ext : Heap K) (k : LineCable) (r : Int)
    (e : l.addLineCable ext k = .ok l' r) (hr : r ≠ -1) : l'.deleteLineCable r = (l, true) := by
  obtain ⟨i, rfl, h1, h2, h3, h4⟩ := C18_cable_index h ext k r e hr
  have hi : i < l'.cables.length := by
    by_contra hno
    rw [List.getElem?_eq_none (by omega)] at h1; cases h1
  unfold Line.deleteLineCable
  rw [if_pos (validIndex_natCast.mpr hi), Int.toNat_natCast, h2, h3, h4]

/-- The added alignment point can be erased again. -/
theorem addPoint_eraseIdx {pts : List (AlignmentPoint K)} (p : AlignmentPoint K)
    (hr : (Alignment.addPoint pts p).2 ≠ -1) :
    ∃ i : Nat, (Alignment.addPoint pts p).2 = (i : Int) ∧ i < (Alignment.addPoint pts p).1.length ∧
      (Alignment.addPoint pts p).1.eraseIdx i = pts := by
  unfold Alignment.addPoint at hr ⊢
  cases hsp : searchPos AlignmentPoint.station p.station pts with
  | none => rw [hsp] at hr; simp at hr
  | some i =>
    have hle := searchPos_le _ hsp
    refine ⟨i, by simp, ?_, ?_⟩
    · simp only [List.length_insertIdx_of_le_length hle]; omega
    · simp

/-- C143 for alignment points, what holds: if the line already has alignment points and every structure
was put between the first and the last of them, then after `AddAlignmentPoint` has returned an index,
`DeleteAlignmentPoint` with that index gives back exactly the line there was before. -/
theorem C143_alignment_partial {l l' : Line K} (h : ReachableInside l) (ext : Heap K)
    (p : AlignmentPoint K) (hne : l.alignment ≠ []) (r : Int)
    (e : l.addAlignmentPoint p = .ok l' r) (hr : r ≠ -1) :
    l'.deleteAlignmentPoint ext r = .ok l true := by
  simp only [Line.addAlignmentPoint, Outcome.ok.injEq] at e
  obtain ⟨rfl, rfl⟩ := e
  obtain ⟨i, hi, hlt, her⟩ := addPoint_eraseIdx p hr
  rw [hi]
  unfold Line.deleteAlignmentPoint
  simp only [Alignment.deletePoint, validIndex_natCast.mpr hlt, if_true, Bool.true_and,
    Int.toNat_natCast, her]
  have hl : ({ l with alignment := l.alignment } : Line K) = l := rfl
  split
  · exact cleanUp_inside ext h.reachable.inv.core true hne h.allInside
  · rfl

/-- C143 for alignment points between the first and the last one: no assumption on the structures. -/
theorem C143_alignment_between_partial {l l' : Line K} (h : Reachable l) (ext : Heap K)
    (p first last : AlignmentPoint K) (hf : l.alignment.head? = some first)
    (hl : l.alignment.getLast? = some last) (h1 : first.station < p.station)
    (h2 : p.station < last.station) (r : Int) (e : l.addAlignmentPoint p = .ok l' r) (hr : r ≠ -1) :
    l'.deleteAlignmentPoint ext r = .ok l true := by
  simp only [Line.addAlignmentPoint, Outcome.ok.injEq] at e
  obtain ⟨rfl, rfl⟩ := e
  obtain ⟨i, hi, hlt, her⟩ := addPoint_eraseIdx p hr
  have hb : isBoundary (Alignment.addPoint l.alignment p).2
      (Alignment.addPoint l.alignment p).1.length = false := by
    have hs := h.inv.align
    unfold Alignment.addPoint at hr hi hlt ⊢
    cases hsp : searchPos AlignmentPoint.station p.station l.alignment with
    | none => rw [hsp] at hr; simp at hr
    | some j =>
      rw [hsp] at hlt hi
      have hle := searchPos_le _ hsp
      have hlen : 0 < l.alignment.length := List.length_pos_of_mem (head_mem hf)
      have hj0 : j ≠ 0 := by
        rintro rfl
        have h3 := searchPos_gt _ hs hsp
        have : p.station < first.station := by
          have h4 : first = l.alignment[0] := by
            rw [List.head?_eq_getElem?, List.getElem?_eq_getElem hlen] at hf
            exact (Option.some.inj hf).symm
          rw [h4]
          apply h3
          simp
        exact absurd this (not_lt.mpr h1.le)
      have hjl : j ≠ l.alignment.length := by
        rintro rfl
        have h3 := searchPos_lt _ hsp
        have := h3 last (by simpa using last_mem hl)
        exact absurd this (not_lt.mpr h2.le)
      simp only [isBoundary, List.length_insertIdx_of_le_length hle, Bool.or_eq_false_iff,
        decide_eq_false_iff_not]
      omega
  unfold Line.deleteAlignmentPoint
  simp only [hb, Bool.and_false]
  rw [hi]
  simp only [Alignment.deletePoint, validIndex_natCast.mpr hlt, if_true, Int.toNat_natCast, her]
  simp

/-- C143 is false as stated for alignment points, first: a structure that `ModifyLineStructure` has put
beyond the last alignment point survives adding an alignment point and is lost when that point is deleted
again. -/
theorem C143_alignment_fails : ∃ l l' l'' : Line ℚ, Reachable l ∧
    l.addAlignmentPoint ⟨0, 0, 200⟩ = .ok l' 3 ∧ l'.deleteAlignmentPoint noExt 3 = .ok l'' true ∧
    l''.alignment = l.alignment ∧ l.structures.length = 3 ∧ l''.structures.length = 2 := by
  refine ⟨⟨[⟨0, 0, 0⟩, ⟨0, 0, 50⟩, ⟨0, 0, 100⟩],
     [(12, exampleStructure 10), (13, exampleStructure 50), (11, exampleStructure (201 / 2))], []⟩,
    ⟨[⟨0, 0, 0⟩, ⟨0, 0, 50⟩, ⟨0, 0, 100⟩, ⟨0, 0, 200⟩],
     [(12, exampleStructure 10), (13, exampleStructure 50), (11, exampleStructure (201 / 2))], []⟩,
    ⟨[⟨0, 0, 0⟩, ⟨0, 0, 50⟩, ⟨0, 0, 100⟩],
     [(12, exampleStructure 10), (13, exampleStructure 50)], []⟩,
    reachable_exec (ext := noExt) .empty
      (exampleLineOps ++ [.modifyLineStructure 2 (exampleStructure (201 / 2))]) (by decide +kernel), ?_⟩
  decide +kernel

/-- C143 is false as stated for alignment points, second: deleting the only alignment point reads the
first element of an empty list. -/
theorem C143_first_point_fails (p : AlignmentPoint K) (ext : Heap K) :
    ∃ l', (Line.empty : Line K).addAlignmentPoint p = .ok l' 0 ∧ l'.deleteAlignmentPoint ext 0 = .ub :=
  ⟨⟨[p], [], []⟩, rfl, rfl⟩

/-- Non-vacuity of C143: one accepted addition of each kind on the example line, and its undoing. -/
example : ∃ l1 l2 l3 : Line ℚ,
    exampleLine.addLineStructure 20 (exampleStructure 70) = .ok l1 2 ∧
    l1.deleteLineStructure noExt 2 = .ok exampleLine true ∧
    exampleLine.addAlignmentPoint ⟨3, 0, 200⟩ = .ok l2 3 ∧
    l2.deleteAlignmentPoint noExt 3 = .ok exampleLine true ∧
    exampleLine.addAlignmentPoint ⟨3, 0, 20⟩ = .ok l3 1 ∧
    l3.deleteAlignmentPoint noExt 1 = .ok exampleLine true := by
  refine ⟨⟨exampleLine.alignment, exampleLine.structures.insertIdx 2 (20, exampleStructure 70),
    exampleLine.cables⟩, ⟨exampleLine.alignment ++ [⟨3, 0, 200⟩], exampleLine.structures,
    exampleLine.cables⟩, ⟨exampleLine.alignment.insertIdx 1 ⟨3, 0, 20⟩, exampleLine.structures,
    exampleLine.cables⟩, ?_⟩
  decide +kernel

example : ReachableInside exampleLine ∧ exampleLine.alignment ≠ [] := by
  refine ⟨?_, by decide⟩
  have h0 : ReachableInside (Line.empty : Line ℚ) := .empty
  have h1 : ReachableInside (K := ℚ) ⟨[⟨0, 0, 0⟩], [], []⟩ :=
    .step (.addAlignmentPoint ⟨0, 0, 0⟩) noExt h0 trivial trivial (by decide +kernel)
  have h2 : ReachableInside (K := ℚ) ⟨[⟨0, 0, 0⟩, ⟨0, 0, 100⟩], [], []⟩ :=
    .step (.addAlignmentPoint ⟨0, 0, 100⟩) noExt h1 trivial trivial (by decide +kernel)
  have h3 : ReachableInside (K := ℚ) ⟨exampleLine.alignment, [], []⟩ :=
    .step (.addAlignmentPoint ⟨0, 0, 50⟩) noExt h2 trivial trivial (by decide +kernel)
  have h4 : ReachableInside (K := ℚ) ⟨exampleLine.alignment, [(11, exampleStructure 90)], []⟩ :=
    .step (.addLineStructure 11 (exampleStructure 90)) noExt h3 (preB_spec (by decide +kernel)) trivial
      (by decide +kernel)
  have h5 : ReachableInside (K := ℚ) ⟨exampleLine.alignment,
      [(12, exampleStructure 10), (11, exampleStructure 90)], []⟩ :=
    .step (.addLineStructure 12 (exampleStructure 10)) noExt h4 (preB_spec (by decide +kernel)) trivial
      (by decide +kernel)
  have h6 : ReachableInside (K := ℚ) ⟨exampleLine.alignment, exampleLine.structures, []⟩ :=
    .step (.addLineStructure 13 (exampleStructure 50)) noExt h5 (preB_spec (by decide +kernel)) trivial
      (by decide +kernel)
  have h7 : ReachableInside (K := ℚ) ⟨exampleLine.alignment, exampleLine.structures,
      [⟨[⟨12, 1⟩, ⟨13, 0⟩], 8⟩]⟩ :=
    .step (.addLineCable ⟨[⟨12, 1⟩, ⟨13, 0⟩], 8⟩) noExt h6 (preB_spec (by decide +kernel)) trivial
      (by decide +kernel)
  exact .step (.addLineCable ⟨[⟨12, 0⟩, ⟨13, 1⟩, ⟨11, 0⟩], 7⟩) noExt h7
    (preB_spec (by decide +kernel)) trivial (by decide +kernel)

/-! ### C144: submitting what is there already -/

/-- C144 for alignment points, what holds: if the structures were put on the alignment, a
`ModifyAlignmentPoint` with the point's present value returns its index and changes nothing. -/
theorem C144_alignment_partial {l : Line K} (h : ReachableInside l) (ext : Heap K) (i : Nat)
    (hi : i < l.alignment.length) :
    l.modifyAlignmentPoint ext (i : Int) l.alignment[i] = .ok l (i : Int) := by
  have hv := validIndex_natCast.mpr hi
  have hs := h.reachable.inv.align
  have hadd := Alignment.addPoint_restore hi hs
  have hmod : Alignment.modifyPoint l.alignment (i : Int) l.alignment[i] = (l.alignment, (i : Int)) := by
    have hadd2 : (Alignment.addPoint (l.alignment.eraseIdx i) l.alignment[i]).2 = (i : Int) := by
      unfold Alignment.addPoint
      rw [searchPos_eraseIdx AlignmentPoint.station hi hs]
      simp
    rw [Alignment.modifyPoint_of_valid _ hv hs, Int.toNat_natCast, hadd2, if_neg (by omega)]
    exact Prod.ext hadd hadd2
  unfold Line.modifyAlignmentPoint
  simp only [hmod]
  have hne : l.alignment ≠ [] := List.ne_nil_of_length_pos (by omega)
  split
  · exact cleanUp_inside ext h.reachable.inv.core _ hne h.allInside
  · rfl

/-- C144 for alignment points is false as stated: a structure beyond the last alignment point is lost. -/
theorem C144_alignment_fails : ∃ l l' : Line ℚ, Reachable l ∧ ∃ p, l.alignment[2]? = some p ∧
    l.modifyAlignmentPoint noExt 2 p = .ok l' 2 ∧ l.structures.length = 3 ∧
    l'.structures.length = 2 := by
  refine ⟨⟨[⟨0, 0, 0⟩, ⟨0, 0, 50⟩, ⟨0, 0, 100⟩],
     [(12, exampleStructure 10), (13, exampleStructure 50), (11, exampleStructure (201 / 2))], []⟩,
    ⟨[⟨0, 0, 0⟩, ⟨0, 0, 50⟩, ⟨0, 0, 100⟩],
     [(12, exampleStructure 10), (13, exampleStructure 50)], []⟩,
    reachable_exec (ext := noExt) .empty
      (exampleLineOps ++ [.modifyLineStructure 2 (exampleStructure (201 / 2))]) (by decide +kernel),
    ⟨0, 0, 100⟩, ?_⟩
  decide +kernel

/-- C144 for structures: a `ModifyLineStructure` with the structure that is there already succeeds and
changes nothing (the structure has a base, without which the call is undefined). -/
theorem C144_structure {l : Line K} (h : Reachable l) (ext : Heap K) (i : Nat)
    (hi : i < l.structures.length) (hb : (l.structures[i]).2.base ≠ none) :
    l.modifyLineStructure ext (i : Int) (l.structures[i]).2 = .ok l true := by
  have hset : l.structures.set i ((l.structures[i]).1, (l.structures[i]).2) = l.structures := by
    simp
  rcases modifyLineStructure_cases ext h.inv (i : Int) (l.structures[i]).2
    (h.inv.core.wf _ (List.getElem_mem hi)) with h1 | ⟨j, hj, hij, -, -, ⟨h1, -⟩ | ⟨t, ht, h2⟩⟩
  · exfalso
    have hso := h.inv.core.sorted
    obtain ⟨f, b, hf, hl, hlo, hhi⟩ := h.inv.range _ (List.getElem_mem hi)
    rcases (C83_modify_rejected_iff h ext _ _).mp h1 with h2 | ⟨f', b', hf', hl', h2 | h2⟩
    · exact h2 ⟨by omega, by omega⟩
    · rw [hf] at hf'; cases hf'
      by_cases h0 : i = 0
      · rw [if_pos (by omega)] at h2
        exact absurd hlo (not_lt.mpr h2)
      · rw [if_neg (by omega), Int.toNat_natCast, List.getElem?_eq_getElem (by omega)] at h2
        have := List.pairwise_iff_getElem.mp hso (i - 1) i (by omega) hi (by omega)
        simp only [Option.map_some, Option.getD_some] at h2
        exact absurd this (not_lt.mpr h2)
    · rw [hl] at hl'; cases hl'
      by_cases h0 : (i : Int) + 1 = l.structures.length
      · rw [if_pos h0] at h2
        exact absurd hhi (not_lt.mpr h2)
      · rw [if_neg h0, Int.toNat_natCast, List.getElem?_eq_getElem (by omega)] at h2
        have := List.pairwise_iff_getElem.mp hso i (i + 1) hi (by omega) (by omega)
        simp only [Option.map_some, Option.getD_some] at h2
        exact absurd this (not_lt.mpr h2)
  · exact absurd h1 hb
  · obtain rfl : i = j := by omega
    simp only [hset] at h2
    have hfil : filterCables (fun c => !(decide (c.ptr = (l.structures[i]).1) &&
            decide ((t.attachments.length : Int) ≤ c.attachment))) l.cables = l.cables := by
      conv_rhs => rw [← filterCables_true l.cables]
      apply filterCables_congr
      intro k hk c hc
      obtain ⟨s, hs, h0, hw, hh⟩ := C14_no_dangling_connection h k hk c hc
      by_cases hp : c.ptr = (l.structures[i]).1
      · have e1 := lookup_of_mem h.inv.core.nodup hs
        have e2 := lookup_getElem h.inv.core.nodup hi
        rw [hp, e2] at e1
        cases e1
        have hwf := h.inv.core.wf _ (List.getElem_mem hi)
        unfold LineStructure.Wf at hwf
        rw [ht] at hwf
        simp only at hwf
        have hlt : c.attachment.toNat < (l.structures[i]).2.hardwares.length := by
          by_contra hno
          rw [List.getElem?_eq_none (by omega)] at hh; cases hh
        simp only [Bool.not_eq_true', Bool.and_eq_false_iff, decide_eq_false_iff_not]
        right; omega
      · simp [hp]
    rw [hfil, filter_enough_core h.inv.core] at h2
    rcases h2 with ⟨-, h2⟩ | ⟨h2, -⟩
    · exact h2
    · exact absurd (fun k hk _ => (h.inv.core.cablesOk k hk).2.2) h2

/-- C144 for a structure without a base, which `AddLineStructure` accepts: the call reads through a null
pointer. -/
theorem C144_structure_fails : ∃ l : Line ℚ, Reachable l ∧ ∃ e, l.structures[0]? = some e ∧
    l.modifyLineStructure noExt 0 e.2 = .ub := by
  refine ⟨⟨[⟨0, 0, 0⟩, ⟨0, 0, 100⟩], [(5, ⟨[], 0, 0, 0, 10, none⟩)], []⟩,
    reachable_exec (ext := noExt) .empty [.addAlignmentPoint ⟨0, 0, 0⟩, .addAlignmentPoint ⟨0, 0, 100⟩,
      .addLineStructure 5 ⟨[], 0, 0, 0, 10, none⟩] (by decide +kernel), _, rfl, ?_⟩
  decide +kernel

/-- C144 for cables is false as stated: a `ModifyLineCable` with the cable that is there already can
change the order of the cables, so indices the caller holds now mean other cables. -/
theorem C144_cable_fails : ∃ l l' : Line ℚ, Reachable l ∧ ∃ a b, l.cables = [a, b] ∧ a ≠ b ∧
    l.modifyLineCable noExt 0 a = .ok l' 1 ∧ l'.cables = [b, a] := by
  refine ⟨{ exampleLine with cables := [⟨[⟨13, 0⟩, ⟨11, 0⟩], 7⟩, ⟨[⟨12, 0⟩, ⟨13, 1⟩], 8⟩] },
    { exampleLine with cables := [⟨[⟨12, 0⟩, ⟨13, 1⟩], 8⟩, ⟨[⟨13, 0⟩, ⟨11, 0⟩], 7⟩] },
    reachable_exec (ext := noExt) .empty (exampleLineOps ++ [.addLineCable ⟨[⟨13, 0⟩, ⟨11, 0⟩], 7⟩,
      .addLineCable ⟨[⟨12, 0⟩, ⟨13, 1⟩], 8⟩]) (by decide +kernel),
    ⟨[⟨13, 0⟩, ⟨11, 0⟩], 7⟩, ⟨[⟨12, 0⟩, ⟨13, 1⟩], 8⟩, rfl, ?_⟩
  decide +kernel

/-- C144 for cables, what holds: a `ModifyLineCable` with the cable that is there already succeeds; the
alignment, the structures and, up to their order, the cables are the same, and the returned index is where
the cable is now. -/
theorem C144_cable_partial {l : Line K} (h : Reachable l) (ext : Heap K) (i : Nat)
    (hi : i < l.cables.length) :
    ∃ l', ∃ j : Nat, l.modifyLineCable ext (i : Int) l.cables[i] = .ok l' (j : Int) ∧
      l'.alignment = l.alignment ∧ l'.structures = l.structures ∧ l'.cables.Perm l.cables ∧
      l'.cables[j]? = some l.cables[i] := by
  have hacc := (readd_accepts ext h.inv.core hi).1
  rcases modifyLineCable_cases ext h.inv.core hi l.cables[i] with
    ⟨hn, -⟩ | ⟨hn, -⟩ | ⟨hn, -⟩ | ⟨-, j, hj, h1⟩
  · exact absurd hacc hn
  · exact absurd hacc hn
  · exact absurd hacc hn
  · refine ⟨_, j, h1, rfl, rfl, ?_, ?_⟩
    · refine (List.perm_insertIdx _ _ hj).trans ?_
      conv_rhs => rw [← insertIdx_eraseIdx_self hi]
      exact (List.perm_insertIdx _ _ (by rw [List.length_eraseIdx_of_lt hi]; omega)).symm
    · simp only
      rw [List.getElem?_insertIdx_self]
      simp only at hj
      simp [hj]

/-- Non-vacuity of C144. -/
example : exampleLine.modifyLineStructure noExt 1 (exampleStructure 50) = .ok exampleLine true ∧
    exampleLine.modifyAlignmentPoint noExt 2 ⟨0, 0, 100⟩ = .ok exampleLine 2 ∧
    exampleLine.modifyLineCable noExt 1 ⟨[⟨12, 1⟩, ⟨13, 0⟩], 8⟩ = .ok exampleLine 1 := by
  decide +kernel

end Verif.Props
