import Verif.Props.LineOrigin

/-!
# C162: a coordinate depends on its own part of the line only
-/

set_option linter.unusedSectionVars false

namespace Verif.Props
open Verif.GLine Verif.Geo

theorem alignmentLoop_append (prev : AlignmentPoint ℝ) (o : P3) (v : V2) (ps t : List (AlignmentPoint ℝ)) :
    ∃ R, alignmentLoop prev o v (ps ++ t) = alignmentLoop prev o v ps ++ R := by
  induction ps generalizing prev o v with
  | nil => exact ⟨_, rfl⟩
  | cons q qs ih =>
    obtain ⟨R, h⟩ := ih q (fromVector o (q.station - prev.station) (q.elevation - prev.elevation) prev.rotation v).1
      (fromVector o (q.station - prev.station) (q.elevation - prev.elevation) prev.rotation v).2
    exact ⟨R, by simp only [List.cons_append, alignmentLoop, h]⟩

theorem pointsAlignment_append (o : P3) {pre : List (AlignmentPoint ℝ)} (hp : pre ≠ []) (t : List (AlignmentPoint ℝ)) :
    ∃ R, pointsAlignment o (pre ++ t) = pointsAlignment o pre ++ R := by
  cases pre with
  | nil => exact absurd rfl hp
  | cons q qs =>
    obtain ⟨R, h⟩ := alignmentLoop_append q o ⟨1, 0⟩ qs t
    exact ⟨R, by simp only [List.cons_append, pointsAlignment, h]⟩

theorem segmentPos_append {s : ℝ} {pre : List (AlignmentPoint ℝ)} (t : List (AlignmentPoint ℝ))
    (h : ∃ q ∈ pre, s ≤ q.station) : Alignment.segmentPos s (pre ++ t) = Alignment.segmentPos s pre := by
  induction pre with
  | nil => simp at h
  | cons q qs ih =>
    simp only [List.cons_append, Alignment.segmentPos]
    split_ifs with h1
    · rfl
    · rw [ih]
      obtain ⟨r, hr, h⟩ := h
      rcases List.mem_cons.1 hr with rfl | hr
      · exact absurd h h1
      · exact ⟨r, hr, h⟩

/-- Looking up a station does not depend on the points past the first one at or beyond it. -/
theorem indexSegment_append {s : ℝ} {pre t : List (AlignmentPoint ℝ)} (hS : Alignment.Sorted (pre ++ t))
    {q : AlignmentPoint ℝ} (hq : pre.getLast? = some q) (hs : s ≤ q.station) :
    Alignment.indexSegment (pre ++ t) s = Alignment.indexSegment pre s := by
  have hm : q ∈ pre := List.mem_of_getLast? hq
  have hne : pre ≠ [] := by rintro rfl; simp at hm
  obtain ⟨f, qs, rfl⟩ := List.exists_cons_of_ne_nil hne
  have h1 : ∃ b, (f :: qs ++ t).getLast? = some b ∧ s ≤ b.station := by
    rcases List.eq_nil_or_concat t with rfl | ⟨t', b, rfl⟩
    · exact ⟨q, by simpa using hq, hs⟩
    · refine ⟨b, by rw [List.getLast?_append]; simp, ?_⟩
      have := (List.pairwise_append.1 hS).2.2 q hm b (by simp)
      linarith
  obtain ⟨b, hb, hsb⟩ := h1
  unfold Alignment.indexSegment Alignment.isValidStation
  rw [hb, hq, segmentPos_append t ⟨q, hm, hs⟩]
  simp [hs, hsb]

/-- The segment found lies within the part. -/
theorem indexSegment_within {s : ℝ} {pre : List (AlignmentPoint ℝ)} (hS : Alignment.Sorted pre) (h2 : 2 ≤ pre.length)
    {q : AlignmentPoint ℝ} (hq : pre.getLast? = some q) (hs : s ≤ q.station) :
    Alignment.indexSegment pre s = .val (-1) ∨ ∃ i : ℕ, Alignment.indexSegment pre s = .val i ∧
      ∃ hi : i + 1 < pre.length, (pre[i]'(by omega)).station ≤ s ∧ s ≤ (pre[i + 1]).station ∧
        (i = 0 ∨ (pre[i]'(by omega)).station < s) := by
  by_cases h : OnAlignment pre s
  · right
    obtain ⟨f, b, hf, hb, h1, h2⟩ := h
    have e1 : f = pre[0]'(by omega) := by
      rw [List.head?_eq_getElem?] at hf
      exact ((List.getElem?_eq_some_iff.1 hf).2).symm
    have e2 : b = pre[pre.length - 1]'(by omega) := by
      rw [List.getLast?_eq_getElem?] at hb
      exact ((List.getElem?_eq_some_iff.1 hb).2).symm
    obtain ⟨i, hi, hx, g1, g2, g3⟩ := Alignment.segment_found hS (by omega) s (by rw [← e1]; exact h1)
      (by rw [← e2]; exact h2)
    exact ⟨i, hx, hi, g1, g2, g3⟩
  · rcases indexSegment_off h with h | h
    · exfalso
      have hne : pre ≠ [] := by rintro rfl; simp at h2
      obtain ⟨f, qs, rfl⟩ := List.exists_cons_of_ne_nil hne
      unfold Alignment.indexSegment Alignment.isValidStation at h
      rw [hq] at h
      simp only [List.head?_cons] at h
      split at h <;> simp_all
      split at h <;> simp_all
    · exact Or.inl h

theorem vectorSegment_append {P : List P3} (R : List P3) {i : ℕ} (h : i + 1 < P.length) :
    vectorSegment (P ++ R) i = vectorSegment P i := by
  unfold vectorSegment
  simp only [Int.toNat_natCast]
  rw [List.getElem?_append_left (by omega), List.getElem?_append_left h]

theorem fromStation_append (o : P3) {s : ℝ} {pre t : List (AlignmentPoint ℝ)} (hS : Alignment.Sorted (pre ++ t))
    (h2 : 2 ≤ pre.length) {q : AlignmentPoint ℝ} (hq : pre.getLast? = some q) (hs : s ≤ q.station) :
    fromStation (pre ++ t) (pointsAlignment o (pre ++ t)) s = fromStation pre (pointsAlignment o pre) s := by
  have hne : pre ≠ [] := by rintro rfl; simp at h2
  have hS' : Alignment.Sorted pre := (List.pairwise_append.1 hS).1
  obtain ⟨R, hR⟩ := pointsAlignment_append o hne t
  have hl := pointsAlignment_length o pre
  unfold fromStation
  rw [hR, indexSegment_append hS hq hs]
  rcases indexSegment_within hS' h2 hq hs with h | ⟨i, h, hi, -, -⟩
  · rw [h]; rfl
  · rw [h]
    simp only [Int.toNat_natCast]
    rw [List.getElem?_append_left (by omega), List.getElem?_append_left (by omega),
      List.getElem?_append_left (by omega), List.getElem?_append_left (by omega)]
    have : ∀ x : Res (Option V2), (if (i : Int) = 0 then x else vectorSegment (pointsAlignment o pre ++ R) (i - 1)) =
        if (i : Int) = 0 then x else vectorSegment (pointsAlignment o pre) (i - 1) := by
      intro x
      split_ifs with h0
      · rfl
      · obtain ⟨j, rfl⟩ : ∃ j, i = j + 1 := ⟨i - 1, by omega⟩
        have : ((j + 1 : ℕ) : Int) - 1 = (j : Int) := by push_cast; omega
        rw [this, vectorSegment_append R (by omega)]
    rw [this]

theorem vectorStructure_append (o : P3) {s : ℝ} {pre t : List (AlignmentPoint ℝ)} (hS : Alignment.Sorted (pre ++ t))
    (h2 : 2 ≤ pre.length) {q : AlignmentPoint ℝ} (hq : pre.getLast? = some q) (hs : s < q.station) :
    vectorStructure (pre ++ t) (pointsAlignment o (pre ++ t)) s = vectorStructure pre (pointsAlignment o pre) s := by
  have hne : pre ≠ [] := by rintro rfl; simp at h2
  have hS' : Alignment.Sorted pre := (List.pairwise_append.1 hS).1
  obtain ⟨R, hR⟩ := pointsAlignment_append o hne t
  have hl := pointsAlignment_length o pre
  have hm : q ∈ pre := List.mem_of_getLast? hq
  have late : ∀ b ∈ t, s < b.station := fun b hb => hs.trans ((List.pairwise_append.1 hS).2.2 q hm b hb)
  have hlast : ∃ b, (pre ++ t).getLast? = some b ∧ s < b.station := by
    rcases List.eq_nil_or_concat t with rfl | ⟨t', b, rfl⟩
    · exact ⟨q, by simpa using hq, hs⟩
    · exact ⟨b, by simp [List.getLast?_append], late b (by simp)⟩
  obtain ⟨b, hb, hsb⟩ := hlast
  have hhead : (pre ++ t).head? = pre.head? := by cases pre with
    | nil => exact absurd rfl hne
    | cons a l => rfl
  have hany : (pre ++ t).any (fun p => decide (s = p.station)) = pre.any (fun p => decide (s = p.station)) := by
    rw [List.any_append]
    have : t.any (fun p => decide (s = p.station)) = false := by
      rw [List.any_eq_false]
      intro p hp h
      have := late p hp
      rw [decide_eq_true_eq] at h
      linarith
    rw [this, Bool.or_false]
  unfold vectorStructure
  rw [hR, indexSegment_append hS hq hs.le, hb, hq, hhead, hany]
  obtain ⟨f, qs, hf⟩ := List.exists_cons_of_ne_nil hne
  have hf' : pre.head? = some f := by rw [hf]; rfl
  rw [hf']
  simp only [hs.ne, hsb.ne, or_false]
  rcases indexSegment_within hS' h2 hq hs.le with h | ⟨i, h, hi, g1, g2, g3⟩
  · rw [h]
    have : ∀ P, vectorSegment P (-1) = .throws := fun P => by simp [vectorSegment]
    simp only [this]
  · rw [h]
    simp only
    rw [vectorSegment_append R (by omega)]
    by_cases c1 : s = f.station
    · rw [if_pos c1, if_pos c1]
    · rw [if_neg c1, if_neg c1]
      by_cases c2 : pre.any (fun p => decide (s = p.station)) = false
      · rw [if_pos c2, if_pos c2]
      · rw [if_neg c2, if_neg c2]
        have h3 : i + 2 < pre.length := by
          by_contra h3
          have : i + 1 = pre.length - 1 := by omega
          rw [List.any_eq_false] at c2
          push Not at c2
          obtain ⟨p, hp, c2⟩ := c2
          rw [decide_eq_true_eq] at c2
          obtain ⟨k, hk, rfl⟩ := List.getElem_of_mem hp
          have hql : q = pre[i + 1] := by
            rw [List.getLast?_eq_getElem?] at hq
            rw [← (List.getElem?_eq_some_iff.1 hq).2]
            congr 1
            omega
          have mono := fun a b ha hb hab => List.pairwise_iff_getElem.1 hS' a b ha hb hab
          rcases lt_trichotomy k i with c | c | c
          · have := mono k i hk (by omega) c
            linarith
          · subst c
            rcases g3 with rfl | g3
            · apply c1
              rw [c2]
              simp [hf]
            · linarith
          · have : k = i + 1 := by omega
            subst this
            rw [← hql] at c2
            linarith
        have : ((i : Int) + 1) = ((i + 1 : ℕ) : Int) := by push_cast; rfl
        rw [this, vectorSegment_append R (by omega)]

/-! ## The claim -/

/-- What the coordinates of a structure and its attachments depend on. -/
def SamePlace (s s' : LineStructure ℝ) : Prop :=
  s'.station = s.station ∧ s'.heightAdjustment = s.heightAdjustment ∧ s'.offset = s.offset ∧
    s'.rotation = s.rotation ∧ s'.base = s.base

/-- The answer of a query of a line with two alignment points or more after `set_origin`. -/
theorem query_origin {A : Type} {g : GLine} (hr : Reachable g) (h2 : 2 ≤ g.line.alignment.length) (o : P3)
    (f : GLine → Res A) : answer ((g.setOrigin o).query f) = f (updatedAt g o) := by
  rw [query_setOrigin, (structuresLoop_ok o hr.line.inv.align h2 g.stations).1]

theorem updated_structure {g : GLine} (hr : Reachable g) (h2 : 2 ≤ g.line.alignment.length) (o : P3) {i : ℕ}
    {ptr : Ptr} {s : LineStructure ℝ} (hs : g.line.structures[i]? = some (ptr, s)) :
    ∃ q, fromStation g.line.alignment (pointsAlignment o g.line.alignment) s.station = .val (some q) ∧
      (updatedAt g o).cacheS[i]? = some (some q) := by
  obtain ⟨hi, he⟩ := List.getElem?_eq_some_iff.mp hs
  have hl : i < g.stations.length := by simpa [stations] using hi
  obtain ⟨q, h1, h3⟩ := (structuresLoop_ok o hr.line.inv.align h2 g.stations).2 i hl
  have : g.stations[i] = s.station := by simp [stations, he]
  rw [this] at h1
  exact ⟨q, h1, h3⟩

theorem take_parts {l : List (AlignmentPoint ℝ)} {n : ℕ} {q : AlignmentPoint ℝ} (hn : 1 ≤ n)
    (hq : l[n - 1]? = some q) :
    l = l.take n ++ l.drop n ∧ (l.take n).length = n ∧ (l.take n).getLast? = some q := by
  obtain ⟨h1, h2⟩ := List.getElem?_eq_some_iff.mp hq
  have hl : (l.take n).length = n := by rw [List.length_take]; omega
  refine ⟨(List.take_append_drop n l).symm, hl, ?_⟩
  rw [List.getLast?_eq_getElem?, hl, List.getElem?_take_of_lt (by omega)]
  exact hq

theorem structure_local {g h : GLine} (hg : Reachable g) (hh : Reachable h) (l1 : 2 ≤ g.line.alignment.length)
    (l2 : 2 ≤ h.line.alignment.length) (o : P3) {i j : ℕ} {ptr ptr' : Ptr} {s s' : LineStructure ℝ}
    (hi : g.line.structures[i]? = some (ptr, s)) (hj : h.line.structures[j]? = some (ptr', s'))
    (he : s'.station = s.station)
    (hf : fromStation g.line.alignment (pointsAlignment o g.line.alignment) s.station =
      fromStation h.line.alignment (pointsAlignment o h.line.alignment) s.station) :
    answer ((g.setOrigin o).pointXyzLineStructure i) = answer ((h.setOrigin o).pointXyzLineStructure j) := by
  refine (query_origin hg l1 o _).trans (Eq.trans ?_ (query_origin hh l2 o _).symm)
  obtain ⟨a, a1, a2⟩ := updated_structure hg l1 o hi
  obtain ⟨b, b1, b2⟩ := updated_structure hh l2 o hj
  have v1 : validIndex (i : Int) g.line.structures.length = true :=
    validIndex_natCast.mpr (List.getElem?_eq_some_iff.mp hi).1
  have v2 : validIndex (j : Int) h.line.structures.length = true :=
    validIndex_natCast.mpr (List.getElem?_eq_some_iff.mp hj).1
  rw [hf, ← he, b1] at a1
  have a1 : b = a := by simpa using a1
  subst a1
  unfold structurePoint
  have e1 : (updatedAt g o).line = g.line := rfl
  have e2 : (updatedAt h o).line = h.line := rfl
  simp only [e1, e2, v1, v2, Int.toNat_natCast, a2, b2]

theorem attachment_local {g h : GLine} (hg : Reachable g) (hh : Reachable h) (l1 : 2 ≤ g.line.alignment.length)
    (l2 : 2 ≤ h.line.alignment.length) (o : P3) {i j : ℕ} {ptr ptr' : Ptr} {s s' : LineStructure ℝ}
    (hi : g.line.structures[i]? = some (ptr, s)) (hj : h.line.structures[j]? = some (ptr', s'))
    (he : SamePlace s s')
    (hf : fromStation g.line.alignment (pointsAlignment o g.line.alignment) s.station =
      fromStation h.line.alignment (pointsAlignment o h.line.alignment) s.station)
    (ev : vectorStructure g.line.alignment (pointsAlignment o g.line.alignment) s.station =
      vectorStructure h.line.alignment (pointsAlignment o h.line.alignment) s.station) (k : Int) :
    answer ((g.setOrigin o).pointXyzLineStructureAttachment i k) =
      answer ((h.setOrigin o).pointXyzLineStructureAttachment j k) := by
  refine (query_origin hg l1 o _).trans (Eq.trans ?_ (query_origin hh l2 o _).symm)
  obtain ⟨a, a1, a2⟩ := updated_structure hg l1 o hi
  obtain ⟨b, b1, b2⟩ := updated_structure hh l2 o hj
  have v1 : validIndex (i : Int) g.line.structures.length = true :=
    validIndex_natCast.mpr (List.getElem?_eq_some_iff.mp hi).1
  have v2 : validIndex (j : Int) h.line.structures.length = true :=
    validIndex_natCast.mpr (List.getElem?_eq_some_iff.mp hj).1
  obtain ⟨h1, h3, h4, h5, h6⟩ := he
  rw [hf, ← h1, b1] at a1
  have a1 : b = a := by simpa using a1
  subst a1
  unfold attachmentPoint
  have e1 : (updatedAt g o).line = g.line := rfl
  have e2 : (updatedAt h o).line = h.line := rfl
  have e3 : (updatedAt g o).cacheA = pointsAlignment o g.line.alignment := rfl
  have e4 : (updatedAt h o).cacheA = pointsAlignment o h.line.alignment := rfl
  simp only [e1, e2, e3, e4, v1, v2, Int.toNat_natCast, a2, b2, hi, hj, h1, h6, ev, attachmentLocal, h3, h4, h5]

section

variable {g h : GLine} (hg : Reachable g) (hh : Reachable h) {n : ℕ} (hn : 2 ≤ n)
  (hp : g.line.alignment.take n = h.line.alignment.take n) {q : AlignmentPoint ℝ}
  (hq : g.line.alignment[n - 1]? = some q)
include hn hp hq

theorem other_vertex : h.line.alignment[n - 1]? = some q := by
  have := congrArg (fun l => l[n - 1]?) hp
  rw [List.getElem?_take_of_lt (by omega), List.getElem?_take_of_lt (by omega), hq] at this
  exact this.symm

theorem both_long : 2 ≤ g.line.alignment.length ∧ 2 ≤ h.line.alignment.length := by
  obtain ⟨h1, -⟩ := List.getElem?_eq_some_iff.mp hq
  obtain ⟨h2, -⟩ := List.getElem?_eq_some_iff.mp (other_vertex hn hp hq)
  omega

include hg hh

/-- **C162**: the coordinates of the first alignment points depend on these points only: whatever follows may be
edited. -/
theorem C162_alignment (o : P3) : ∃ P Q, answer (g.setOrigin o).pointsXyzAlignment = .val P ∧
    answer (h.setOrigin o).pointsXyzAlignment = .val Q ∧ n ≤ P.length ∧ P.take n = Q.take n := by
  obtain ⟨l1, l2⟩ := both_long hn hp hq
  refine ⟨_, _, query_origin hg l1 o _, query_origin hh l2 o _, ?_, ?_⟩
  · show n ≤ (pointsAlignment o g.line.alignment).length
    obtain ⟨h1, -⟩ := List.getElem?_eq_some_iff.mp hq
    rw [pointsAlignment_length]
    omega
  · show (pointsAlignment o g.line.alignment).take n = (pointsAlignment o h.line.alignment).take n
    obtain ⟨a1, a2, -⟩ := take_parts (by omega) hq
    obtain ⟨b1, b2, -⟩ := take_parts (by omega) (other_vertex hn hp hq)
    have hne : g.line.alignment.take n ≠ [] := by intro h; rw [h] at a2; simp at a2; omega
    rw [a1, b1, ← hp]
    obtain ⟨R, hR⟩ := pointsAlignment_append o hne (g.line.alignment.drop n)
    obtain ⟨S, hS⟩ := pointsAlignment_append o hne (h.line.alignment.drop n)
    have hl := pointsAlignment_length o (g.line.alignment.take n)
    rw [hR, hS, List.take_append_of_le_length (by omega), List.take_append_of_le_length (by omega)]

theorem station_local (o : P3) {s : ℝ} (hs : s ≤ q.station) :
    fromStation g.line.alignment (pointsAlignment o g.line.alignment) s =
      fromStation h.line.alignment (pointsAlignment o h.line.alignment) s := by
  obtain ⟨a1, a2, a3⟩ := take_parts (by omega) hq
  obtain ⟨b1, b2, b3⟩ := take_parts (by omega) (other_vertex hn hp hq)
  rw [a1, b1, fromStation_append o (by rw [← a1]; exact hg.line.inv.align) (by omega) a3 hs,
    fromStation_append o (by rw [← b1]; exact hh.line.inv.align) (by omega) b3 hs, hp]

/-- C162: so does the point of every station up to the last of them. -/
theorem C162_station (o : P3) {s : ℝ} (hs : s ≤ q.station) :
    answer ((g.setOrigin o).pointXyzAlignment s) = answer ((h.setOrigin o).pointXyzAlignment s) := by
  obtain ⟨l1, l2⟩ := both_long hn hp hq
  refine (query_origin hg l1 o _).trans (Eq.trans ?_ (query_origin hh l2 o _).symm)
  exact station_local hg hh hn hp hq o hs

/-- C162: the point of a structure depends on its own station and on the alignment up to there: other structures,
cables and later alignment points may be edited. -/
theorem C162_structure (o : P3) {i j : ℕ} {ptr ptr' : Ptr} {s s' : LineStructure ℝ}
    (hi : g.line.structures[i]? = some (ptr, s)) (hj : h.line.structures[j]? = some (ptr', s'))
    (he : s'.station = s.station) (hs : s.station ≤ q.station) :
    answer ((g.setOrigin o).pointXyzLineStructure i) = answer ((h.setOrigin o).pointXyzLineStructure j) := by
  obtain ⟨l1, l2⟩ := both_long hn hp hq
  exact structure_local hg hh l1 l2 o hi hj he (station_local hg hh hn hp hq o hs)

/-- C162: the attachment points of a structure depend on the structure itself and on the alignment up to the next
point behind it. -/
theorem C162_attachment (o : P3) {i j : ℕ} {ptr ptr' : Ptr} {s s' : LineStructure ℝ}
    (hi : g.line.structures[i]? = some (ptr, s)) (hj : h.line.structures[j]? = some (ptr', s'))
    (he : SamePlace s s') (hs : s.station < q.station) (k : Int) :
    answer ((g.setOrigin o).pointXyzLineStructureAttachment i k) =
      answer ((h.setOrigin o).pointXyzLineStructureAttachment j k) := by
  obtain ⟨l1, l2⟩ := both_long hn hp hq
  refine attachment_local hg hh l1 l2 o hi hj he (station_local hg hh hn hp hq o hs.le) ?_ k
  obtain ⟨a1, a2, a3⟩ := take_parts (by omega) hq
  obtain ⟨b1, b2, b3⟩ := take_parts (by omega) (other_vertex hn hp hq)
  rw [a1, b1, vectorStructure_append o (by rw [← a1]; exact hg.line.inv.align) (by omega) a3 hs,
    vectorStructure_append o (by rw [← b1]; exact hh.line.inv.align) (by omega) b3 hs, hp]

end

/-- C162: with the same alignment, the points of a structure and its attachments are the same wherever the structure
stands, at or past the ends included. -/
theorem C162_same_alignment {g h : GLine} (hg : Reachable g) (hh : Reachable h)
    (h2 : 2 ≤ g.line.alignment.length) (hp : h.line.alignment = g.line.alignment) (o : P3) {i j : ℕ} {ptr ptr' : Ptr}
    {s s' : LineStructure ℝ} (hi : g.line.structures[i]? = some (ptr, s))
    (hj : h.line.structures[j]? = some (ptr', s')) (he : SamePlace s s') :
    answer ((g.setOrigin o).pointXyzLineStructure i) = answer ((h.setOrigin o).pointXyzLineStructure j) ∧
    ∀ k, answer ((g.setOrigin o).pointXyzLineStructureAttachment i k) =
      answer ((h.setOrigin o).pointXyzLineStructureAttachment j k) :=
  ⟨structure_local hg hh h2 (by rw [hp]; exact h2) o hi hj he.1 (by rw [hp]),
    attachment_local hg hh h2 (by rw [hp]; exact h2) o hi hj he (by rw [hp]) (by rw [hp])⟩

/-- The line of the example with one more alignment point at its end. -/
noncomputable def exLonger : Line ℝ := ⟨[⟨0, 0, 0⟩, ⟨10, 0, 100⟩, ⟨20, 30, 200⟩], [(1, exStructure)], []⟩

theorem exLonger_step (g : GLine) (hg : g.line = exLine1) :
    Event.next g (.edit noHeap (.addAlignmentPoint ⟨20, 30, 200⟩)) =
      some ⟨exLonger, g.origin, false, false, g.cacheA, g.cacheS⟩ := by
  have h2 : ¬ ((200 : ℝ) < 0) := by norm_num
  have h3 : ¬ ((200 : ℝ) < 100) := by norm_num
  simp [Event.next, edit, Line.Op.apply, Line.addAlignmentPoint, Alignment.addPoint, searchPos, h2, h3, hg, exLine1,
    exLine, Line.wrap, edited, resets, Outcome.state?, exLonger]

/-- Two lines that differ in what follows the structure. -/
example : ∃ g h : GLine, Reachable g ∧ Reachable h ∧ g.line.alignment.length ≠ h.line.alignment.length ∧
    ∀ k, answer ((g.setOrigin ⟨1, 2, 3⟩).pointXyzLineStructureAttachment (0 : ℕ) k) =
      answer ((h.setOrigin ⟨1, 2, 3⟩).pointXyzLineStructureAttachment (0 : ℕ) k) := by
  set g0 : GLine := ⟨exLine, ⟨0, 0, 0⟩, false, false, [], []⟩ with hg0
  have hr0 : Reachable g0 := ⟨_, exEdits_runs⟩
  have hr1 := reachable_step hr0 _ (exAdd_pre g0 rfl) (exAdd g0 rfl)
  have hr2 := reachable_step hr1 (.edit noHeap (.addAlignmentPoint ⟨20, 30, 200⟩)) trivial (exLonger_step _ rfl)
  refine ⟨_, _, hr1, hr2, by simp [exLine1, exLine, exLonger],
    C162_attachment (q := ⟨10, 0, 100⟩) hr1 hr2 (n := 2) le_rfl (by simp [exLine1, exLine, exLonger]) rfl _ rfl rfl
      ⟨rfl, rfl, rfl, rfl, rfl⟩ ?_⟩
  norm_num [exStructure]

end Verif.Props
