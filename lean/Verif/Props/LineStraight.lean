import Verif.LineStraight
import Verif.Props.LineOrigin

/-!
# An alignment point put on a straight segment (C148)
-/

set_option linter.unusedSectionVars false

namespace Verif.Props
open Verif.GLine Verif.Geo

theorem query_uncached_setOrigin {A : Type} (g : GLine) (f : GLine → Res A) :
    answer ((uncached g).query f) =
      match (structuresLoop g.line.alignment (pointsAlignment g.origin g.line.alignment) g.stations).2 with
      | .val _ => f (updatedAt g g.origin)
      | .throws => .throws
      | .ub => .ub := query_setOrigin (uncached g) g.origin f

/-- The new point adds nothing: it lies strictly between its neighbours, at the elevation of the straight
segment between them, and does not turn the line. -/
def AddsNothing (al : List (AlignmentPoint ℝ)) (m : AlignmentPoint ℝ) : Prop :=
  ∃ (k : ℕ) (a b : AlignmentPoint ℝ), al[k]? = some a ∧ al[k + 1]? = some b ∧
    a.station < m.station ∧ m.station < b.station ∧ m.rotation = 0 ∧
    (m.elevation - a.elevation) * (b.station - a.station) = (b.elevation - a.elevation) * (m.station - a.station)

theorem addPoint_between {al : List (AlignmentPoint ℝ)} (hs : Alignment.Sorted al) {m : AlignmentPoint ℝ} {k : ℕ}
    (hk : k + 1 < al.length) (h1 : (al[k]'(by omega)).station < m.station) (h2 : m.station < (al[k + 1]'hk).station) :
    Alignment.addPoint al m = (al.insertIdx (k + 1) m, ((k + 1 : ℕ) : Int)) := by
  have hne : (Alignment.addPoint al m).2 ≠ -1 := by
    rw [ne_eq, Alignment.addPoint_eq_neg_one m hs]
    rintro ⟨q, hq, e⟩
    obtain ⟨n, hn, rfl⟩ := List.getElem_of_mem hq
    rcases Nat.lt_or_ge k n with h' | h'
    · rcases Nat.lt_or_eq_of_le h' with h'' | h''
      · have := List.pairwise_iff_getElem.mp hs (k + 1) n hk hn h''; linarith
      · subst h''
        have e' : (al[k + 1]'hk).station = m.station := e
        linarith
    · rcases Nat.lt_or_eq_of_le h' with h'' | h''
      · have := List.pairwise_iff_getElem.mp hs n k hn (by omega) h''; linarith
      · subst h''; linarith
  have hs2 := Alignment.addPoint_sorted m hs
  obtain ⟨i, -, hi, e1, e2⟩ := Alignment.addPoint_success m hne
  have hlen : (al.insertIdx i m).length = al.length + 1 := List.length_insertIdx_of_le_length hi _
  rw [e2] at hs2
  have hik : i = k + 1 := by
    have hmi : (al.insertIdx i m)[i]'(by omega) = m := by simp [List.getElem_insertIdx]
    rcases Nat.lt_trichotomy i (k + 1) with h | h | h
    · -- inserted before or at k
      have := List.pairwise_iff_getElem.mp hs2 i (k + 1) (by omega) (by omega) (by omega)
      rw [hmi] at this
      simp only [List.getElem_insertIdx, show ¬ k + 1 < i by omega, dif_neg, not_false_eq_true,
        show ¬ k + 1 = i by omega, Nat.add_sub_cancel] at this
      linarith
    · exact h
    · have := List.pairwise_iff_getElem.mp hs2 (k + 1) i (by omega) (by omega) h
      rw [hmi] at this
      simp only [List.getElem_insertIdx, h, dif_pos] at this
      linarith
  subst hik
  exact Prod.ext e2 e1

/-- C148: `AddAlignmentPoint` with a point that lies on the straight segment between its neighbours and
does not turn the line changes no coordinate: every station, every structure and every attachment has
the coordinates that the line would give without the point (computed afresh), and the alignment points
are the same with the one point more, which lies where its station was before. -/
theorem C148_straight {g : GLine} (hr : Reachable g) {ext : Heap ℝ} {m : AlignmentPoint ℝ}
    (h : AddsNothing g.line.alignment m) :
    ∃ g' i, g.edit ext (.addAlignmentPoint m) = .ok g' (.int (i : ℕ)) ∧
      g'.line.alignment.length = g.line.alignment.length + 1 ∧
      (∀ s, answer (g'.pointXyzAlignment s) = answer ((uncached g).pointXyzAlignment s)) ∧
      answer g'.pointsXyzLineStructures = answer (uncached g).pointsXyzLineStructures ∧
      (∀ n, answer (g'.pointXyzLineStructure n) = answer ((uncached g).pointXyzLineStructure n)) ∧
      (∀ n j, answer (g'.pointXyzLineStructureAttachment n j) =
        answer ((uncached g).pointXyzLineStructureAttachment n j)) ∧
      (∃ pts p, answer (uncached g).pointsXyzAlignment = .val pts ∧
        answer ((uncached g).pointXyzAlignment m.station) = .val (some p) ∧
        answer g'.pointsXyzAlignment = .val (pts.insertIdx i p)) := by
  obtain ⟨k, a, b, ha, hb, h1, h2, h3, h4⟩ := h
  obtain ⟨hk, hb'⟩ := List.getElem?_eq_some_iff.mp hb
  obtain ⟨hk0, ha'⟩ := List.getElem?_eq_some_iff.mp ha
  have hs := hr.line.inv.align
  have hbtw : Between (g.line.alignment[k]'hk0) m (g.line.alignment[k + 1]'hk) := by
    rw [ha', hb']; exact ⟨h1, h2, h3, h4⟩
  have hadd := addPoint_between hs hk hbtw.lo hbtw.hi
  have hs2 : Alignment.Sorted (g.line.alignment.insertIdx (k + 1) m) := by
    have := Alignment.addPoint_sorted m hs
    rw [hadd] at this; exact this
  set g' : GLine := ⟨⟨g.line.alignment.insertIdx (k + 1) m, g.line.structures, g.line.cables⟩, g.origin, false, false,
    g.cacheA, g.cacheS⟩ with hg'
  have hedit : g.edit ext (.addAlignmentPoint m) = .ok g' (.int ((k + 1 : ℕ) : Int)) := by
    simp only [edit, Line.Op.apply, Line.addAlignmentPoint, Line.wrap, hadd, edited, resets, Bool.not_true,
      Bool.and_false, hg']
  have hst : g'.stations = g.stations := rfl
  have hF := insert_fromStation g.origin hs hs2 hk hbtw
  have hV := insert_vectorStructure g.origin hs hs2 hk hbtw
  have hL : ∀ ss, structuresLoop (g.line.alignment.insertIdx (k + 1) m)
      (pointsAlignment g.origin (g.line.alignment.insertIdx (k + 1) m)) ss =
      structuresLoop g.line.alignment (pointsAlignment g.origin g.line.alignment) ss := by
    intro ss
    induction ss with
    | nil => rfl
    | cons s ss ih => simp only [structuresLoop, hF, ih]
  have q1 : ∀ {A : Type} (f : GLine → Res A), answer (g'.query f) =
      match (structuresLoop g.line.alignment (pointsAlignment g.origin g.line.alignment) g.stations).2 with
      | .val _ => f (updatedAt g' g.origin)
      | .throws => .throws
      | .ub => .ub := by
    intro A f
    have := query_setOrigin g' g.origin f
    have e : g'.setOrigin g.origin = g' := rfl
    rw [e] at this
    rw [this]
    simp only [hg']
    rw [hL]
    rfl
  have hq : ∀ {A : Type} (f : GLine → Res A), f (updatedAt g' g.origin) = f (updatedAt g g.origin) →
      answer (g'.query f) = answer ((uncached g).query f) := by
    intro A f hf
    rw [q1, query_uncached_setOrigin, hf]
  have hcS : (updatedAt g' g.origin).cacheS = (updatedAt g g.origin).cacheS := by
    simp only [updatedAt, hg', stations, hL]
  obtain ⟨hok, -⟩ := structuresLoop_ok g.origin hs (by omega) g.stations
  have hpm : ∃ p, answer ((uncached g).pointXyzAlignment m.station) = .val (some p) ∧
      p = lerp ((pointsAlignment g.origin g.line.alignment).getD k P3.default)
        ((pointsAlignment g.origin g.line.alignment).getD (k + 1) P3.default)
        (fraction (g.line.alignment[k]'hk0) m (g.line.alignment[k + 1]'hk)) := by
    have le : ∀ i j (hi : i < g.line.alignment.length) (hj : j < g.line.alignment.length), i ≤ j →
        (g.line.alignment[i]).station ≤ (g.line.alignment[j]).station := by
      intro i j hi hj hij
      rcases Nat.lt_or_eq_of_le hij with h' | h'
      · exact (List.pairwise_iff_getElem.mp hs i j hi hj h').le
      · subst h'; exact le_rfl
    have b1 := le 0 k (by omega) hk0 (by omega)
    have b2 := le (k + 1) (g.line.alignment.length - 1) hk (by omega) (by omega)
    have hlo := hbtw.lo
    have hhi := hbtw.hi
    obtain ⟨i, hi, -, i1, i2, ei⟩ := fromStation_spec g.origin hs (by omega) m.station (by linarith) (by linarith)
    have hik : i = k := by
      rcases Nat.lt_trichotomy i k with h' | h' | h'
      · have := le (i + 1) k hi hk0 (by omega); linarith
      · exact h'
      · have := le (k + 1) i hk (by omega) (by omega); linarith
    subst hik
    refine ⟨_, ?_, rfl⟩
    unfold pointXyzAlignment
    rw [query_uncached_setOrigin, hok]
    exact ei
  obtain ⟨p, hp, hpe⟩ := hpm
  refine ⟨g', k + 1, hedit, ?_, ?_, ?_, ?_, ?_, pointsAlignment g.origin g.line.alignment, p, ?_, hp, ?_⟩
  · simp [hg', List.length_insertIdx_of_le_length (show k + 1 ≤ g.line.alignment.length by omega)]
  · intro s; exact hq _ (hF s)
  · exact hq _ (by rw [hcS])
  · intro n
    refine hq _ ?_
    unfold structurePoint
    rw [hcS]; rfl
  · intro n j
    refine hq _ ?_
    unfold attachmentPoint
    rw [hcS]
    have : ∀ s, vectorStructure (updatedAt g' g.origin).line.alignment (updatedAt g' g.origin).cacheA s =
        vectorStructure (updatedAt g g.origin).line.alignment (updatedAt g g.origin).cacheA s := hV
    simp only [this]
    rfl
  · unfold pointsXyzAlignment
    rw [query_uncached_setOrigin, hok]
    rfl
  · unfold pointsXyzAlignment
    rw [q1, hok, hpe]
    exact congrArg _ (points_insert g.origin hs m hk hbtw)

/-- A point half way on a line that climbs by 10 over 100. -/
example : ∃ g : GLine, Reachable g ∧ AddsNothing g.line.alignment ⟨5, 0, 50⟩ := by
  refine ⟨_, ⟨_, exEdits_runs⟩, 0, _, _, rfl, rfl, ?_, ?_, rfl, ?_⟩ <;> norm_num [exLine]

end Verif.Props
