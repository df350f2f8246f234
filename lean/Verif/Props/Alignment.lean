import Mathlib.Algebra.Order.Field.Rat
import Verif.AlignmentLemmas

/-!
# Properties C01-C06: the alignment class

`Reachable points` means: `points` is what `Alignment::points()` shows after some history of
`AddPoint` / `DeletePoint` / `ModifyPoint` calls on a fresh alignment.
-/

set_option linter.unusedSectionVars false

namespace Verif.Props
open Verif Verif.Alignment

variable {K : Type} [LinearOrder K]

/-! ### C01 -/

/-- C01: whatever calls are made, stations are strictly increasing. -/
theorem C01_alignment_strictly_ordered (ops : List (Op K)) :
    (run ops).Pairwise (fun a b => a.station < b.station) := run_sorted ops

/-- C01, second reading: no two points share a station. -/
theorem C01_alignment_stations_distinct (ops : List (Op K)) :
    ((run ops).map AlignmentPoint.station).Nodup := by
  rw [List.Nodup, List.pairwise_map]
  exact (run_sorted ops).imp (fun h => ne_of_lt h)

/-- A history with insertions out of order, a duplicate, a rejected and an accepted modification. -/
def exampleOps : List (Op ℚ) :=
  [.add ⟨5, 0, 10⟩, .add ⟨6, 30, 0⟩, .add ⟨7, 0, 20⟩, .add ⟨8, 0, 10⟩, .modify 1 ⟨9, 0, 20⟩,
   .modify 0 ⟨9, 0, 15⟩, .delete 7]

example : (run exampleOps).map AlignmentPoint.station = [10, 15, 20] := by decide +kernel

/-! ### C02 -/

/-- C02: on a reachable alignment `AddPoint` is rejected exactly on a duplicate station. -/
theorem C02_add_rejected_iff {points : List (AlignmentPoint K)} (h : Reachable points)
    (p : AlignmentPoint K) :
    (addPoint points p).2 = -1 ↔ ∃ q ∈ points, q.station = p.station :=
  addPoint_eq_neg_one p h.sorted

/-- C02: a rejected `AddPoint` changes nothing. -/
theorem C02_add_rejected_unchanged (points : List (AlignmentPoint K)) (p : AlignmentPoint K)
    (hr : (addPoint points p).2 = -1) : (addPoint points p).1 = points := addPoint_fail p hr

/-- C02: an accepted `AddPoint` returns a position `i` at which the new list holds `p`, and taking `p`
out again gives back the old list; the list stays ordered. -/
theorem C02_add_accepted {points : List (AlignmentPoint K)} (h : Reachable points)
    (p : AlignmentPoint K) (hnew : ∀ q ∈ points, q.station ≠ p.station) :
    ∃ i : Nat, (addPoint points p).2 = (i : Int) ∧ (addPoint points p).1[i]? = some p ∧
      (addPoint points p).1.eraseIdx i = points ∧
      (addPoint points p).1.Pairwise (fun a b => a.station < b.station) := by
  have hne : (addPoint points p).2 ≠ -1 := by
    rw [Ne, addPoint_eq_neg_one p h.sorted]
    rintro ⟨q, hq, he⟩; exact hnew q hq he
  obtain ⟨i, -, hle, hidx, hl⟩ := addPoint_success p hne
  refine ⟨i, hidx, ?_, ?_, addPoint_sorted p h.sorted⟩
  · rw [hl]; exact getElem_insertIdx_of_le hle
  · rw [hl]; simp

example : Reachable (run exampleOps) ∧ (∀ q ∈ run exampleOps, q.station ≠ (12 : ℚ)) ∧
    (addPoint (run exampleOps) ⟨1, 0, 12⟩).2 = 1 ∧
    (addPoint (run exampleOps) ⟨1, 0, 15⟩).2 = -1 := by
  refine ⟨⟨exampleOps, rfl⟩, ?_, ?_, ?_⟩ <;> decide +kernel

/-! ### C03 -/

/-- C03: `DeletePoint` fails, changing nothing, exactly on an out-of-range index. -/
theorem C03_delete_rejected_iff (points : List (AlignmentPoint K)) (i : Int) :
    ((deletePoint points i).2 = false ↔ i < 0 ∨ (points.length : Int) ≤ i) ∧
    ((deletePoint points i).2 = false → (deletePoint points i).1 = points) := by
  unfold deletePoint
  by_cases h : validIndex i points.length = true
  · simp only [h, if_true, Bool.true_eq_false, false_iff, false_implies, and_true]
    rw [validIndex_iff] at h; omega
  · simp only [h, if_false, Bool.false_eq_true, true_iff, implies_true, and_true]
    rw [validIndex_iff] at h; omega

/-- C03: an accepted `DeletePoint(i)` leaves exactly the points before `i` and after `i`, in order. -/
theorem C03_delete_accepted (points : List (AlignmentPoint K)) (i : Nat) (hi : i < points.length) :
    deletePoint points (i : Int) = (points.take i ++ points.drop (i + 1), true) := by
  unfold deletePoint
  rw [if_pos (validIndex_natCast.mpr hi)]
  simp [eraseIdx_eq_take_drop]

example : (deletePoint (run exampleOps) 1).1.map AlignmentPoint.station = [10, 20] ∧
    (deletePoint (run exampleOps) 3).2 = false ∧ (deletePoint (run exampleOps) (-1)).2 = false := by
  decide +kernel

/-! ### C04 -/

/-- C04: `ModifyPoint` is rejected exactly when the index is out of range or another point already has
the new station. -/
theorem C04_modify_rejected_iff {points : List (AlignmentPoint K)} (h : Reachable points)
    (i : Int) (p : AlignmentPoint K) :
    (modifyPoint points i p).2 = -1 ↔
      (i < 0 ∨ (points.length : Int) ≤ i) ∨
      ∃ j : Nat, ∃ hj : j < points.length, (j : Int) ≠ i ∧ points[j].station = p.station := by
  by_cases hv : validIndex i points.length = true
  · have hrange := validIndex_iff.mp hv
    obtain ⟨hlt, hcast⟩ := validIndex_toNat hv
    rw [modifyPoint_of_valid p hv h.sorted]
    have hiff := addPoint_eq_neg_one (points := points.eraseIdx i.toNat) p
      (pairwise_eraseIdx _ h.sorted)
    have key : (∃ q ∈ points.eraseIdx i.toNat, q.station = p.station) ↔
        ∃ j : Nat, ∃ hj : j < points.length, (j : Int) ≠ i ∧ points[j].station = p.station := by
      constructor
      · rintro ⟨q, hq, he⟩
        rw [List.mem_eraseIdx_iff_getElem] at hq
        obtain ⟨j, hj, hne, rfl⟩ := hq
        exact ⟨j, hj, by omega, he⟩
      · rintro ⟨j, hj, hne, he⟩
        exact ⟨points[j], List.mem_eraseIdx_iff_getElem.mpr ⟨j, hj, by omega, rfl⟩, he⟩
    rw [← key, ← hiff]
    have hnr : ¬ (i < 0 ∨ (points.length : Int) ≤ i) := by omega
    simp only [hnr, false_or]
    split
    · rename_i hc; simp [hc]
    · rfl
  · rw [modifyPoint_of_not_valid p hv]
    rw [validIndex_iff] at hv
    simp only [true_iff]
    left; omega

/-- C04: a rejected `ModifyPoint` leaves the list exactly as it was. -/
theorem C04_modify_rejected_unchanged {points : List (AlignmentPoint K)} (h : Reachable points)
    (i : Int) (p : AlignmentPoint K) (hr : (modifyPoint points i p).2 = -1) :
    (modifyPoint points i p).1 = points := by
  by_cases hv : validIndex i points.length = true
  · rw [modifyPoint_of_valid p hv h.sorted] at hr ⊢
    split
    · rfl
    · rename_i hc; rw [if_neg hc] at hr; exact absurd hr hc
  · rw [modifyPoint_of_not_valid p hv]

/-- C04: an accepted `ModifyPoint(i,p)` returns the position `j` of `p`; without position `j` the new
list is the old list without position `i`; the list stays ordered. -/
theorem C04_modify_accepted {points : List (AlignmentPoint K)} (h : Reachable points)
    (i : Int) (p : AlignmentPoint K) (hr : (modifyPoint points i p).2 ≠ -1) :
    ∃ j : Nat, (modifyPoint points i p).2 = (j : Int) ∧ (modifyPoint points i p).1[j]? = some p ∧
      (modifyPoint points i p).1.eraseIdx j = points.eraseIdx i.toNat ∧
      (modifyPoint points i p).1.Pairwise (fun a b => a.station < b.station) := by
  by_cases hv : validIndex i points.length = true
  · have hsorted := modifyPoint_sorted i p h.sorted
    rw [modifyPoint_of_valid p hv h.sorted] at hr hsorted ⊢
    split
    · rename_i hc; rw [if_pos hc] at hr; exact absurd rfl hr
    · rename_i hc
      rw [if_neg hc] at hsorted
      obtain ⟨j, -, hle, hidx, hl⟩ := addPoint_success p hc
      refine ⟨j, hidx, ?_, ?_, hsorted⟩
      · rw [hl]; exact getElem_insertIdx_of_le hle
      · rw [hl]; simp
  · rw [modifyPoint_of_not_valid p hv] at hr; exact absurd rfl hr

example : Reachable (run exampleOps) ∧ (modifyPoint (run exampleOps) 0 ⟨1, 0, 25⟩).2 = 2 ∧
    (modifyPoint (run exampleOps) 0 ⟨1, 0, 25⟩).1.map AlignmentPoint.station = [15, 20, 25] ∧
    (modifyPoint (run exampleOps) 0 ⟨1, 0, 20⟩).2 = -1 ∧
    (modifyPoint (run exampleOps) 0 ⟨1, 0, 10⟩).2 = 0 := by
  refine ⟨⟨exampleOps, rfl⟩, ?_, ?_, ?_, ?_⟩ <;> decide +kernel

/-! ### C05 -/

/-- C05: a station outside the alignment gives -1 (and only such a station). -/
theorem C05_segment_rejected_iff {points : List (AlignmentPoint K)} (h : Reachable points)
    (hlen : 2 ≤ points.length) (s : K) :
    indexSegment points s = .val (-1) ↔
      s < (points[0]'(by omega)).station ∨ (points[points.length - 1]'(by omega)).station < s := by
  have hs := h.sorted
  have hhead : points.head? = some (points[0]'(by omega)) := by
    rw [List.head?_eq_getElem?]; simp
  have hlast : points.getLast? = some (points[points.length - 1]'(by omega)) := by
    rw [List.getLast?_eq_getElem?]; simp
  simp only [indexSegment, isValidStation, hhead, hlast]
  by_cases h1 : (points[0]'(by omega)).station ≤ s
  · by_cases h2 : s ≤ (points[points.length - 1]'(by omega)).station
    · have hrange : ¬ (s < (points[0]'(by omega)).station ∨
          (points[points.length - 1]'(by omega)).station < s) := by
        rw [not_or]; exact ⟨not_lt.mpr h1, not_lt.mpr h2⟩
      simp only [h1, h2, decide_true, Bool.and_self, hrange, iff_false]
      split
      · simp
      · rename_i hne
        obtain ⟨hb, hle, -⟩ := segmentPos_spec (s := s) points
          ⟨_, List.getElem_mem (by omega), h2⟩
        intro hc
        simp only [Res.val.injEq] at hc
        have h0 : segmentPos s points = 0 := by omega
        simp only [h0] at hle
        exact hne (le_antisymm hle h1)
    · simp [h1, h2, not_le.mp h2]
  · simp [h1, not_le.mp h1]

/-- C05: inside the alignment the result is a segment index, the station lies on that segment, and it is
strictly past the segment's start unless it is the very first station. -/
theorem C05_segment_found {points : List (AlignmentPoint K)} (h : Reachable points)
    (hlen : 2 ≤ points.length) (s : K)
    (hfront : (points[0]'(by omega)).station ≤ s)
    (hback : s ≤ (points[points.length - 1]'(by omega)).station) :
    ∃ i : Nat, ∃ hi : i + 1 < points.length, indexSegment points s = .val (i : Int) ∧
      (points[i]'(by omega)).station ≤ s ∧ s ≤ points[i + 1].station ∧
      (i = 0 ∨ (points[i]'(by omega)).station < s) :=
  segment_found h.sorted hlen s hfront hback

example : Reachable (run exampleOps) ∧ 2 ≤ (run exampleOps).length ∧
    indexSegment (run exampleOps) 15 = .val 0 ∧ indexSegment (run exampleOps) 16 = .val 1 ∧
    indexSegment (run exampleOps) 10 = .val 0 ∧ indexSegment (run exampleOps) 21 = .val (-1) := by
  refine ⟨⟨exampleOps, rfl⟩, ?_, ?_, ?_, ?_, ?_⟩ <;> decide +kernel

/-! ### C06 -/

/-- C06 is false as stated: querying an empty (reachable) alignment is undefined behaviour. -/
theorem C06_empty_alignment_query_is_ub :
    ∃ points : List (AlignmentPoint ℚ), Reachable points ∧ isValidStation points 0 = .ub ∧
      indexSegment points 0 = .ub := ⟨[], ⟨[], rfl⟩, rfl, rfl⟩

/-- C06, what holds: with at least one point the queries return normally for every station.
Missing from the full statement: the empty alignment. -/
theorem C06_queries_defined_partial (points : List (AlignmentPoint K)) (s : K)
    (hne : points ≠ []) :
    (∃ b, isValidStation points s = .val b) ∧ (∃ i, indexSegment points s = .val i) := by
  cases points with
  | nil => exact absurd rfl hne
  | cons q qs =>
    have hl : (q :: qs).getLast? = some ((q :: qs).getLast (by simp)) :=
      List.getLast?_eq_some_getLast (by simp)
    have hv : isValidStation (q :: qs) s = .val (decide (q.station ≤ s) &&
        decide (s ≤ ((q :: qs).getLast (by simp)).station)) := by
      simp only [isValidStation, hl, List.head?_cons]
    refine ⟨⟨_, hv⟩, ?_⟩
    unfold indexSegment
    rw [hv]
    cases hb : (decide (q.station ≤ s) && decide (s ≤ ((q :: qs).getLast (by simp)).station)) with
    | false => exact ⟨_, rfl⟩
    | true =>
      simp only [List.head?_cons]
      split
      · exact ⟨_, rfl⟩
      · exact ⟨_, rfl⟩

/-- C06: exactly the empty alignment is the problem. -/
theorem C06_ub_iff_empty (points : List (AlignmentPoint K)) (s : K) :
    indexSegment points s = .ub ↔ points = [] := by
  constructor
  · intro h
    by_contra hne
    obtain ⟨-, i, hi⟩ := C06_queries_defined_partial points s hne
    rw [hi] at h; exact absurd h (by simp)
  · rintro rfl; rfl

/-- C05 boundary case found while modelling: with a single alignment point the only valid station is
reported on segment 0, although there is no segment (callers index the point after it). -/
theorem C05_single_point_reports_missing_segment (p : AlignmentPoint K) :
    indexSegment [p] p.station = .val 0 := by
  simp [indexSegment, isValidStation]

end Verif.Props
