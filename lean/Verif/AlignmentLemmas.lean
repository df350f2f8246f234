import Mathlib.Data.List.InsertIdx
import Mathlib.Data.List.Pairwise
import Mathlib.Data.List.Nodup
import Mathlib.Tactic.Linarith
import Verif.Alignment

/-! Helper lemmas about sorted insertion; the property theorems are in `Verif/Props/Alignment.lean`. -/

namespace Verif

variable {K : Type} [LinearOrder K] {α : Type} (key : α → K)

theorem searchPos_le {st : K} {l : List α} {i : Nat} (h : searchPos key st l = some i) :
    i ≤ l.length := by
  induction l generalizing i with
  | nil => simp [searchPos] at h; omega
  | cons q qs ih =>
    unfold searchPos at h
    split at h
    · simp at h; omega
    · split at h
      · simp at h
      · simp only [Option.map_eq_some_iff] at h
        obtain ⟨j, hj, rfl⟩ := h
        have := ih hj
        simp; omega

/-- Everything before the found position has a smaller key. -/
theorem searchPos_lt {st : K} {l : List α} {i : Nat} (h : searchPos key st l = some i) :
    ∀ q ∈ l.take i, key q < st := by
  induction l generalizing i with
  | nil => simp
  | cons q qs ih =>
    unfold searchPos at h
    split at h
    · simp at h; subst h; simp
    · split at h
      · simp at h
      · simp only [Option.map_eq_some_iff] at h
        obtain ⟨j, hj, rfl⟩ := h
        intro r hr
        simp only [List.take_succ_cons, List.mem_cons] at hr
        rcases hr with rfl | hr
        · rcases lt_trichotomy st (key r) with h1 | h1 | h1 <;> first | contradiction | exact h1
        · exact ih hj r hr

/-- In a sorted list everything from the found position on has a larger key. -/
theorem searchPos_gt {st : K} {l : List α} {i : Nat}
    (hs : l.Pairwise (fun a b => key a < key b)) (h : searchPos key st l = some i) :
    ∀ q ∈ l.drop i, st < key q := by
  induction l generalizing i with
  | nil => simp
  | cons q qs ih =>
    rw [List.pairwise_cons] at hs
    unfold searchPos at h
    split at h
    · rename_i hlt
      simp at h; subst h
      intro r hr
      simp only [List.drop_zero, List.mem_cons] at hr
      rcases hr with rfl | hr
      · exact hlt
      · exact lt_trans hlt (hs.1 r hr)
    · split at h
      · simp at h
      · simp only [Option.map_eq_some_iff] at h
        obtain ⟨j, hj, rfl⟩ := h
        intro r hr
        simp only [List.drop_succ_cons] at hr
        exact ih hs.2 hj r hr

theorem searchPos_none_iff {st : K} {l : List α} (hs : l.Pairwise (fun a b => key a < key b)) :
    searchPos key st l = none ↔ ∃ q ∈ l, key q = st := by
  induction l with
  | nil => simp [searchPos]
  | cons q qs ih =>
    rw [List.pairwise_cons] at hs
    unfold searchPos
    split
    · rename_i hlt
      simp only [reduceCtorEq, false_iff]
      rintro ⟨r, hr, rfl⟩
      simp only [List.mem_cons] at hr
      rcases hr with rfl | hr
      · exact lt_irrefl _ hlt
      · exact lt_asymm hlt (hs.1 r hr)
    · split
      · rename_i h2
        simp only [true_iff]
        exact ⟨q, by simp, h2.symm⟩
      · rename_i h1 h2
        rw [Option.map_eq_none_iff, ih hs.2]
        constructor
        · rintro ⟨r, hr, h⟩; exact ⟨r, by simp [hr], h⟩
        · rintro ⟨r, hr, h⟩
          simp only [List.mem_cons] at hr
          rcases hr with rfl | hr
          · exact absurd h.symm h2
          · exact ⟨r, hr, h⟩

/-- The found position only depends on the keys. -/
theorem searchPos_append_of_lt {st : K} {l₁ l₂ : List α}
    (h1 : ∀ q ∈ l₁, key q < st) (h2 : ∀ q ∈ l₂, st < key q) :
    searchPos key st (l₁ ++ l₂) = some l₁.length := by
  induction l₁ with
  | nil =>
    cases l₂ with
    | nil => rfl
    | cons q qs =>
      have := h2 q (by simp)
      simp [searchPos, this]
  | cons q qs ih =>
    have hq := h1 q (by simp)
    have : searchPos key st (qs ++ l₂) = some qs.length := ih (fun r hr => h1 r (by simp [hr]))
    simp only [List.cons_append, searchPos, this, not_lt_of_gt hq, if_false, ne_of_gt hq,
      Option.map_some, List.length_cons]

theorem insertIdx_eq_take_drop (l : List α) (i : Nat) (x : α) (h : i ≤ l.length) :
    l.insertIdx i x = l.take i ++ x :: l.drop i := by
  induction l generalizing i with
  | nil => simp at h; subst h; simp
  | cons q qs ih =>
    cases i with
    | zero => simp
    | succ i =>
      simp at h
      simp [List.insertIdx_succ_cons, ih i h]

theorem eraseIdx_eq_take_drop (l : List α) (i : Nat) :
    l.eraseIdx i = l.take i ++ l.drop (i + 1) := by
  rw [List.eraseIdx_eq_take_drop_succ]

theorem sorted_insertIdx {x : α} {l : List α} {i : Nat}
    (hs : l.Pairwise (fun a b => key a < key b)) (h : searchPos key (key x) l = some i) :
    (l.insertIdx i x).Pairwise (fun a b => key a < key b) := by
  rw [insertIdx_eq_take_drop l i x (searchPos_le key h)]
  have hlt := searchPos_lt key h
  have hgt := searchPos_gt key hs h
  have hs' := hs
  rw [← List.take_append_drop i l, List.pairwise_append] at hs'
  rw [List.pairwise_append, List.pairwise_cons]
  refine ⟨hs'.1, ⟨hgt, hs'.2.1⟩, ?_⟩
  intro a ha b hb
  simp only [List.mem_cons] at hb
  rcases hb with rfl | hb
  · exact hlt a ha
  · exact hs'.2.2 a ha b hb

/-- Re-inserting the element removed from a sorted list finds the old position. -/
theorem searchPos_eraseIdx {l : List α} {i : Nat} (hi : i < l.length)
    (hs : l.Pairwise (fun a b => key a < key b)) :
    searchPos key (key l[i]) (l.eraseIdx i) = some i := by
  rw [eraseIdx_eq_take_drop]
  have hlen : (l.take i).length = i := by simp; omega
  have hs' := hs
  rw [← List.take_append_drop i l, List.pairwise_append, List.drop_eq_getElem_cons hi,
    List.pairwise_cons] at hs'
  have := searchPos_append_of_lt key (st := key l[i]) (l₁ := l.take i) (l₂ := l.drop (i + 1))
    (fun q hq => hs'.2.2 q hq _ List.mem_cons_self) (fun q hq => hs'.2.1.1 q hq)
  rw [this, hlen]

theorem insertIdx_eraseIdx_self {l : List α} {i : Nat} (hi : i < l.length) :
    (l.eraseIdx i).insertIdx i l[i] = l := by
  rw [insertIdx_eq_take_drop _ _ _ (by rw [List.length_eraseIdx_of_lt hi]; omega),
    eraseIdx_eq_take_drop]
  have hlen : (l.take i).length = i := by simp; omega
  rw [List.take_left' hlen, List.drop_left' hlen, ← List.drop_eq_getElem_cons hi,
    List.take_append_drop]

theorem getElem_insertIdx_of_le {l : List α} {i : Nat} {x : α} (h : i ≤ l.length) :
    (l.insertIdx i x)[i]? = some x := by
  rw [insertIdx_eq_take_drop l i x h]
  rw [List.getElem?_append_right (by simp)]
  simp [Nat.min_eq_left h]

theorem pairwise_eraseIdx {R : α → α → Prop} {l : List α} (i : Nat) (h : l.Pairwise R) :
    (l.eraseIdx i).Pairwise R := h.sublist (List.eraseIdx_sublist l i)

namespace Alignment

variable {points : List (AlignmentPoint K)}

abbrev Sorted (points : List (AlignmentPoint K)) : Prop :=
  points.Pairwise (fun a b => a.station < b.station)

theorem addPoint_sorted (p : AlignmentPoint K) (hs : Sorted points) :
    Sorted (addPoint points p).1 := by
  unfold addPoint
  split
  · exact hs
  · rename_i i h
    exact sorted_insertIdx AlignmentPoint.station hs h

theorem deletePoint_sorted (i : Int) (hs : Sorted points) : Sorted (deletePoint points i).1 := by
  unfold deletePoint
  split
  · exact pairwise_eraseIdx _ hs
  · exact hs

theorem addPoint_eq_neg_one (p : AlignmentPoint K) (hs : Sorted points) :
    (addPoint points p).2 = -1 ↔ ∃ q ∈ points, q.station = p.station := by
  rw [← searchPos_none_iff AlignmentPoint.station hs]
  unfold addPoint
  split
  · simp [*]
  · rename_i i h
    simp [h]

theorem addPoint_fail (p : AlignmentPoint K) (h : (addPoint points p).2 = -1) :
    (addPoint points p).1 = points := by
  unfold addPoint at *
  split
  · rfl
  · rename_i i hi
    rw [hi] at h; simp at h

/-- Full description of a successful insertion. -/
theorem addPoint_success (p : AlignmentPoint K) (h : (addPoint points p).2 ≠ -1) :
    ∃ i : Nat, searchPos AlignmentPoint.station p.station points = some i ∧ i ≤ points.length ∧
      (addPoint points p).2 = (i : Int) ∧ (addPoint points p).1 = points.insertIdx i p := by
  unfold addPoint at *
  split
  · rename_i hi; rw [hi] at h; simp at h
  · rename_i i hi
    exact ⟨i, hi, searchPos_le _ hi, by simp, rfl⟩

theorem addPoint_restore {i : Nat} (hi : i < points.length) (hs : Sorted points) :
    (addPoint (points.eraseIdx i) points[i]).1 = points := by
  unfold addPoint
  rw [searchPos_eraseIdx AlignmentPoint.station hi hs]
  exact insertIdx_eraseIdx_self hi

theorem modifyPoint_of_valid {index : Int} (p : AlignmentPoint K)
    (h : validIndex index points.length = true) (hs : Sorted points) :
    modifyPoint points index p =
      if (addPoint (points.eraseIdx index.toNat) p).2 = -1 then (points, -1)
      else addPoint (points.eraseIdx index.toNat) p := by
  unfold modifyPoint
  rw [dif_pos h]
  simp only [deletePoint, h, if_true]
  split
  · rename_i hc; simp at hc
  · split
    · rename_i hst
      rw [addPoint_fail _ hst, addPoint_restore (validIndex_toNat h).1 hs, hst]
    · rfl

theorem modifyPoint_of_not_valid {index : Int} (p : AlignmentPoint K)
    (h : ¬ validIndex index points.length = true) : modifyPoint points index p = (points, -1) := by
  unfold modifyPoint; rw [dif_neg h]

theorem modifyPoint_fail {index : Int} (p : AlignmentPoint K) (hs : Sorted points)
    (h : (modifyPoint points index p).2 = -1) : (modifyPoint points index p).1 = points := by
  by_cases hv : validIndex index points.length = true
  · rw [modifyPoint_of_valid p hv hs] at h ⊢
    split
    · rfl
    · rename_i hne; rw [if_neg hne] at h; exact absurd h hne
  · rw [modifyPoint_of_not_valid p hv]

theorem modifyPoint_sorted (i : Int) (p : AlignmentPoint K) (hs : Sorted points) :
    Sorted (modifyPoint points i p).1 := by
  by_cases h : validIndex i points.length = true
  · rw [modifyPoint_of_valid p h hs]
    split
    · exact hs
    · exact addPoint_sorted _ (pairwise_eraseIdx _ hs)
  · rw [modifyPoint_of_not_valid p h]; exact hs

theorem Op.apply_sorted (op : Op K) (hs : Sorted points) : Sorted (op.apply points) := by
  cases op with
  | add p => exact addPoint_sorted p hs
  | delete i => exact deletePoint_sorted i hs
  | modify i p => exact modifyPoint_sorted i p hs

theorem run_sorted (ops : List (Op K)) : Sorted (run ops) := by
  have : ∀ (l : List (AlignmentPoint K)), Sorted l → Sorted (ops.foldl Op.apply l) := by
    induction ops with
    | nil => intro l h; exact h
    | cons o os ih => intro l h; exact ih _ (Op.apply_sorted o h)
  exact this [] List.Pairwise.nil

theorem Reachable.sorted (h : Reachable points) : Sorted points := by
  obtain ⟨ops, rfl⟩ := h; exact run_sorted ops

/-- The loop of `IndexSegment` in a list whose last point is not left of `s`. -/
theorem segmentPos_spec {s : K} (points : List (AlignmentPoint K))
    (hb : ∃ q ∈ points, s ≤ q.station) :
    ∃ h : segmentPos s points < points.length, s ≤ (points[segmentPos s points]).station ∧
      ∀ j (hj : j < segmentPos s points), (points[j]'(by omega)).station < s := by
  induction points with
  | nil => simp at hb
  | cons q qs ih =>
    by_cases hq : s ≤ q.station
    · simp [segmentPos, hq]
    · have hb' : ∃ r ∈ qs, s ≤ r.station := by
        obtain ⟨r, hr, h⟩ := hb
        simp only [List.mem_cons] at hr
        rcases hr with rfl | hr
        · exact absurd h hq
        · exact ⟨r, hr, h⟩
      obtain ⟨h1, h2, h3⟩ := ih hb'
      have he : segmentPos s (q :: qs) = segmentPos s qs + 1 := by simp [segmentPos, hq]
      refine ⟨by rw [he]; simp; exact h1, ?_, ?_⟩
      · simp only [he, List.getElem_cons_succ]; exact h2
      · intro j hj
        rw [he] at hj
        cases j with
        | zero => simpa using not_le.mp hq
        | succ j => simpa using h3 j (by omega)

theorem segment_found {points : List (AlignmentPoint K)} (hs : Sorted points)
    (hlen : 2 ≤ points.length) (s : K)
    (hfront : (points[0]'(by omega)).station ≤ s)
    (hback : s ≤ (points[points.length - 1]'(by omega)).station) :
    ∃ i : Nat, ∃ hi : i + 1 < points.length, indexSegment points s = .val (i : Int) ∧
      (points[i]'(by omega)).station ≤ s ∧ s ≤ points[i + 1].station ∧
      (i = 0 ∨ (points[i]'(by omega)).station < s) := by
  have hhead : points.head? = some (points[0]'(by omega)) := by
    rw [List.head?_eq_getElem?]; simp
  have hlast : points.getLast? = some (points[points.length - 1]'(by omega)) := by
    rw [List.getLast?_eq_getElem?]; simp
  simp only [indexSegment, isValidStation, hhead, hlast, hfront, hback, decide_true, Bool.and_self]
  split
  · rename_i he
    refine ⟨0, by omega, rfl, hfront, ?_, Or.inl rfl⟩
    rw [he]
    exact le_of_lt (List.pairwise_iff_getElem.mp hs 0 1 (by omega) (by omega) (by omega))
  · rename_i hne
    obtain ⟨hb, hle, hlt⟩ := segmentPos_spec (s := s) points ⟨_, List.getElem_mem (by omega), hback⟩
    have hpos : 0 < segmentPos s points := by
      rcases Nat.eq_zero_or_pos (segmentPos s points) with h0 | h0
      · simp only [h0] at hle
        exact absurd (le_antisymm hle hfront) hne
      · exact h0
    refine ⟨segmentPos s points - 1, by omega, ?_, le_of_lt (hlt _ (by omega)), ?_,
      Or.inr (hlt _ (by omega))⟩
    · congr 1; omega
    · have : segmentPos s points - 1 + 1 = segmentPos s points := by omega
      simp only [this]; exact hle

end Alignment
end Verif
