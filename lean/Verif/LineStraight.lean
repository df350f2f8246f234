import Verif.LineGeometryLemmas

/-!
# An alignment point put on a straight segment: lemmas
-/

set_option linter.unusedSectionVars false

namespace Verif
namespace Geo
open Alignment GLine

theorem alignmentLoop_scale (prev : AlignmentPoint ℝ) (p : P3) (v : V2) {f : ℝ} (hf : 0 < f)
    (ps : List (AlignmentPoint ℝ)) : alignmentLoop prev p (v.scale f) ps = alignmentLoop prev p v ps := by
  cases ps with
  | nil => rfl
  | cons q qs => simp only [alignmentLoop, fromVector_scale _ _ _ _ _ hf]

/-- The point `m` lies on the segment from `a` to `b`, strictly between them, and turns nothing. -/
structure Between (a m b : AlignmentPoint ℝ) : Prop where
  lo : a.station < m.station
  hi : m.station < b.station
  rot : m.rotation = 0
  elev : (m.elevation - a.elevation) * (b.station - a.station) =
    (b.elevation - a.elevation) * (m.station - a.station)

/-- Fraction of the segment at which `m` lies. -/
noncomputable def fraction (a m b : AlignmentPoint ℝ) : ℝ :=
  (m.station - a.station) / (b.station - a.station)

theorem loop_two {a m b : AlignmentPoint ℝ} (h : Between a m b) (p : P3) {v : V2} (hv : v.magnitude ≠ 0)
    (qs : List (AlignmentPoint ℝ)) :
    alignmentLoop a p v (m :: b :: qs) =
      lerp p (fromVector p (b.station - a.station) (b.elevation - a.elevation) a.rotation v).1
        (fraction a m b) :: alignmentLoop a p v (b :: qs) := by
  have h1 : 0 < m.station - a.station := sub_pos.mpr h.lo
  have h2 : 0 < b.station - m.station := sub_pos.mpr h.hi
  have h3 : 0 < b.station - a.station := by linarith
  set w := v.rotate a.rotation with hw
  have hwm : w.magnitude ≠ 0 := by rw [hw, V2.rotate_magnitude]; exact hv
  have hwp : 0 < w.magnitude := lt_of_le_of_ne (V2.magnitude_nonneg _) (Ne.symm hwm)
  have r0 : ∀ u : V2, u.rotate m.rotation = u := fun u => by
    unfold V2.rotate; rw [h.rot, if_pos (by norm_num)]
  have e1 : fraction a m b * (b.station - a.station) = m.station - a.station := by
    unfold fraction; field_simp
  have e2 : fraction a m b * (b.elevation - a.elevation) = m.elevation - a.elevation := by
    unfold fraction
    rw [div_mul_eq_mul_div, div_eq_iff h3.ne']
    linarith [h.elev]
  have f1 : (fromVector p (m.station - a.station) (m.elevation - a.elevation) a.rotation v).1 =
      lerp p (fromVector p (b.station - a.station) (b.elevation - a.elevation) a.rotation v).1 (fraction a m b) := by
    rw [← e1, ← e2, fromVector_fraction]; rfl
  set u := w.scale ((m.station - a.station) / w.magnitude) with hu
  have f2 : (fromVector p (m.station - a.station) (m.elevation - a.elevation) a.rotation v).2 = u := rfl
  have hum : u.magnitude = m.station - a.station := scaled_magnitude hwm h1.le
  have f3 : fromVector (fromVector p (m.station - a.station) (m.elevation - a.elevation) a.rotation v).1
      (b.station - m.station) (b.elevation - m.elevation) m.rotation u =
      ((fromVector p (b.station - a.station) (b.elevation - a.elevation) a.rotation v).1,
        w.scale ((b.station - m.station) / w.magnitude)) := by
    have hs : u.scale ((b.station - m.station) / u.magnitude) =
        w.scale ((b.station - m.station) / w.magnitude) := by
      rw [hum, hu]; unfold V2.scale
      ext <;> simp only <;> field_simp
    unfold fromVector
    simp only [r0, hs, ← hw, Prod.mk.injEq, and_true]
    unfold V2.scale
    ext <;> simp only
    · field_simp; ring
    · field_simp; ring
    · ring
  simp only [alignmentLoop]
  rw [f2, f3, f1]
  congr 2
  have : (fromVector p (b.station - a.station) (b.elevation - a.elevation) a.rotation v).2 =
      (w.scale ((b.station - m.station) / w.magnitude)).scale
        ((b.station - a.station) / (b.station - m.station)) := by
    unfold fromVector
    simp only [← hw]
    unfold V2.scale
    ext <;> simp only <;> field_simp
  rw [this, alignmentLoop_scale _ _ _ (div_pos h3 h2)]

theorem loop_insert (prev : AlignmentPoint ℝ) (p : P3) (v : V2) (hv : v.magnitude ≠ 0) (m : AlignmentPoint ℝ)
    (ps : List (AlignmentPoint ℝ)) (hs : Sorted (prev :: ps)) (k : ℕ) (hk : k < ps.length)
    (h : Between ((prev :: ps)[k]'(by simp; omega)) m ps[k]) :
    alignmentLoop prev p v (ps.insertIdx k m) = (alignmentLoop prev p v ps).insertIdx k
      (lerp ((p :: alignmentLoop prev p v ps).getD k P3.default)
        ((alignmentLoop prev p v ps).getD k P3.default)
        (fraction ((prev :: ps)[k]'(by simp; omega)) m ps[k])) := by
  induction k generalizing prev p v ps with
  | zero =>
    cases ps with
    | nil => simp at hk
    | cons b qs =>
      simp only [List.getElem_cons_zero] at h
      simp only [List.insertIdx_zero, List.getElem_cons_zero, List.getD_cons_zero]
      rw [loop_two h p hv]
      simp only [alignmentLoop, List.getD_cons_zero]
  | succ k ih =>
    cases ps with
    | nil => simp at hk
    | cons q qs =>
      have hs' := hs
      rw [Sorted, List.pairwise_cons] at hs'
      have hpq : prev.station < q.station := hs'.1 q (by simp)
      have hrm : (fromVector p (q.station - prev.station) (q.elevation - prev.elevation) prev.rotation v).2.magnitude ≠ 0 := by
        rw [fromVector_magnitude p hv (by linarith)]; linarith
      have := ih q (fromVector p (q.station - prev.station) (q.elevation - prev.elevation) prev.rotation v).1
        (fromVector p (q.station - prev.station) (q.elevation - prev.elevation) prev.rotation v).2 hrm qs hs'.2
        (by simpa using hk) (by simpa using h)
      simp only [List.insertIdx_succ_cons, alignmentLoop, List.getElem_cons_succ, List.getD_cons_succ]
      rw [this]

/-- The points of an alignment with `m` put after index `k`. -/
theorem points_insert (o : P3) {al : List (AlignmentPoint ℝ)} (hs : Sorted al) (m : AlignmentPoint ℝ) {k : ℕ}
    (hk : k + 1 < al.length) (h : Between (al[k]'(by omega)) m (al[k + 1]'hk)) :
    pointsAlignment o (al.insertIdx (k + 1) m) = (pointsAlignment o al).insertIdx (k + 1)
      (lerp ((pointsAlignment o al).getD k P3.default) ((pointsAlignment o al).getD (k + 1) P3.default)
        (fraction (al[k]'(by omega)) m (al[k + 1]'hk))) := by
  cases al with
  | nil => simp at hk
  | cons q qs =>
    simp only [List.insertIdx_succ_cons, pointsAlignment, List.getD_cons_succ]
    rw [loop_insert q o ⟨1, 0⟩ (by norm_num [V2.magnitude]) m qs hs k (by simpa using hk) h]
    rfl

section
variable (o : P3) {al : List (AlignmentPoint ℝ)} {m : AlignmentPoint ℝ} {k : ℕ}

theorem getD_insert (P : List P3) (M : P3) (hk : k + 1 < P.length) (i : ℕ) :
    (P.insertIdx (k + 1) M).getD i P3.default =
      if i ≤ k then P.getD i P3.default else if i = k + 1 then M else P.getD (i - 1) P3.default := by
  simp only [List.getD_eq_getElem?_getD, List.getElem?_insertIdx]
  by_cases h1 : i ≤ k
  · rw [if_pos (by omega), if_pos h1]
  · rw [if_neg (by omega), if_neg h1]
    by_cases h2 : i = k + 1
    · rw [if_pos h2, if_pos h2, if_pos (by omega)]; rfl
    · rw [if_neg h2, if_neg h2]

/-- Segment of the old alignment in which segment `i` of the new one lies. -/
def oldSegment (k i : ℕ) : ℕ := if i ≤ k then i else i - 1

variable (hs : Sorted al) (hs2 : Sorted (al.insertIdx (k + 1) m)) (hk : k + 1 < al.length)
  (h : Between (al[k]'(by omega)) m (al[k + 1]'hk))
include hs hs2 hk h

theorem insert_segment {s : ℝ} {i j : ℕ} (hi : i + 1 < (al.insertIdx (k + 1) m).length)
    (hj : j + 1 < al.length) (i1 : ((al.insertIdx (k + 1) m)[i]'(by omega)).station ≤ s)
    (i2 : s ≤ ((al.insertIdx (k + 1) m)[i + 1]'hi).station)
    (i3 : i = 0 ∨ ((al.insertIdx (k + 1) m)[i]'(by omega)).station < s)
    (j1 : (al[j]'(by omega)).station ≤ s) (j2 : s ≤ (al[j + 1]'hj).station)
    (j3 : j = 0 ∨ (al[j]'(by omega)).station < s) : j = oldSegment k i := by
  have hlen : (al.insertIdx (k + 1) m).length = al.length + 1 := List.length_insertIdx_of_le_length (by omega) _
  have st : ∀ i j (hi : i < al.length) (hj : j < al.length), (al[i]).station < (al[j]).station → i < j := by
    intro i j hi hj h
    by_contra hc
    rcases Nat.lt_or_eq_of_le (not_lt.mp hc) with h' | h'
    · exact absurd (List.pairwise_iff_getElem.mp hs j i hj hi h') (not_lt.mpr h.le)
    · subst h'; exact lt_irrefl _ h
  have a1 := h.lo
  have a2 := h.hi
  simp only [List.getElem_insertIdx] at i1 i2 i3
  unfold oldSegment
  by_cases c1 : i + 1 ≤ k
  · rw [if_pos (by omega)]
    simp only [show i < k + 1 by omega, show i + 1 < k + 1 by omega, dif_pos] at i1 i2 i3
    have x1 : j < i + 1 ∨ j = 0 := by
      rcases j3 with j3 | j3
      · right; exact j3
      · left; exact st j (i + 1) (by omega) (by omega) (lt_of_lt_of_le j3 i2)
    have x2 : i < j + 1 ∨ i = 0 := by
      rcases i3 with i3 | i3
      · right; exact i3
      · left; exact st i (j + 1) (by omega) (by omega) (lt_of_lt_of_le i3 j2)
    omega
  · by_cases c2 : i = k
    · subst c2
      rw [if_pos le_rfl]
      simp only [show i < i + 1 by omega, dif_pos, lt_irrefl, dite_false, if_true] at i1 i2 i3
      have x1 : j < i + 1 ∨ j = 0 := by
        rcases j3 with j3 | j3
        · right; exact j3
        · left; exact st j (i + 1) (by omega) (by omega) (by linarith)
      have x2 : i < j + 1 ∨ i = 0 := by
        rcases i3 with i3 | i3
        · right; exact i3
        · left; exact st i (j + 1) (by omega) (by omega) (lt_of_lt_of_le i3 j2)
      omega
    · by_cases c3 : i = k + 1
      · subst c3
        rw [if_neg (by omega)]
        simp only [show ¬ k + 1 + 1 < k + 1 by omega, dif_neg, lt_irrefl, dite_false, if_true, not_false_eq_true,
          show ¬ k + 1 + 1 = k + 1 by omega, if_false, Nat.add_sub_cancel] at i1 i2 i3
        have i3' : m.station < s := by
          rcases i3 with i3 | i3
          · omega
          · exact i3
        have x1 : j < k + 1 ∨ j = 0 := by
          rcases j3 with j3 | j3
          · right; exact j3
          · left; exact st j (k + 1) (by omega) (by omega) (by linarith)
        have x2 : k < j + 1 := st k (j + 1) (by omega) (by omega) (by linarith)
        omega
      · rw [if_neg (by omega)]
        have i3' : ¬ i = 0 := by omega
        simp only [show ¬ i + 1 < k + 1 by omega, show ¬ i < k + 1 by omega, dif_neg, not_false_eq_true,
          show ¬ i = k + 1 by omega, show ¬ i + 1 = k + 1 by omega, if_false, Nat.add_sub_cancel,
          i3', false_or] at i1 i2 i3
        have x1 : j < i ∨ j = 0 := by
          rcases j3 with j3 | j3
          · right; exact j3
          · left; exact st j i (by omega) (by omega) (by linarith)
        have x2 : i - 1 < j + 1 := st (i - 1) (j + 1) (by omega) (by omega) (by linarith)
        omega

/-- The direction of a segment is that of the old segment it lies in. -/
theorem insert_vectorSegment {i : ℕ} (hi : i + 1 < al.length + 1) :
    vectorSegment (pointsAlignment o (al.insertIdx (k + 1) m)) i =
      vectorSegment (pointsAlignment o al) (oldSegment k i) := by
  have hPl := pointsAlignment_length o al
  have hP2l : (pointsAlignment o (al.insertIdx (k + 1) m)).length = al.length + 1 := by
    rw [pointsAlignment_length, List.length_insertIdx_of_le_length (by omega)]
  have hlt : 0 < (al[k + 1]'hk).station - (al[k]'(by omega)).station := by linarith [h.lo, h.hi]
  have hx0 : 0 < fraction (al[k]'(by omega)) m (al[k + 1]'hk) := div_pos (by linarith [h.lo]) hlt
  have hx1 : fraction (al[k]'(by omega)) m (al[k + 1]'hk) < 1 := by
    unfold fraction; rw [div_lt_one hlt]; linarith [h.hi]
  have hget := fun i => getD_insert (k := k) (pointsAlignment o al)
    (lerp ((pointsAlignment o al).getD k P3.default) ((pointsAlignment o al).getD (k + 1) P3.default)
        (fraction (al[k]'(by omega)) m (al[k + 1]'hk))) (by omega) i
  rw [← points_insert o hs m hk h] at hget
  set P := pointsAlignment o al with hP
  set P2 := pointsAlignment o (al.insertIdx (k + 1) m) with hP2
  set t := fraction (al[k]'(by omega)) m (al[k + 1]'hk) with ht
  have hunit : ∀ (c : ℝ), 0 < c → ∀ u : V2, (u.scale c).magnitude = u.magnitude * c := fun c hc u =>
    V2.magnitude_scale u hc.le
  -- the two halves of the split segment
  have hsc : ∀ (c : ℝ), 0 < c → ∀ u : V2,
      (if (u.scale c).magnitude = 0 then Res.val none else Res.val (some ((u.scale c).scale (1 / (u.scale c).magnitude)))) =
      (if u.magnitude = 0 then Res.val none else Res.val (some (u.scale (1 / u.magnitude)))) := by
    intro c hc u
    rw [hunit c hc]
    by_cases hu : u.magnitude = 0
    · simp [hu]
    · have : u.magnitude * c ≠ 0 := mul_ne_zero hu hc.ne'
      rw [if_neg this, if_neg hu]
      congr 2
      unfold V2.scale
      ext <;> simp only <;> field_simp
  have ho : oldSegment k i + 1 < al.length := by unfold oldSegment; split <;> omega
  unfold vectorSegment
  rw [if_neg (by omega), if_neg (by omega), Int.toNat_natCast, Int.toNat_natCast,
    getElem?_getD (l := P2) (by omega), getElem?_getD (l := P2) (by omega), getElem?_getD (l := P) (by omega),
    getElem?_getD (l := P) (by omega), hget, hget]
  simp only
  unfold oldSegment
  by_cases c1 : i + 1 ≤ k
  · simp only [show i ≤ k by omega, c1, if_true]
  · by_cases c2 : i = k
    · subst c2
      simp only [le_refl, if_true, show ¬ i + 1 ≤ i by omega, if_false]
      have e : V2.mk ((lerp (P.getD i P3.default) (P.getD (i + 1) P3.default) t).x - (P.getD i P3.default).x)
          ((lerp (P.getD i P3.default) (P.getD (i + 1) P3.default) t).y - (P.getD i P3.default).y) =
          (V2.mk ((P.getD (i + 1) P3.default).x - (P.getD i P3.default).x)
            ((P.getD (i + 1) P3.default).y - (P.getD i P3.default).y)).scale t := by
        unfold lerp V2.scale; ext <;> simp only <;> ring
      rw [e]
      exact hsc t hx0 _
    · by_cases c3 : i = k + 1
      · subst c3
        simp only [show ¬ k + 1 ≤ k by omega, show ¬ k + 1 + 1 ≤ k by omega, if_false, if_true,
          show ¬ k + 1 + 1 = k + 1 by omega, Nat.add_sub_cancel]
        have e : V2.mk ((P.getD (k + 1) P3.default).x - (lerp (P.getD k P3.default) (P.getD (k + 1) P3.default) t).x)
            ((P.getD (k + 1) P3.default).y - (lerp (P.getD k P3.default) (P.getD (k + 1) P3.default) t).y) =
            (V2.mk ((P.getD (k + 1) P3.default).x - (P.getD k P3.default).x)
              ((P.getD (k + 1) P3.default).y - (P.getD k P3.default).y)).scale (1 - t) := by
          unfold lerp V2.scale; ext <;> simp only <;> ring
        rw [e]
        exact hsc (1 - t) (by linarith) _
      · simp only [show ¬ i ≤ k by omega, show ¬ i + 1 ≤ k by omega, if_false,
          show ¬ i + 1 = k + 1 by omega, show ¬ i = k + 1 by omega, Nat.add_sub_cancel,
          show i - 1 + 1 = i by omega]

theorem insert_head : (al.insertIdx (k + 1) m).head? = al.head? := by
  rw [List.head?_eq_getElem?, List.head?_eq_getElem?, List.getElem?_insertIdx]; simp

theorem insert_last : (al.insertIdx (k + 1) m).getLast? = al.getLast? := by
  have hlen : (al.insertIdx (k + 1) m).length = al.length + 1 := List.length_insertIdx_of_le_length (by omega) _
  rw [List.getLast?_eq_getElem?, List.getLast?_eq_getElem?, List.getElem?_insertIdx, hlen]
  rw [if_neg (by omega), if_neg (by omega)]
  simp

/-- Every station has the same coordinates. -/
theorem insert_fromStation (s : ℝ) :
    fromStation (al.insertIdx (k + 1) m) (pointsAlignment o (al.insertIdx (k + 1) m)) s =
      fromStation al (pointsAlignment o al) s := by
  have hlen : (al.insertIdx (k + 1) m).length = al.length + 1 := List.length_insertIdx_of_le_length (by omega) _
  have hhead : al.head? = some (al[0]'(by omega)) := by rw [List.head?_eq_getElem?]; simp
  have hlast : al.getLast? = some (al[al.length - 1]'(by omega)) := by
    rw [List.getLast?_eq_getElem?]; simp
  have hhead2 := (insert_head hs hs2 hk h).trans hhead
  have hlast2 := (insert_last hs hs2 hk h).trans hlast
  by_cases hin : (al[0]'(by omega)).station ≤ s ∧ s ≤ (al[al.length - 1]'(by omega)).station
  swap
  · rw [not_and_or] at hin
    rcases hin with hin | hin <;>
      simp [fromStation, indexSegment, isValidStation, hhead, hlast, hhead2, hlast2, hin]
  obtain ⟨g1, g2⟩ := hin
  obtain ⟨j, hj, hidxj, j1, j2, ej⟩ := fromStation_spec o hs (by omega) s g1 g2
  obtain ⟨j', hj', hidxj', -, -, j3⟩ := segment_found hs (by omega) s g1 g2
  have : j' = j := by rw [hidxj] at hidxj'; simpa using hidxj'.symm
  subst this
  have g1' : ((al.insertIdx (k + 1) m)[0]'(by omega)).station ≤ s := by
    simpa [List.getElem_insertIdx] using g1
  have g2' : s ≤ ((al.insertIdx (k + 1) m)[(al.insertIdx (k + 1) m).length - 1]'(by omega)).station := by
    simp only [List.getElem_insertIdx, hlen, Nat.add_sub_cancel, show ¬ al.length < k + 1 by omega, dif_neg,
      not_false_eq_true, show ¬ al.length = k + 1 by omega, if_false]
    exact g2
  obtain ⟨i, hi, hidxi, i1, i2, ei⟩ := fromStation_spec o hs2 (by omega) s g1' g2'
  obtain ⟨i', hi', hidxi', -, -, i3⟩ := segment_found hs2 (by omega) s g1' g2'
  have : i' = i := by rw [hidxi] at hidxi'; simpa using hidxi'.symm
  subst this
  have hji := insert_segment hs hs2 hk h hi hj i1 i2 i3 j1 j2 j3
  rw [ei, ej]
  congr 2
  have hPl := pointsAlignment_length o al
  have hget := fun i => getD_insert (k := k) (pointsAlignment o al)
    (lerp ((pointsAlignment o al).getD k P3.default) ((pointsAlignment o al).getD (k + 1) P3.default)
        (fraction (al[k]'(by omega)) m (al[k + 1]'hk))) (by omega) i
  rw [← points_insert o hs m hk h] at hget
  rw [hget, hget]
  have d1 := h.lo
  have d2 := h.hi
  simp only [List.getElem_insertIdx]
  unfold oldSegment at hji
  by_cases c1 : i' + 1 ≤ k
  · rw [if_pos (by omega)] at hji
    subst hji
    simp only [show j' ≤ k by omega, show j' < k + 1 by omega, show j' + 1 < k + 1 by omega, c1, if_true, dif_pos]
  · by_cases c2 : i' = k
    · subst c2
      rw [if_pos le_rfl] at hji
      subst hji
      simp only [le_refl, if_true, show ¬ j' + 1 ≤ j' by omega, if_false, show j' < j' + 1 by omega, dif_pos,
        lt_irrefl, dite_false]
      have n1 : m.station - (al[j']'(by omega)).station ≠ 0 := by linarith
      have n2 : (al[j' + 1]'hk).station - (al[j']'(by omega)).station ≠ 0 := by linarith
      unfold lerp fraction
      ext <;> simp only <;> field_simp <;> ring
    · by_cases c3 : i' = k + 1
      · subst c3
        rw [if_neg (by omega)] at hji
        simp only [Nat.add_sub_cancel] at hji
        subst hji
        simp only [show ¬ j' + 1 ≤ j' by omega, show ¬ j' + 1 + 1 ≤ j' by omega, if_false, if_true,
          show ¬ j' + 1 + 1 = j' + 1 by omega, Nat.add_sub_cancel, lt_irrefl, dite_false,
          show ¬ j' + 1 + 1 < j' + 1 by omega, dif_neg, not_false_eq_true, dite_true]
        have n1 : (al[j' + 1]'hk).station - m.station ≠ 0 := by linarith
        have n2 : (al[j' + 1]'hk).station - (al[j']'(by omega)).station ≠ 0 := by linarith
        unfold lerp fraction
        ext <;> simp only <;> field_simp <;> ring
      · rw [if_neg (by omega)] at hji
        obtain ⟨i'', rfl⟩ : ∃ n, i' = n + 1 := ⟨i' - 1, by omega⟩
        simp only [Nat.add_sub_cancel] at hji
        subst hji
        simp only [show ¬ j' + 1 ≤ k by omega, show ¬ j' + 1 + 1 ≤ k by omega, if_false,
          show ¬ j' + 1 + 1 = k + 1 by omega, show ¬ j' + 1 = k + 1 by omega, Nat.add_sub_cancel,
          show ¬ j' + 1 < k + 1 by omega, show ¬ j' + 1 + 1 < k + 1 by omega, dif_neg, not_false_eq_true]

theorem insert_any {s : ℝ} (hne : s ≠ m.station) :
    (al.insertIdx (k + 1) m).any (fun p => decide (s = p.station)) = al.any (fun p => decide (s = p.station)) := by
  rw [Bool.eq_iff_iff]
  simp only [List.any_eq_true, decide_eq_true_eq]
  constructor
  · rintro ⟨x, hx, e⟩
    rcases (List.mem_insertIdx (by omega)).mp hx with rfl | hx
    · exact absurd e hne
    · exact ⟨x, hx, e⟩
  · rintro ⟨x, hx, e⟩
    exact ⟨x, (List.mem_insertIdx (by omega)).mpr (.inr hx), e⟩

/-- A structure at any station is turned the same way. -/
theorem insert_vectorStructure (s : ℝ) :
    vectorStructure (al.insertIdx (k + 1) m) (pointsAlignment o (al.insertIdx (k + 1) m)) s =
      vectorStructure al (pointsAlignment o al) s := by
  have hlen : (al.insertIdx (k + 1) m).length = al.length + 1 := List.length_insertIdx_of_le_length (by omega) _
  have hhead : al.head? = some (al[0]'(by omega)) := by rw [List.head?_eq_getElem?]; simp
  have hlast : al.getLast? = some (al[al.length - 1]'(by omega)) := by
    rw [List.getLast?_eq_getElem?]; simp
  have hhead2 := (insert_head hs hs2 hk h).trans hhead
  have hlast2 := (insert_last hs hs2 hk h).trans hlast
  have lt : ∀ i j (hi : i < al.length) (hj : j < al.length), i < j → (al[i]).station < (al[j]).station :=
    fun i j hi hj hij => List.pairwise_iff_getElem.mp hs i j hi hj hij
  have le : ∀ i j (hi : i < al.length) (hj : j < al.length), i ≤ j → (al[i]).station ≤ (al[j]).station := by
    intro i j hi hj hij
    rcases Nat.lt_or_eq_of_le hij with h' | h'
    · exact (lt i j hi hj h').le
    · subst h'; exact le_rfl
  by_cases hin : (al[0]'(by omega)).station ≤ s ∧ s ≤ (al[al.length - 1]'(by omega)).station
  swap
  · have hm : ∀ P : List P3, vectorSegment P (-1) = .throws := fun P => by simp [vectorSegment]
    have e1 : indexSegment al s = .val (-1) := by
      rw [not_and_or] at hin
      rcases hin with hin | hin <;> simp [indexSegment, isValidStation, hhead, hlast, hin]
    have e2 : indexSegment (al.insertIdx (k + 1) m) s = .val (-1) := by
      rw [not_and_or] at hin
      rcases hin with hin | hin <;> simp [indexSegment, isValidStation, hhead2, hlast2, hin]
    unfold vectorStructure
    simp only [e1, e2, hhead, hlast, hhead2, hlast2, hm, ite_self]
  obtain ⟨g1, g2⟩ := hin
  obtain ⟨j, hj, hidxj, j1, j2, j3⟩ := segment_found hs (by omega) s g1 g2
  have g1' : ((al.insertIdx (k + 1) m)[0]'(by omega)).station ≤ s := by
    simpa [List.getElem_insertIdx] using g1
  have g2' : s ≤ ((al.insertIdx (k + 1) m)[(al.insertIdx (k + 1) m).length - 1]'(by omega)).station := by
    simp only [List.getElem_insertIdx, hlen, Nat.add_sub_cancel, show ¬ al.length < k + 1 by omega, dif_neg,
      not_false_eq_true, show ¬ al.length = k + 1 by omega, if_false]
    exact g2
  obtain ⟨i, hi, hidxi, i1, i2, i3⟩ := segment_found hs2 (by omega) s g1' g2'
  have hji := insert_segment hs hs2 hk h hi hj i1 i2 i3 j1 j2 j3
  have hv := insert_vectorSegment o hs hs2 hk h (i := i) (by omega)
  rw [← hji] at hv
  have d1 := h.lo
  have d2 := h.hi
  by_cases hsm : s = m.station
  · -- the new point itself
    have hends : ¬ (s = (al[0]'(by omega)).station ∨ s = (al[al.length - 1]'(by omega)).station) := by
      rw [not_or, hsm]
      have := le 0 k (by omega) (by omega) (by omega)
      have := le (k + 1) (al.length - 1) (by omega) (by omega) (by omega)
      constructor <;> intro hc <;> linarith
    have hany : al.any (fun p => decide (s = p.station)) = false := by
      rw [List.any_eq_false]
      intro x hx
      obtain ⟨n, hn, rfl⟩ := List.getElem_of_mem hx
      simp only [decide_eq_true_eq]
      intro hc
      rcases Nat.lt_or_ge k n with h' | h'
      · have := le (k + 1) n (by omega) hn (by omega); linarith
      · have := le n k hn (by omega) h'; linarith
    have hany2 : (al.insertIdx (k + 1) m).any (fun p => decide (s = p.station)) ≠ false := by
      rw [ne_eq, Bool.not_eq_false, List.any_eq_true]
      exact ⟨m, (List.mem_insertIdx (by omega)).mpr (.inl rfl), by simpa using hsm⟩
    have hik : i = k := by
      have st : Sorted (al.insertIdx (k + 1) m) := hs2
      have hmk : ((al.insertIdx (k + 1) m)[k + 1]'(by omega)).station = s := by
        simp [List.getElem_insertIdx, hsm]
      have x1 : i < k + 1 := by
        by_contra hc
        rcases Nat.lt_or_eq_of_le (not_lt.mp hc) with h' | h'
        · have := List.pairwise_iff_getElem.mp st (k + 1) i (by omega) (by omega) h'
          linarith
        · subst h'
          rcases i3 with i3 | i3
          · omega
          · linarith
      have x2 : k < i + 1 := by
        by_contra hc
        have := List.pairwise_iff_getElem.mp st (i + 1) (k + 1) (by omega) (by omega) (by omega)
        linarith
      omega
    have hjk : j = k := by rw [hji, hik]; simp [oldSegment]
    have hv2 := insert_vectorSegment o hs hs2 hk h (i := k + 1) (by omega)
    have ho : oldSegment k (k + 1) = k := by simp [oldSegment]
    rw [ho] at hv2
    subst hik
    subst hjk
    have hm := step_magnitude o al hs j hj
    have hpos : 0 < (direction ⟨1, 0⟩ (pointsAlignment o al) (j + 1)).magnitude := by
      rw [hm]; linarith
    have hP := pointsAlignment_length o al
    have hseg : vectorSegment (pointsAlignment o al) j =
        .val (some ((direction ⟨1, 0⟩ (pointsAlignment o al) (j + 1)).scale
          (1 / (direction ⟨1, 0⟩ (pointsAlignment o al) (j + 1)).magnitude))) := by
      unfold vectorSegment
      rw [if_neg (by omega), Int.toNat_natCast, getElem?_getD (by omega), getElem?_getD (by omega)]
      simp only
      exact if_neg hpos.ne'
    set u := direction ⟨1, 0⟩ (pointsAlignment o al) (j + 1) with hu
    set w := u.scale (1 / u.magnitude) with hw
    have hwm : w.magnitude = 1 := by
      rw [hw, V2.magnitude_scale _ (by positivity)]; field_simp
    have e2 : V2.mk (w.x + w.x) (w.y + w.y) = w.scale 2 := by
      unfold V2.scale; ext <;> simp only <;> ring
    have e2m : (w.scale 2).magnitude = 2 := by rw [V2.magnitude_scale _ (by norm_num), hwm]; norm_num
    have e3 : (w.scale 2).scale (1 / 2) = w := by
      unfold V2.scale; ext <;> simp only <;> ring
    have hcast : ((j : Int) + 1) = ((j + 1 : ℕ) : Int) := by push_cast; rfl
    unfold vectorStructure
    rw [hidxi, hidxj]
    simp only [hhead, hlast, hhead2, hlast2, if_neg hends, if_pos hany, if_neg hany2, hcast, hv, hv2, hseg, e2, e2m,
      e3]
    norm_num
  · have hany := insert_any hs hs2 hk h hsm
    unfold vectorStructure
    rw [hidxi, hidxj]
    simp only [hhead, hlast, hhead2, hlast2, hany, hv]
    by_cases hends : s = (al[0]'(by omega)).station ∨ s = (al[al.length - 1]'(by omega)).station
    · simp only [if_pos hends]
    · simp only [if_neg hends]
      by_cases ha : al.any (fun p => decide (s = p.station)) = false
      · simp only [if_pos ha]
      · simp only [if_neg ha]
        -- an interior vertex of the old alignment
        rw [Bool.not_eq_false, List.any_eq_true] at ha
        obtain ⟨x, hx, hxs⟩ := ha
        obtain ⟨n, hn, rfl⟩ := List.getElem_of_mem hx
        simp only [decide_eq_true_eq] at hxs
        rw [not_or] at hends
        have hn0 : n ≠ 0 := by rintro rfl; exact hends.1 hxs
        have hn1 : n ≠ al.length - 1 := by rintro rfl; exact hends.2 hxs
        have hnj : n = j + 1 := by
          have x1 : j < n := by
            by_contra hc
            have := le n j hn (by omega) (by omega)
            rcases j3 with j3 | j3
            · omega
            · linarith
          have x2 : n ≤ j + 1 := by
            by_contra hc
            have := lt (j + 1) n (by omega) hn (by omega)
            linarith
          omega
        have hik : i ≠ k := by
          rintro rfl
          have i2' : s ≤ m.station := by simpa [List.getElem_insertIdx] using i2
          have hji' : j = i := by rw [hji]; simp [oldSegment]
          subst hji'
          subst hnj
          linarith
        have hold : oldSegment k (i + 1) = j + 1 := by
          rw [hji]; unfold oldSegment
          split <;> split <;> omega
        have hv2 := insert_vectorSegment o hs hs2 hk h (i := i + 1) (by
          have : i + 1 ≤ al.length - 1 := by
            rw [hji] at hnj
            unfold oldSegment at hnj
            split at hnj <;> omega
          omega)
        rw [hold] at hv2
        have hcast : ((j : Int) + 1) = ((j + 1 : ℕ) : Int) := by push_cast; rfl
        have hcast2 : ((i : Int) + 1) = ((i + 1 : ℕ) : Int) := by push_cast; rfl
        rw [hcast, hcast2, hv2]

end
end Geo
end Verif
