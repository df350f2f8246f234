import Verif.Props.LineOrigin

/-!
# The coordinates of a line in other units (C205)
-/

set_option linter.unusedSectionVars false

namespace Verif.Props
open Verif.GLine Verif.Geo

/-- A point in units of which `c` make one of the old. -/
def inUnits (c : ℝ) (p : P3) : P3 := ⟨p.x * c, p.y * c, p.z * c⟩

/-- An alignment point in other units of length. -/
def alignmentInUnits (c : ℝ) (q : AlignmentPoint ℝ) : AlignmentPoint ℝ := ⟨q.elevation * c, q.rotation, q.station * c⟩

/-- An attachment in other units of length. -/
def attachmentInUnits (c : ℝ) (a : StructureAttachment ℝ) : StructureAttachment ℝ :=
  ⟨a.offsetLongitudinal * c, a.offsetTransverse * c, a.offsetVerticalTop * c⟩

/-- A structure on the line in other units of length; the hardware may be any. -/
structure StructureInUnits (c : ℝ) (s s' : LineStructure ℝ) : Prop where
  heightAdjustment : s'.heightAdjustment = s.heightAdjustment * c
  offset : s'.offset = s.offset * c
  rotation : s'.rotation = s.rotation
  station : s'.station = s.station * c
  base : s'.base = s.base.map fun t => ⟨t.attachments.map (attachmentInUnits c), t.height * c⟩

/-- Two lines with the same alignment and structures in different units. -/
structure LineInUnits (c : ℝ) (g g' : GLine) : Prop where
  alignment : g'.line.alignment = g.line.alignment.map (alignmentInUnits c)
  structures : List.Forall₂ (fun e e' => StructureInUnits c e.2 e'.2) g.line.structures g'.line.structures

variable {c : ℝ}

theorem segmentPos_units (hc : 0 < c) (s : ℝ) (al : List (AlignmentPoint ℝ)) :
    Alignment.segmentPos (s * c) (al.map (alignmentInUnits c)) = Alignment.segmentPos s al := by
  induction al with
  | nil => rfl
  | cons q qs ih => simp only [List.map_cons, Alignment.segmentPos, ih, alignmentInUnits, mul_le_mul_iff_left₀ hc]

theorem station_eq (hc : 0 < c) {a b : ℝ} : a * c = b * c ↔ a = b := by
  rw [mul_left_inj' hc.ne']

theorem indexSegment_units (hc : 0 < c) (s : ℝ) (al : List (AlignmentPoint ℝ)) :
    Alignment.indexSegment (al.map (alignmentInUnits c)) (s * c) = Alignment.indexSegment al s := by
  unfold Alignment.indexSegment Alignment.isValidStation
  rw [List.head?_map, List.getLast?_map, segmentPos_units hc]
  cases al.head? with
  | none => rfl
  | some f =>
    cases al.getLast? with
    | none => rfl
    | some b => simp only [Option.map_some, alignmentInUnits, mul_le_mul_iff_left₀ hc, station_eq hc]

theorem fromVector_units (hc : 0 < c) {k : ℝ} (hk : 0 < k) (p : P3) (d e r : ℝ) (v : V2) :
    fromVector (inUnits c p) (d * c) (e * c) r (v.scale k) =
      (inUnits c (fromVector p d e r v).1, (fromVector p d e r v).2.scale c) := by
  rw [fromVector_scale _ _ _ _ _ hk]
  unfold fromVector inUnits V2.scale
  simp only [Prod.mk.injEq, P3.mk.injEq, V2.mk.injEq]
  exact ⟨⟨by ring, by ring, by ring⟩, by ring, by ring⟩

theorem alignmentLoop_units (hc : 0 < c) {k : ℝ} (hk : 0 < k) (prev : AlignmentPoint ℝ) (p : P3) (v : V2)
    (ps : List (AlignmentPoint ℝ)) :
    alignmentLoop (alignmentInUnits c prev) (inUnits c p) (v.scale k) (ps.map (alignmentInUnits c)) =
      (alignmentLoop prev p v ps).map (inUnits c) := by
  induction ps generalizing prev p v k with
  | nil => rfl
  | cons q qs ih =>
    simp only [alignmentLoop, List.map_cons]
    have e : fromVector (inUnits c p) ((alignmentInUnits c q).station - (alignmentInUnits c prev).station)
        ((alignmentInUnits c q).elevation - (alignmentInUnits c prev).elevation) (alignmentInUnits c prev).rotation
          (v.scale k) =
        (inUnits c (fromVector p (q.station - prev.station) (q.elevation - prev.elevation) prev.rotation v).1,
          (fromVector p (q.station - prev.station) (q.elevation - prev.elevation) prev.rotation v).2.scale c) := by
      rw [← fromVector_units hc hk]
      simp only [alignmentInUnits, sub_mul]
    rw [e, ih hc]

theorem scale_one (v : V2) : v.scale 1 = v := by unfold V2.scale; rw [mul_one, mul_one]

theorem pointsAlignment_units (hc : 0 < c) (p : P3) (al : List (AlignmentPoint ℝ)) :
    pointsAlignment (inUnits c p) (al.map (alignmentInUnits c)) = (pointsAlignment p al).map (inUnits c) := by
  cases al with
  | nil => rfl
  | cons q qs =>
    simp only [pointsAlignment, List.map_cons]
    rw [← alignmentLoop_units hc one_pos, scale_one]

theorem vectorSegment_units (hc : 0 < c) (pts : List P3) (i : Int) :
    vectorSegment (pts.map (inUnits c)) i = vectorSegment pts i := by
  unfold vectorSegment
  simp only [List.getElem?_map]
  split
  · rfl
  · cases pts[i.toNat]? with
    | none => rfl
    | some b =>
      cases pts[i.toNat + 1]? with
      | none => rfl
      | some a =>
        have e : V2.mk ((inUnits c a).x - (inUnits c b).x) ((inUnits c a).y - (inUnits c b).y) =
            (V2.mk (a.x - b.x) (a.y - b.y)).scale c := by
          simp only [inUnits, V2.scale, sub_mul]
        simp only [Option.map_some, e, V2.magnitude_scale _ hc.le]
        generalize V2.mk (a.x - b.x) (a.y - b.y) = v
        by_cases h : v.magnitude = 0
        · rw [if_pos h, if_pos (by rw [h, zero_mul])]
        · rw [if_neg h, if_neg (mul_ne_zero h hc.ne')]
          unfold V2.scale
          congr 3 <;> field_simp

theorem fromStation_units (hc : 0 < c) (al : List (AlignmentPoint ℝ)) (pts : List P3) (s : ℝ) (h : OnAlignment al s) :
    fromStation (al.map (alignmentInUnits c)) (pts.map (inUnits c)) (s * c) =
      onValue (Option.map (inUnits c)) (fromStation al pts s) := by
  obtain ⟨i, hi, h0⟩ := indexSegment_on h
  have hne : i ≠ -1 := by omega
  unfold fromStation
  simp only [indexSegment_units hc, hi, if_neg hne, List.getElem?_map, vectorSegment_units hc]
  cases pts[i.toNat]? with
  | none => rfl
  | some x =>
    cases pts[i.toNat + 1]? with
    | none => rfl
    | some y =>
      simp only [Option.map_some]
      cases al[i.toNat]? with
      | none => rfl
      | some back =>
        simp only [Option.map_some, alignmentInUnits, station_eq hc]
        split
        · rfl
        · cases al[i.toNat + 1]? with
          | none => rfl
          | some ahead =>
            simp only [Option.map_some, alignmentInUnits, station_eq hc]
            split
            · rfl
            · cases (if i = 0 then Res.val (some (V2.mk 1 0)) else vectorSegment pts (i - 1)) with
              | ub => rfl
              | throws => rfl
              | val w =>
                cases w with
                | none => rfl
                | some w =>
                  have e := congrArg Prod.fst (fromVector_units hc one_pos x (s - back.station)
                    ((ahead.elevation - back.elevation) / (ahead.station - back.station) * (s - back.station))
                      back.rotation w)
                  rw [scale_one] at e
                  simp only [onValue, Option.map_some, ← sub_mul]
                  rw [mul_div_mul_right _ _ hc.ne', ← mul_assoc, e]

theorem fromStation_off_units (hc : 0 < c) (al : List (AlignmentPoint ℝ)) (pts : List P3) (s : ℝ)
    (h : ¬ OnAlignment al s) :
    fromStation (al.map (alignmentInUnits c)) (pts.map (inUnits c)) (s * c) = fromStation al pts s := by
  unfold fromStation
  rcases indexSegment_off h with h | h <;> simp [indexSegment_units hc, h]

open Classical in
/-- What the units do to the point of a structure at station `s`. -/
noncomputable def pointInUnits (c : ℝ) (al : List (AlignmentPoint ℝ)) (s : ℝ) (p : Option P3) : Option P3 :=
  if OnAlignment al s then p.map (inUnits c) else p

theorem fromStation_pointInUnits (hc : 0 < c) (al : List (AlignmentPoint ℝ)) (pts : List P3) (s : ℝ) :
    fromStation (al.map (alignmentInUnits c)) (pts.map (inUnits c)) (s * c) =
      onValue (pointInUnits c al s) (fromStation al pts s) := by
  by_cases h : OnAlignment al s
  · rw [fromStation_units hc al pts s h]
    congr 1; funext p; simp [pointInUnits, h]
  · rw [fromStation_off_units hc al pts s h]
    have : pointInUnits c al s = id := by funext p; simp [pointInUnits, h]
    rw [this]; cases fromStation al pts s <;> rfl

theorem structuresLoop_units (hc : 0 < c) (al : List (AlignmentPoint ℝ)) (pts : List P3) (ss : List ℝ) :
    (structuresLoop (al.map (alignmentInUnits c)) (pts.map (inUnits c)) (ss.map (· * c))).2 =
      (structuresLoop al pts ss).2 ∧
    (structuresLoop (al.map (alignmentInUnits c)) (pts.map (inUnits c)) (ss.map (· * c))).1 =
      List.zipWith (pointInUnits c al) ss (structuresLoop al pts ss).1 := by
  induction ss with
  | nil => exact ⟨rfl, rfl⟩
  | cons s ss ih =>
    simp only [structuresLoop, List.map_cons, fromStation_pointInUnits hc]
    cases fromStation al pts s with
    | ub => exact ⟨rfl, rfl⟩
    | throws => exact ⟨rfl, rfl⟩
    | val p => simp only [onValue, List.zipWith_cons_cons, ih.1, ih.2, and_self]

theorem LineInUnits.stations {g g' : GLine} (h : LineInUnits c g g') : g'.stations = g.stations.map (· * c) := by
  unfold GLine.stations
  have := h.structures
  generalize g.line.structures = l at this
  generalize g'.line.structures = l' at this
  induction this with
  | nil => rfl
  | cons a _ ih => simp only [List.map_cons, a.station, ih]

theorem query_units {A : Type} {g g' : GLine} (hc : 0 < c) (hg : LineInUnits c g g') (p : P3) (f f' : GLine → Res A)
    (m : A → A)
    (h : (structuresLoop g.line.alignment (pointsAlignment p g.line.alignment) g.stations).2 = .val () →
      f' (updatedAt g' (inUnits c p)) = onValue m (f (updatedAt g p))) :
    answer ((g'.setOrigin (inUnits c p)).query f') = onValue m (answer ((g.setOrigin p).query f)) := by
  rw [query_setOrigin, query_setOrigin, hg.alignment, hg.stations, pointsAlignment_units hc,
    (structuresLoop_units hc _ _ _).1]
  cases hL : (structuresLoop g.line.alignment (pointsAlignment p g.line.alignment) g.stations).2 with
  | val u => exact h hL
  | throws => rfl
  | ub => rfl

/-- **C205**. A line built in other units of length reports the same alignment points in these units. -/
theorem C205_alignment {g g' : GLine} (hc : 0 < c) (hg : LineInUnits c g g') (p : P3) :
    answer (g'.setOrigin (inUnits c p)).pointsXyzAlignment =
      onValue (List.map (inUnits c)) (answer (g.setOrigin p).pointsXyzAlignment) := by
  refine query_units hc hg p _ _ _ fun _ => ?_
  simp only [updatedAt, hg.alignment, pointsAlignment_units hc, onValue]

/-- **C205**. And the same point for every station on the alignment. -/
theorem C205_station {g g' : GLine} (hc : 0 < c) (hg : LineInUnits c g g') (p : P3) {s : ℝ}
    (h : OnAlignment g.line.alignment s) :
    answer ((g'.setOrigin (inUnits c p)).pointXyzAlignment (s * c)) =
      onValue (Option.map (inUnits c)) (answer ((g.setOrigin p).pointXyzAlignment s)) := by
  refine query_units hc hg p _ _ _ fun _ => ?_
  simp only [updatedAt, hg.alignment, pointsAlignment_units hc]
  exact fromStation_units hc _ _ s h

/-- **C205**. The points of the structures are the same when these are on the alignment. -/
theorem C205_structures {g g' : GLine} (hc : 0 < c) (hg : LineInUnits c g g') (p : P3)
    (h : ∀ e ∈ g.line.structures, OnAlignment g.line.alignment e.2.station) :
    answer (g'.setOrigin (inUnits c p)).pointsXyzLineStructures =
      onValue (List.map (Option.map (inUnits c))) (answer (g.setOrigin p).pointsXyzLineStructures) := by
  refine query_units hc hg p _ _ _ fun hL => ?_
  have hlen := structuresLoop_length _ _ _ hL
  simp only [updatedAt, hg.alignment, hg.stations, pointsAlignment_units hc, onValue, Res.val.injEq,
    (structuresLoop_units hc _ _ _).2]
  refine List.ext_getElem (by simp [hlen]) fun i h1 h2 => ?_
  simp only [List.getElem_zipWith, List.getElem_map]
  have hi : i < g.stations.length := by simp at h1; omega
  have : OnAlignment g.line.alignment g.stations[i] := by
    simp only [stations, List.getElem_map]
    exact h _ (List.getElem_mem _)
  simp [pointInUnits, this]

theorem vectorStructure_units (hc : 0 < c) (al : List (AlignmentPoint ℝ)) (pts : List P3) (s : ℝ) :
    vectorStructure (al.map (alignmentInUnits c)) (pts.map (inUnits c)) (s * c) = vectorStructure al pts s := by
  unfold vectorStructure
  have e : ((fun q : AlignmentPoint ℝ => decide (s * c = q.station)) ∘ alignmentInUnits c) =
      fun q => decide (s = q.station) := by
    funext q
    simp only [Function.comp, alignmentInUnits, station_eq hc]
  rw [indexSegment_units hc, List.head?_map, List.getLast?_map, List.any_map, e]
  cases al.head? with
  | none => rfl
  | some f =>
    cases al.getLast? with
    | none => rfl
    | some b => simp only [Option.map_some, vectorSegment_units hc, alignmentInUnits, station_eq hc]

theorem attachmentLocal_units (hc : 0 < c) {s s' : LineStructure ℝ} (h : StructureInUnits c s s') (t : Structure ℝ)
    (a : StructureAttachment ℝ) :
    attachmentLocal s' ⟨t.attachments.map (attachmentInUnits c), t.height * c⟩ (attachmentInUnits c a) =
      inUnits c (attachmentLocal s t a) := by
  have e : V2.mk (attachmentInUnits c a).offsetLongitudinal (-(attachmentInUnits c a).offsetTransverse) =
      (V2.mk a.offsetLongitudinal (-a.offsetTransverse)).scale c := by
    simp only [attachmentInUnits, V2.scale, neg_mul]
  unfold attachmentLocal
  simp only [e, h.rotation, V2.rotate_scale _ hc, h.offset, h.heightAdjustment]
  simp only [V2.scale, inUnits, attachmentInUnits, P3.mk.injEq]
  exact ⟨trivial, by ring, by ring⟩

/-- **C205**. And so are the attachment points of every structure. -/
theorem C205_attachment {g g' : GLine} (hc : 0 < c) (hg : LineInUnits c g g') (p : P3) {i j : ℕ} {ptr : Ptr}
    {s : LineStructure ℝ} {t : Structure ℝ} {a : StructureAttachment ℝ} (hs : g.line.structures[i]? = some (ptr, s))
    (ht : s.base = some t) (ha : t.attachments[j]? = some a) (h : OnAlignment g.line.alignment s.station) :
    answer ((g'.setOrigin (inUnits c p)).pointXyzLineStructureAttachment i j) =
      onValue (Option.map (inUnits c)) (answer ((g.setOrigin p).pointXyzLineStructureAttachment i j)) := by
  refine query_units hc hg p _ _ _ fun _ => ?_
  obtain ⟨hi, -⟩ := List.getElem?_eq_some_iff.mp hs
  obtain ⟨hj, -⟩ := List.getElem?_eq_some_iff.mp ha
  obtain ⟨ptr', s', hs', hu⟩ : ∃ ptr' s', g'.line.structures[i]? = some (ptr', s') ∧ StructureInUnits c s s' := by
    have hl := hg.structures.length_eq
    have hi' : i < g'.line.structures.length := by omega
    refine ⟨g'.line.structures[i].1, g'.line.structures[i].2, List.getElem?_eq_getElem hi', ?_⟩
    have := hg.structures.get hi hi'
    have e : g.line.structures[i] = (ptr, s) := (List.getElem?_eq_some_iff.mp hs).2
    simp only [List.get_eq_getElem, e] at this
    exact this
  obtain ⟨hi', -⟩ := List.getElem?_eq_some_iff.mp hs'
  have hv : validIndex (i : Int) g.line.structures.length = true := validIndex_natCast.mpr hi
  have hv' : validIndex (i : Int) g'.line.structures.length = true := validIndex_natCast.mpr hi'
  have hw : validIndex (j : Int) t.attachments.length = true := validIndex_natCast.mpr hj
  have hst : g.stations[i]? = some s.station := by simp [stations, hs]
  have hb : s'.base = some ⟨t.attachments.map (attachmentInUnits c), t.height * c⟩ := by rw [hu.base, ht]; rfl
  simp only [attachmentPoint, updatedAt, hg.alignment, hg.stations, pointsAlignment_units hc,
    (structuresLoop_units hc _ _ _).2, hv, hv', hw, hs, hs', ht, hb, ha, Bool.true_eq_false, if_false,
    Int.toNat_natCast, List.getElem?_zipWith, hu.station, vectorStructure_units hc, hst, List.length_map,
    List.getElem?_map, Option.map_some, attachmentLocal_units hc hu]
  cases vectorStructure g.line.alignment (pointsAlignment p g.line.alignment) s.station with
  | ub => rfl
  | throws => rfl
  | val w =>
    cases (structuresLoop g.line.alignment (pointsAlignment p g.line.alignment) g.stations).1[i]? with
    | none => rfl
    | some q =>
      cases w with
      | none => cases q <;> rfl
      | some w =>
        cases q with
        | none => simp [pointInUnits, h, onValue]
        | some q =>
          have e : V2.mk (inUnits c (attachmentLocal s t a)).x (inUnits c (attachmentLocal s t a)).y =
              (V2.mk (attachmentLocal s t a).x (attachmentLocal s t a).y).scale c := rfl
          simp only [pointInUnits, h, if_true, Option.map_some, onValue, e, V2.rotate_scale _ hc]
          simp only [inUnits, V2.scale, add_mul]

/-! ### Edits -/

theorem searchPos_units (hc : 0 < c) (s : ℝ) (al : List (AlignmentPoint ℝ)) :
    searchPos AlignmentPoint.station (s * c) (al.map (alignmentInUnits c)) = searchPos AlignmentPoint.station s al := by
  induction al with
  | nil => rfl
  | cons q qs ih =>
    simp only [List.map_cons, searchPos, ih, alignmentInUnits, mul_lt_mul_iff_left₀ hc, station_eq hc]

theorem addPoint_units (hc : 0 < c) (al : List (AlignmentPoint ℝ)) (q : AlignmentPoint ℝ) :
    Alignment.addPoint (al.map (alignmentInUnits c)) (alignmentInUnits c q) =
      ((Alignment.addPoint al q).1.map (alignmentInUnits c), (Alignment.addPoint al q).2) := by
  unfold Alignment.addPoint
  rw [show (alignmentInUnits c q).station = q.station * c from rfl, searchPos_units hc]
  cases searchPos AlignmentPoint.station q.station al with
  | none => rfl
  | some i => simp only [List.map_insertIdx]

theorem deletePoint_units (al : List (AlignmentPoint ℝ)) (i : Int) :
    Alignment.deletePoint (al.map (alignmentInUnits c)) i =
      ((Alignment.deletePoint al i).1.map (alignmentInUnits c), (Alignment.deletePoint al i).2) := by
  unfold Alignment.deletePoint
  rw [List.length_map]
  split
  · simp only [List.eraseIdx_map]
  · rfl

theorem modifyPoint_units (hc : 0 < c) (al : List (AlignmentPoint ℝ)) (i : Int) (q : AlignmentPoint ℝ) :
    Alignment.modifyPoint (al.map (alignmentInUnits c)) i (alignmentInUnits c q) =
      ((Alignment.modifyPoint al i q).1.map (alignmentInUnits c), (Alignment.modifyPoint al i q).2) := by
  unfold Alignment.modifyPoint
  by_cases h : validIndex i al.length = true
  · have h' : validIndex i (al.map (alignmentInUnits c)).length = true := by rw [List.length_map]; exact h
    rw [dif_pos h, dif_pos h']
    simp only [deletePoint_units, addPoint_units hc, List.getElem_map]
    split
    · rfl
    · split <;> rfl
  · have h' : ¬ validIndex i (al.map (alignmentInUnits c)).length = true := by rw [List.length_map]; exact h
    rw [dif_neg h, dif_neg h']

/-- A call on an alignment with its argument in other units. -/
def callInUnits (c : ℝ) : Alignment.Op ℝ → Alignment.Op ℝ
  | .add q => .add (alignmentInUnits c q)
  | .delete i => .delete i
  | .modify i q => .modify i (alignmentInUnits c q)

/-- **C205**. The same calls in other units build the same alignment in these units, and adding, deleting and modifying
return the same on both. -/
theorem C205_edits (hc : 0 < c) (ops : List (Alignment.Op ℝ)) :
    Alignment.run (ops.map (callInUnits c)) = (Alignment.run ops).map (alignmentInUnits c) ∧
    (∀ q, (Alignment.addPoint (Alignment.run (ops.map (callInUnits c))) (alignmentInUnits c q)).2 =
      (Alignment.addPoint (Alignment.run ops) q).2) ∧
    (∀ i, (Alignment.deletePoint (Alignment.run (ops.map (callInUnits c))) i).2 =
      (Alignment.deletePoint (Alignment.run ops) i).2) ∧
    (∀ i q, (Alignment.modifyPoint (Alignment.run (ops.map (callInUnits c))) i (alignmentInUnits c q)).2 =
      (Alignment.modifyPoint (Alignment.run ops) i q).2) ∧
    ∀ s, Alignment.indexSegment (Alignment.run (ops.map (callInUnits c))) (s * c) =
      Alignment.indexSegment (Alignment.run ops) s := by
  have e : Alignment.run (ops.map (callInUnits c)) = (Alignment.run ops).map (alignmentInUnits c) := by
    unfold Alignment.run
    have : ∀ al : List (AlignmentPoint ℝ), (ops.map (callInUnits c)).foldl Alignment.Op.apply (al.map (alignmentInUnits c)) =
        (ops.foldl Alignment.Op.apply al).map (alignmentInUnits c) := by
      induction ops with
      | nil => exact fun _ => rfl
      | cons o os ih =>
        intro al
        rw [List.map_cons, List.foldl_cons, List.foldl_cons, ← ih]
        congr 1
        cases o with
        | add q => exact congrArg Prod.fst (addPoint_units hc al q)
        | delete i => exact congrArg Prod.fst (deletePoint_units al i)
        | modify i q => exact congrArg Prod.fst (modifyPoint_units hc al i q)
    exact this []
  rw [e]
  exact ⟨rfl, fun q => by rw [addPoint_units hc], fun i => by rw [deletePoint_units],
    fun i q => by rw [modifyPoint_units hc], fun s => indexSegment_units hc s _⟩

/-! ### The line of the other examples in inches -/

/-- The structure in inches. -/
noncomputable def exStructureInches : LineStructure ℝ := ⟨[none], 0, 0, 0, 600, some ⟨[⟨12, 24, 36⟩], 600⟩⟩

theorem exStructureInches_reachable : LineStructure.Reachable exStructureInches := by
  have h0 := LineStructure.Reachable.new (0 : ℝ)
  have h1 := h0.step (s' := ⟨[none], 0, 0, 0, 0, some ⟨[⟨12, 24, 36⟩], 600⟩⟩) (.setStructure (some ⟨[⟨12, 24, 36⟩], 600⟩))
    (by simp [LineStructure.Op.apply, LineStructure.setStructure, LineStructure.new, LineStructure.resize, Outcome.state?])
  exact h1.step (.setStation 600) rfl

/-- The line in inches. -/
noncomputable def exInches : GLine :=
  ⟨⟨[⟨0, 0, 0⟩, ⟨120, 0, 1200⟩], [(1, exStructureInches)], []⟩, ⟨0, 0, 0⟩, false, false, [], []⟩

theorem exInches_reachable : exInches.Reachable := by
  refine ⟨[.setOrigin ⟨0, 0, 0⟩, .edit noHeap (.addAlignmentPoint ⟨0, 0, 0⟩),
    .edit noHeap (.addAlignmentPoint ⟨120, 0, 1200⟩), .edit noHeap (.addLineStructure 1 exStructureInches)],
    .cons trivial rfl (.cons trivial (g' := ⟨⟨[⟨0, 0, 0⟩], [], []⟩, ⟨0, 0, 0⟩, false, false, [], []⟩) ?_
    (.cons trivial (g' := ⟨⟨[⟨0, 0, 0⟩, ⟨120, 0, 1200⟩], [], []⟩, ⟨0, 0, 0⟩, false, false, [], []⟩) ?_
      (.cons ⟨by decide, ?_, exStructureInches_reachable⟩ ?_ (.nil _))))⟩
  · simp [Event.next, edit, Line.Op.apply, Line.addAlignmentPoint, Alignment.addPoint, searchPos, setOrigin,
      GLine.new, Line.empty, Line.wrap, edited, resets, Outcome.state?]
  · have h2 : ¬ ((1200 : ℝ) < 0) := by norm_num
    simp [Event.next, edit, Line.Op.apply, Line.addAlignmentPoint, Alignment.addPoint, searchPos, h2,
      Line.wrap, edited, resets, Outcome.state?]
  · simp
  · have h1 : (0 : ℝ) ≤ 600 ∧ (600 : ℝ) ≤ 1200 := by norm_num
    simp [Event.next, edit, Line.Op.apply, Line.addLineStructure, Alignment.isValidStation,
      exStructureInches, searchPos, Line.wrap, edited, resets, Outcome.state?, exInches, h1]

/-- The line in feet. -/
noncomputable def exFeet : GLine := ⟨exLine1, ⟨0, 0, 0⟩, false, false, [], []⟩

theorem exFeet_reachable : exFeet.Reachable := by
  set g0 : GLine := ⟨exLine, ⟨0, 0, 0⟩, false, false, [], []⟩ with hg0
  have hr0 : Reachable g0 := ⟨_, exEdits_runs⟩
  exact reachable_step hr0 _ (exAdd_pre g0 rfl) (exAdd g0 rfl)

theorem exInches_units : LineInUnits 12 exFeet exInches := by
  refine ⟨?_, .cons ⟨?_, ?_, rfl, ?_, ?_⟩ .nil⟩
  · norm_num [exFeet, exInches, exLine1, exLine, alignmentInUnits]
  · norm_num [exStructure, exStructureInches]
  · norm_num [exStructure, exStructureInches]
  · norm_num [exStructure, exStructureInches]
  · norm_num [exStructure, exStructureInches, exBase, attachmentInUnits]

/-- The attachment of the line in inches is where that of the line in feet is. -/
example (p : P3) : exFeet.Reachable ∧ exInches.Reachable ∧
    answer ((exInches.setOrigin (inUnits 12 p)).pointXyzLineStructureAttachment (0 : ℕ) (0 : ℕ)) =
      onValue (Option.map (inUnits 12)) (answer ((exFeet.setOrigin p).pointXyzLineStructureAttachment (0 : ℕ) (0 : ℕ))) :=
  ⟨exFeet_reachable, exInches_reachable, C205_attachment (by norm_num) exInches_units p (ptr := 1) (s := exStructure)
    (t := exBase) (a := ⟨1, 2, 3⟩) rfl rfl rfl
    ⟨_, _, rfl, rfl, by simp [exStructure], by norm_num [exStructure]⟩⟩

/-- Two points of an alignment in feet and in inches. -/
example : Alignment.run [.add ⟨1200, 30, 1200⟩, .add ⟨0, 0, 0⟩] =
    (Alignment.run [.add ⟨100, 30, 100⟩, .add ⟨0, 0, 0⟩]).map (alignmentInUnits 12) := by
  rw [← (C205_edits (c := 12) (by norm_num) _).1]
  norm_num [callInUnits, alignmentInUnits]

end Verif.Props
