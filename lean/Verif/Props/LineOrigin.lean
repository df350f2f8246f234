import Verif.Props.LineGeometry

/-!
# Moving the origin of a line (C147)
-/

set_option linter.unusedSectionVars false

namespace Verif.Props
open Verif.GLine Verif.Geo

/-- The point `p` moved by `d`. -/
def movedBy (d p : P3) : P3 := ⟨p.x + d.x, p.y + d.y, p.z + d.z⟩

/-- Applies `f` to the value of a call that returned. -/
def onValue {A B : Type} (f : A → B) : Res A → Res B
  | .val a => .val (f a)
  | .throws => .throws
  | .ub => .ub

/-- The station lies between the first and the last point of the alignment. -/
def OnAlignment (al : List (AlignmentPoint ℝ)) (s : ℝ) : Prop :=
  ∃ f b, al.head? = some f ∧ al.getLast? = some b ∧ f.station ≤ s ∧ s ≤ b.station

theorem indexSegment_on {al : List (AlignmentPoint ℝ)} {s : ℝ} (h : OnAlignment al s) :
    ∃ i, Alignment.indexSegment al s = .val i ∧ 0 ≤ i := by
  obtain ⟨f, b, hf, hb, h1, h2⟩ := h
  simp only [Alignment.indexSegment, Alignment.isValidStation, hf, hb, h1, h2, decide_true, Bool.and_self]
  split
  · exact ⟨0, rfl, le_refl _⟩
  · rename_i hne
    refine ⟨_, rfl, ?_⟩
    cases al with
    | nil => simp at hf
    | cons q qs =>
      simp only [List.head?_cons, Option.some.injEq] at hf
      subst hf
      have : ¬ s ≤ q.station := fun h => hne (le_antisymm h h1)
      simp [Alignment.segmentPos, this]

theorem indexSegment_off {al : List (AlignmentPoint ℝ)} {s : ℝ} (h : ¬ OnAlignment al s) :
    Alignment.indexSegment al s = .ub ∨ Alignment.indexSegment al s = .val (-1) := by
  simp only [Alignment.indexSegment, Alignment.isValidStation]
  cases hf : al.head? with
  | none => left; rfl
  | some f =>
    cases hb : al.getLast? with
    | none => left; rfl
    | some b =>
      right
      have : ¬ (f.station ≤ s ∧ s ≤ b.station) := fun hh => h ⟨f, b, hf, hb, hh⟩
      rw [not_and_or] at this
      rcases this with h | h <;> simp [h]

theorem alignmentLoop_moved (d : P3) (prev : AlignmentPoint ℝ) (p : P3) (v : V2) (ps : List (AlignmentPoint ℝ)) :
    alignmentLoop prev (movedBy d p) v ps = (alignmentLoop prev p v ps).map (movedBy d) := by
  induction ps generalizing prev p v with
  | nil => rfl
  | cons q qs ih =>
    simp only [alignmentLoop, List.map_cons]
    have e : (fromVector (movedBy d p) (q.station - prev.station) (q.elevation - prev.elevation) prev.rotation v) =
        (movedBy d (fromVector p (q.station - prev.station) (q.elevation - prev.elevation) prev.rotation v).1,
          (fromVector p (q.station - prev.station) (q.elevation - prev.elevation) prev.rotation v).2) := by
      simp only [fromVector, movedBy, Prod.mk.injEq, and_true, P3.mk.injEq]
      exact ⟨by ring, by ring, by ring⟩
    rw [e, ih]

theorem pointsAlignment_moved (d p : P3) (al : List (AlignmentPoint ℝ)) :
    pointsAlignment (movedBy d p) al = (pointsAlignment p al).map (movedBy d) := by
  cases al with
  | nil => rfl
  | cons q qs => simp only [pointsAlignment, List.map_cons, alignmentLoop_moved]

theorem vectorSegment_moved (d : P3) (pts : List P3) (i : Int) :
    vectorSegment (pts.map (movedBy d)) i = vectorSegment pts i := by
  unfold vectorSegment
  simp only [List.getElem?_map]
  split
  · rfl
  · cases pts[i.toNat]? with
    | none => rfl
    | some b =>
      cases pts[i.toNat + 1]? with
      | none => rfl
      | some a => simp only [Option.map_some, movedBy, add_sub_add_right_eq_sub]

theorem fromVector_moved (d p : P3) (a b r : ℝ) (v : V2) :
    (fromVector (movedBy d p) a b r v).1 = movedBy d (fromVector p a b r v).1 := by
  simp only [fromVector, movedBy, P3.mk.injEq]
  exact ⟨by ring, by ring, by ring⟩

theorem fromStation_moved (d : P3) (al : List (AlignmentPoint ℝ)) (pts : List P3) (s : ℝ)
    (h : OnAlignment al s) :
    fromStation al (pts.map (movedBy d)) s = onValue (Option.map (movedBy d)) (fromStation al pts s) := by
  obtain ⟨i, hi, h0⟩ := indexSegment_on h
  have hne : i ≠ -1 := by omega
  unfold fromStation
  simp only [hi, if_neg hne, List.getElem?_map, vectorSegment_moved]
  cases pts[i.toNat]? with
  | none => rfl
  | some x =>
    cases pts[i.toNat + 1]? with
    | none => rfl
    | some y =>
      simp only [Option.map_some]
      cases al[i.toNat]? with
      | none => rfl
      | some back =>
        simp only
        split
        · rfl
        · cases al[i.toNat + 1]? with
          | none => rfl
          | some ahead =>
            simp only
            split
            · rfl
            · cases (if i = 0 then Res.val (some (V2.mk 1 0)) else vectorSegment pts (i - 1)) with
              | ub => rfl
              | throws => rfl
              | val w =>
                cases w with
                | none => rfl
                | some w => simp only [onValue, Option.map_some, fromVector_moved]

theorem fromStation_off (d : P3) (al : List (AlignmentPoint ℝ)) (pts : List P3) (s : ℝ)
    (h : ¬ OnAlignment al s) : fromStation al (pts.map (movedBy d)) s = fromStation al pts s := by
  unfold fromStation
  rcases indexSegment_off h with h | h <;> simp [h]

open Classical in
/-- What moving the origin does to the point of a structure at station `s`. -/
noncomputable def pointMoved (al : List (AlignmentPoint ℝ)) (d : P3) (s : ℝ) (p : Option P3) : Option P3 :=
  if OnAlignment al s then p.map (movedBy d) else p

theorem fromStation_pointMoved (d : P3) (al : List (AlignmentPoint ℝ)) (pts : List P3) (s : ℝ) :
    fromStation al (pts.map (movedBy d)) s = onValue (pointMoved al d s) (fromStation al pts s) := by
  by_cases h : OnAlignment al s
  · rw [fromStation_moved d al pts s h]
    congr 1; funext p; simp [pointMoved, h]
  · rw [fromStation_off d al pts s h]
    have : pointMoved al d s = id := by funext p; simp [pointMoved, h]
    rw [this]; cases fromStation al pts s <;> rfl

theorem structuresLoop_moved (d : P3) (al : List (AlignmentPoint ℝ)) (pts : List P3) (ss : List ℝ) :
    (structuresLoop al (pts.map (movedBy d)) ss).2 = (structuresLoop al pts ss).2 ∧
    (structuresLoop al (pts.map (movedBy d)) ss).1 =
      List.zipWith (pointMoved al d) ss (structuresLoop al pts ss).1 := by
  induction ss with
  | nil => exact ⟨rfl, rfl⟩
  | cons s ss ih =>
    simp only [structuresLoop, fromStation_pointMoved]
    cases fromStation al pts s with
    | ub => exact ⟨rfl, rfl⟩
    | throws => exact ⟨rfl, rfl⟩
    | val p => simp only [onValue, List.zipWith_cons_cons, ih.1, ih.2, and_self]

/-- The line after the update that the first coordinate query after `set_origin` runs. -/
noncomputable def updatedAt (g : GLine) (p : P3) : GLine :=
  ⟨g.line, p, true, true, pointsAlignment p g.line.alignment,
    (structuresLoop g.line.alignment (pointsAlignment p g.line.alignment) g.stations).1⟩

theorem query_setOrigin {A : Type} (g : GLine) (p : P3) (f : GLine → Res A) :
    answer ((g.setOrigin p).query f) =
      match (structuresLoop g.line.alignment (pointsAlignment p g.line.alignment) g.stations).2 with
      | .val _ => f (updatedAt g p)
      | .throws => .throws
      | .ub => .ub := by
  simp only [query, refresh, isUpdated, setOrigin, GLine.update, updateA, stations, Bool.or_self, if_true,
    updatedAt]
  cases (structuresLoop g.line.alignment (pointsAlignment p g.line.alignment)
    (g.line.structures.map fun e => e.2.station)).2 with
  | val u => simp only; split <;> simp_all [answer]
  | throws => rfl
  | ub => rfl

theorem query_moved {A : Type} (g : GLine) (d p : P3) (f : GLine → Res A) (m : A → A)
    (h : f (updatedAt g (movedBy d p)) = onValue m (f (updatedAt g p))) :
    answer ((g.setOrigin (movedBy d p)).query f) = onValue m (answer ((g.setOrigin p).query f)) := by
  rw [query_setOrigin, query_setOrigin, pointsAlignment_moved, (structuresLoop_moved d _ _ _).1]
  cases (structuresLoop g.line.alignment (pointsAlignment p g.line.alignment) g.stations).2 with
  | val u => exact h
  | throws => rfl
  | ub => rfl

/-- C147: setting an origin that is moved by `d` moves every alignment point by `d`. -/
theorem C147_alignment (g : GLine) (p d : P3) :
    answer (g.setOrigin (movedBy d p)).pointsXyzAlignment =
      onValue (List.map (movedBy d)) (answer (g.setOrigin p).pointsXyzAlignment) := by
  refine query_moved g d p _ _ ?_
  simp only [updatedAt, pointsAlignment_moved, onValue]

/-- C147: and the point of every station on the alignment. -/
theorem C147_station (g : GLine) (p d : P3) {s : ℝ} (h : OnAlignment g.line.alignment s) :
    answer ((g.setOrigin (movedBy d p)).pointXyzAlignment s) =
      onValue (Option.map (movedBy d)) (answer ((g.setOrigin p).pointXyzAlignment s)) := by
  refine query_moved g d p _ _ ?_
  simp only [updatedAt, pointsAlignment_moved]
  exact fromStation_moved d _ _ s h

/-- C147: the points of the structures move with the origin when the structures are on the alignment. -/
theorem C147_structures (g : GLine) (p d : P3)
    (h : ∀ e ∈ g.line.structures, OnAlignment g.line.alignment e.2.station) :
    answer (g.setOrigin (movedBy d p)).pointsXyzLineStructures =
      onValue (List.map (Option.map (movedBy d))) (answer (g.setOrigin p).pointsXyzLineStructures) := by
  unfold pointsXyzLineStructures
  rw [query_setOrigin, query_setOrigin, pointsAlignment_moved, (structuresLoop_moved d _ _ _).1]
  cases hL : (structuresLoop g.line.alignment (pointsAlignment p g.line.alignment) g.stations).2 with
  | throws => rfl
  | ub => rfl
  | val u =>
    have hlen := structuresLoop_length _ _ _ hL
    simp only [updatedAt, pointsAlignment_moved, onValue, Res.val.injEq, (structuresLoop_moved d _ _ _).2]
    refine List.ext_getElem (by simp [hlen]) fun i h1 h2 => ?_
    simp only [List.getElem_zipWith, List.getElem_map]
    have hi : i < g.stations.length := by simp at h1; omega
    have : OnAlignment g.line.alignment g.stations[i] := by
      simp only [stations, List.getElem_map]
      exact h _ (List.getElem_mem _)
    simp [pointMoved, this]

/-- C147: so does the point of a single structure, given that this structure is on the alignment. -/
theorem C147_structure (g : GLine) (p d : P3) {i : ℕ} {ptr : Ptr} {s : LineStructure ℝ}
    (hs : g.line.structures[i]? = some (ptr, s)) (h : OnAlignment g.line.alignment s.station) :
    answer ((g.setOrigin (movedBy d p)).pointXyzLineStructure i) =
      onValue (Option.map (movedBy d)) (answer ((g.setOrigin p).pointXyzLineStructure i)) := by
  refine query_moved g d p _ _ ?_
  obtain ⟨hi, he⟩ := List.getElem?_eq_some_iff.mp hs
  have hv : validIndex (i : Int) g.line.structures.length = true := validIndex_natCast.mpr hi
  simp only [structurePoint, updatedAt, pointsAlignment_moved, (structuresLoop_moved d _ _ _).2, hv,
    Bool.true_eq_false, if_false, Int.toNat_natCast, List.getElem?_zipWith]
  have hst : g.stations[i]? = some s.station := by simp [stations, hs]
  rw [hst]
  cases (structuresLoop g.line.alignment (pointsAlignment p g.line.alignment) g.stations).1[i]? with
  | none => rfl
  | some q => simp [onValue, pointMoved, h]

theorem vectorStructure_moved (d : P3) (al : List (AlignmentPoint ℝ)) (pts : List P3) (s : ℝ) :
    vectorStructure al (pts.map (movedBy d)) s = vectorStructure al pts s := by
  simp only [vectorStructure, vectorSegment_moved]

/-- C147: and the attachment points of every structure that exist. -/
theorem C147_attachment (g : GLine) (p d : P3) {i j : ℕ} {ptr : Ptr} {s : LineStructure ℝ} {t : Structure ℝ}
    {a : StructureAttachment ℝ} (hs : g.line.structures[i]? = some (ptr, s)) (ht : s.base = some t)
    (ha : t.attachments[j]? = some a) :
    answer ((g.setOrigin (movedBy d p)).pointXyzLineStructureAttachment i j) =
      onValue (Option.map (movedBy d)) (answer ((g.setOrigin p).pointXyzLineStructureAttachment i j)) := by
  refine query_moved g d p _ _ ?_
  obtain ⟨hi, -⟩ := List.getElem?_eq_some_iff.mp hs
  obtain ⟨hj, -⟩ := List.getElem?_eq_some_iff.mp ha
  have hv : validIndex (i : Int) g.line.structures.length = true := validIndex_natCast.mpr hi
  have hw : validIndex (j : Int) t.attachments.length = true := validIndex_natCast.mpr hj
  have hst : g.stations[i]? = some s.station := by simp [stations, hs]
  simp only [attachmentPoint, updatedAt, pointsAlignment_moved, (structuresLoop_moved d _ _ _).2, hv, hw, hs, ht,
    ha, Bool.true_eq_false, if_false, Int.toNat_natCast, List.getElem?_zipWith, vectorStructure_moved, hst]
  by_cases h : OnAlignment g.line.alignment s.station
  · cases vectorStructure g.line.alignment (pointsAlignment p g.line.alignment) s.station with
    | ub => rfl
    | throws => rfl
    | val w =>
      cases (structuresLoop g.line.alignment (pointsAlignment p g.line.alignment) g.stations).1[i]? with
      | none => rfl
      | some q =>
        cases w with
        | none => cases q <;> rfl
        | some w =>
          cases q with
          | none => simp [pointMoved, h, onValue]
          | some q =>
            simp only [pointMoved, h, if_true, Option.map_some, onValue, movedBy, Res.val.injEq,
              Option.some.injEq, P3.mk.injEq]
            exact ⟨by ring, by ring, by ring⟩
  · have hv : vectorStructure g.line.alignment (pointsAlignment p g.line.alignment) s.station = .ub ∨
        vectorStructure g.line.alignment (pointsAlignment p g.line.alignment) s.station = .throws := by
      rcases indexSegment_off h with h | h
      · left; simp [vectorStructure, h]
      · simp only [vectorStructure, h]
        have hm : ∀ P : List P3, vectorSegment P (-1) = .throws := fun P => by simp [vectorSegment]
        rw [hm]
        split
        · split
          · right; rfl
          · split <;> (right; rfl)
        · left; rfl
    rcases hv with hv | hv <;> simp [hv, onValue]

/-- A line with a structure on the alignment. -/
example : ∃ g : GLine, Reachable g ∧ g.line.structures[0]? = some (1, exStructure) ∧
    OnAlignment g.line.alignment exStructure.station ∧ exStructure.base = some exBase ∧
    exBase.attachments[0]? = some ⟨1, 2, 3⟩ := by
  set g0 : GLine := ⟨exLine, ⟨0, 0, 0⟩, false, false, [], []⟩ with hg0
  have hr0 : Reachable g0 := ⟨_, exEdits_runs⟩
  refine ⟨_, reachable_step hr0 _ (exAdd_pre g0 rfl) (exAdd g0 rfl), rfl, ?_, rfl, rfl⟩
  exact ⟨_, _, rfl, rfl, by simp [exStructure], by norm_num [exStructure]⟩

end Verif.Props
