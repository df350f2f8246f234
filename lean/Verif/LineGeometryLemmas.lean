import Verif.LineCopy
import Verif.VectorLemmas
import Verif.LineGeometry

/-! # Lemmas about coordinates and their cache -/

set_option linter.unusedSectionVars false

namespace Verif

/-! ### What editing calls leave alone -/

namespace Line
variable {K : Type} [Field K] [LinearOrder K] [IsStrictOrderedRing K]

theorem finishCables_frame {A : Type} (ext : Heap K) (l : Line K) (a : A) {l' : Line K}
    (e : (finishCables ext l a).state? = some l') :
    l'.alignment = l.alignment ∧ l'.structures = l.structures := by
  unfold finishCables at e
  split at e <;> simp only [Outcome.state?, Option.some.injEq, reduceCtorEq] at e <;> subst e <;>
    exact ⟨rfl, rfl⟩

theorem addLineCable_frame (ext : Heap K) (l : Line K) (k : LineCable) {l' : Line K}
    (e : (l.addLineCable ext k).state? = some l') :
    l'.alignment = l.alignment ∧ l'.structures = l.structures := by
  unfold addLineCable at e
  repeat' split at e
  all_goals
    first
    | (simp only [Outcome.state?, Option.some.injEq, reduceCtorEq] at e; done)
    | (simp only [Outcome.state?, Option.some.injEq] at e; subst e; exact ⟨rfl, rfl⟩)

theorem deleteLineCable_frame (l : Line K) (i : Int) :
    (l.deleteLineCable i).1.alignment = l.alignment ∧ (l.deleteLineCable i).1.structures = l.structures := by
  unfold deleteLineCable
  split <;> exact ⟨rfl, rfl⟩

theorem modifyLineCable_frame (ext : Heap K) (l : Line K) (i : Int) (k : LineCable) {l' : Line K}
    (e : (l.modifyLineCable ext i k).state? = some l') :
    l'.alignment = l.alignment ∧ l'.structures = l.structures := by
  unfold modifyLineCable at e
  have hd := deleteLineCable_frame l i
  split at e
  · simp only at e
    split at e
    · simp only [Outcome.state?, Option.some.injEq] at e; subst e; exact hd
    · have hs : ∀ l2 : Line K, ((l.deleteLineCable i).1.addLineCable ext k).state? = some l2 →
          l2.alignment = l.alignment ∧ l2.structures = l.structures := by
        intro l2 h
        have := addLineCable_frame ext _ k h
        exact ⟨this.1.trans hd.1, this.2.trans hd.2⟩
      split at e
      · rename_i l2 n h2
        have h2' := hs l2 (by rw [h2]; rfl)
        split at e
        · have h3 : ∀ (k' : LineCable) (l3 : Line K), (l2.addLineCable ext k').state? = some l3 →
              l3.alignment = l.alignment ∧ l3.structures = l.structures := by
            intro k' l3 h
            have := addLineCable_frame ext _ _ h
            exact ⟨this.1.trans h2'.1, this.2.trans h2'.2⟩
          split at e
          · rename_i h4
            simp only [Outcome.state?, Option.some.injEq] at e; subst e
            exact h3 _ _ (by rw [h4]; rfl)
          · rename_i h4
            simp only [Outcome.state?, Option.some.injEq] at e; subst e
            exact h3 _ _ (by rw [h4]; rfl)
          · simp [Outcome.state?] at e
        · simp only [Outcome.state?, Option.some.injEq] at e; subst e; exact h2'
      · rename_i l2 h2
        simp only [Outcome.state?, Option.some.injEq] at e; subst e
        exact hs _ (by rw [h2]; rfl)
      · simp [Outcome.state?] at e
  · simp only [Outcome.state?, Option.some.injEq] at e; subst e; exact ⟨rfl, rfl⟩

theorem addLineStructure_frame (l : Line K) (p : Ptr) (s : LineStructure K) {l' : Line K}
    (e : (l.addLineStructure p s).state? = some l') : l'.alignment = l.alignment := by
  unfold addLineStructure at e
  repeat' split at e
  all_goals
    first
    | (simp only [Outcome.state?, Option.some.injEq, reduceCtorEq] at e; done)
    | (simp only [Outcome.state?, Option.some.injEq] at e; subst e; rfl)

theorem deleteLineStructure_frame (ext : Heap K) (l : Line K) (i : Int) {l' : Line K}
    (e : (l.deleteLineStructure ext i).state? = some l') : l'.alignment = l.alignment := by
  unfold deleteLineStructure at e
  split at e
  · simp only at e
    split at e <;> simp only [Outcome.state?, Option.some.injEq, reduceCtorEq] at e <;> subst e <;> rfl
  · simp only [Outcome.state?, Option.some.injEq] at e; subst e; rfl

theorem modifyLineStructure_frame (ext : Heap K) (l : Line K) (i : Int) (s : LineStructure K) {l' : Line K}
    (e : (l.modifyLineStructure ext i s).state? = some l') : l'.alignment = l.alignment := by
  unfold modifyLineStructure at e
  split at e
  · split at e
    · split at e
      · simp only [Outcome.state?, Option.some.injEq] at e; subst e; rfl
      · simp only at e
        split at e
        · simp [Outcome.state?] at e
        · exact (finishCables_frame ext _ _ e).1
    · simp [Outcome.state?] at e
  · simp only [Outcome.state?, Option.some.injEq] at e; subst e; rfl

end Line

namespace GLine

theorem edit_state (ext : Heap ℝ) (op : Line.Op ℝ) (g g' : GLine)
    (h : (g.edit ext op).state? = some g') :
    ∃ l, (op.apply ext g.line).state? = some l ∧ g' = g.edited op l := by
  unfold edit at h
  split at h <;> rename_i h2 <;>
    simp only [Outcome.state?, Option.some.injEq, reduceCtorEq] at h <;> subst h <;>
    exact ⟨_, by rw [h2]; rfl, rfl⟩

/-- Calls that do not reset the alignment flag leave the alignment alone; calls that do not reset the
structure flag leave alignment and structures alone. -/
theorem apply_frame (ext : Heap ℝ) (op : Line.Op ℝ) (l l' : Line ℝ) (h : (op.apply ext l).state? = some l') :
    ((resets op).1 = false → l'.alignment = l.alignment) ∧
    ((resets op).2 = false → l'.alignment = l.alignment ∧ l'.structures = l.structures) ∧
    ((resets op).1 = true → (resets op).2 = true) := by
  cases op <;> simp only [Line.Op.apply, Line.wrap_state] at h <;>
    simp only [resets, Bool.false_eq_true, Bool.true_eq_false, false_implies, true_implies,
      and_true, implies_true]
  · exact Line.addLineStructure_frame _ _ _ h
  · exact Line.deleteLineStructure_frame ext _ _ h
  · exact Line.modifyLineStructure_frame ext _ _ _ h
  · have := Line.addLineCable_frame ext _ _ h; exact ⟨this.1, this⟩
  · simp only [Outcome.state?, Option.some.injEq] at h; subst h
    have := Line.deleteLineCable_frame l ‹Int›; exact ⟨this.1, this⟩
  · have := Line.modifyLineCable_frame ext _ _ _ h; exact ⟨this.1, this⟩

/-! ### Cache invariant -/

/-- What the flags say. -/
structure CInv (g : GLine) : Prop where
  imp : g.flagS = true → g.flagA = true
  freshA : g.flagA = true → g.cacheA = Geo.pointsAlignment g.origin g.line.alignment
  freshS : g.flagS = true → Geo.structuresLoop g.line.alignment g.cacheA g.stations = (g.cacheS, .val ())

theorem new_cinv : CInv GLine.new := ⟨by simp [new], by simp [new], by simp [new]⟩

theorem updateA_frame (g : GLine) : g.updateA.line = g.line ∧ g.updateA.origin = g.origin ∧
    g.updateA.flagS = g.flagS ∧ g.updateA.cacheS = g.cacheS := by
  unfold updateA; split <;> exact ⟨rfl, rfl, rfl, rfl⟩

theorem updateA_spec {g : GLine} (h : CInv g) :
    g.updateA.flagA = true ∧ g.updateA.cacheA = Geo.pointsAlignment g.origin g.line.alignment := by
  unfold updateA
  split
  · exact ⟨rfl, rfl⟩
  · rename_i hf
    have hf : g.flagA = true := by simpa using hf
    exact ⟨hf, h.freshA hf⟩

/-- The coordinates of the structures computed from scratch. -/
noncomputable def scratchS (g : GLine) : List (Option P3) × Res Unit :=
  Geo.structuresLoop g.line.alignment (Geo.pointsAlignment g.origin g.line.alignment) g.stations

theorem update_cases {g : GLine} (h : CInv g) :
    (g.scratchS.2 = .val () ∧ ∃ g', g.update = .ok g' true ∧ g'.line = g.line ∧ g'.origin = g.origin ∧
      g'.flagA = true ∧ g'.flagS = true ∧
      g'.cacheA = Geo.pointsAlignment g.origin g.line.alignment ∧ g'.cacheS = g.scratchS.1) ∨
    (g.scratchS.2 = .throws ∧ g.flagS = false ∧ ∃ g', g.update = .throws g' ∧ g'.line = g.line ∧
      g'.origin = g.origin ∧ g'.flagA = true ∧ g'.flagS = false ∧
      g'.cacheA = Geo.pointsAlignment g.origin g.line.alignment) ∨
    (g.scratchS.2 = .ub ∧ g.update = .ub) := by
  obtain ⟨ha, hc⟩ := updateA_spec h
  obtain ⟨hl, ho, hfs, hcs⟩ := updateA_frame g
  have hst : g.updateA.stations = g.stations := by unfold stations; rw [hl]
  unfold update scratchS
  simp only
  cases hf : g.flagS with
  | false =>
    rw [if_pos (by rw [hfs, hf])]
    simp only [hc, hst, hl]
    generalize Geo.structuresLoop g.line.alignment (Geo.pointsAlignment g.origin g.line.alignment)
      g.stations = r
    obtain ⟨r1, r2⟩ := r
    cases r2 with
    | val u => left; exact ⟨rfl, _, rfl, rfl, ho, ha, rfl, rfl, rfl⟩
    | throws => right; left; exact ⟨rfl, trivial, _, rfl, rfl, ho, ha, hfs.trans hf, rfl⟩
    | ub => right; right; exact ⟨rfl, rfl⟩
  | true =>
    rw [if_neg (by rw [hfs, hf]; simp)]
    have hA := h.freshA (h.imp hf)
    have hS := h.freshS hf
    rw [hA] at hS
    left
    rw [hS]
    exact ⟨rfl, _, rfl, hl, ho, ha, hfs.trans hf, hc, hcs⟩

theorem update_cinv {g g' : GLine} (h : CInv g) (e : g.update.state? = some g') :
    CInv g' ∧ g'.line = g.line ∧ g'.origin = g.origin := by
  rcases update_cases h with ⟨hs, g2, hg, hl, ho, ha, hs2, hcA, hcS⟩ | ⟨hs, hf, g2, hg, hl, ho, ha, hs2, hcA⟩ |
      ⟨_, hg⟩
  · rw [hg] at e; simp only [Outcome.state?, Option.some.injEq] at e; subst e
    refine ⟨⟨fun _ => ha, fun _ => by rw [hl, ho, hcA], fun _ => ?_⟩, hl, ho⟩
    have hst : g2.stations = g.stations := by unfold stations; rw [hl]
    rw [hcS, hl, hcA, hst, ← hs]
    rfl
  · rw [hg] at e; simp only [Outcome.state?, Option.some.injEq] at e; subst e
    exact ⟨⟨fun h => by simp [hs2] at h, fun _ => by rw [hl, ho, hcA], fun h => by simp [hs2] at h⟩, hl, ho⟩
  · rw [hg] at e; simp [Outcome.state?] at e

theorem refresh_cinv {g g' : GLine} (h : CInv g) (e : g.refresh.state? = some g') :
    CInv g' ∧ g'.line = g.line ∧ g'.origin = g.origin := by
  unfold refresh at e
  split at e
  · exact update_cinv h e
  · simp only [Outcome.state?, Option.some.injEq] at e; subst e; exact ⟨h, rfl, rfl⟩

theorem query_state {A : Type} {g g' : GLine} {f : GLine → Res A} (e : (g.query f).state? = some g') :
    g.refresh.state? = some g' := by
  unfold query at e
  split at e
  · simp [Outcome.state?] at e
  · rename_i h; rw [h]; simpa [Outcome.state?] using e
  · rename_i h
    rw [h]
    split at e
    · simpa [Outcome.state?] using e
    · simpa [Outcome.state?] using e
    · simp [Outcome.state?] at e

theorem event_cinv {g g' : GLine} (h : CInv g) (ev : Event) (e : ev.next g = some g') : CInv g' := by
  cases ev with
  | edit ext op =>
    obtain ⟨l, hl, rfl⟩ := edit_state ext op g g' e
    obtain ⟨f1, f2, f3⟩ := apply_frame ext op g.line l hl
    refine ⟨?_, ?_, ?_⟩
    · simp only [edited, Bool.and_eq_true, Bool.not_eq_true']
      rintro ⟨h1, h2⟩
      refine ⟨h.imp h1, ?_⟩
      cases hr : (resets op).1 with
      | false => rfl
      | true => rw [f3 hr] at h2; simp at h2
    · simp only [edited, Bool.and_eq_true, Bool.not_eq_true']
      rintro ⟨h1, h2⟩
      rw [f1 h2]; exact h.freshA h1
    · simp only [edited, Bool.and_eq_true, Bool.not_eq_true', stations]
      rintro ⟨h1, h2⟩
      rw [(f2 h2).1, (f2 h2).2]; exact h.freshS h1
  | setOrigin p =>
    simp only [Event.next, Option.some.injEq] at e; subst e
    exact ⟨by simp [setOrigin], by simp [setOrigin], by simp [setOrigin]⟩
  | validate => exact (update_cinv h e).1
  | pointsXyzAlignment => exact (refresh_cinv h (query_state e)).1
  | pointsXyzLineStructures => exact (refresh_cinv h (query_state e)).1
  | pointXyzAlignment s => exact (refresh_cinv h (query_state e)).1
  | pointXyzLineStructure i => exact (refresh_cinv h (query_state e)).1
  | pointXyzLineStructureAttachment i j => exact (refresh_cinv h (query_state e)).1

theorem runs_cinv {g g' : GLine} {es : List Event} (r : Runs g es g') (h : CInv g) : CInv g' := by
  induction r with
  | nil => exact h
  | cons pre e r ih => exact ih (event_cinv h _ e)

theorem Reachable.cinv {g : GLine} (h : Reachable g) : CInv g := by
  obtain ⟨es, r⟩ := h; exact runs_cinv r new_cinv

/-! ### The contained line -/

theorem event_line {g g' : GLine} (h : CInv g) (hl : Line.Reachable g.line) (ev : Event) (pre : ev.Pre g)
    (e : ev.next g = some g') : Line.Reachable g'.line := by
  cases ev with
  | edit ext op =>
    obtain ⟨l, h2, rfl⟩ := edit_state ext op g g' e
    exact .step op ext hl pre h2
  | setOrigin p =>
    simp only [Event.next, Option.some.injEq] at e; subst e; exact hl
  | validate => rw [(update_cinv h e).2.1]; exact hl
  | pointsXyzAlignment => rw [(refresh_cinv h (query_state e)).2.1]; exact hl
  | pointsXyzLineStructures => rw [(refresh_cinv h (query_state e)).2.1]; exact hl
  | pointXyzAlignment s => rw [(refresh_cinv h (query_state e)).2.1]; exact hl
  | pointXyzLineStructure i => rw [(refresh_cinv h (query_state e)).2.1]; exact hl
  | pointXyzLineStructureAttachment i j => rw [(refresh_cinv h (query_state e)).2.1]; exact hl

theorem runs_line {g g' : GLine} {es : List Event} (r : Runs g es g') (hc : CInv g)
    (hl : Line.Reachable g.line) : Line.Reachable g'.line := by
  induction r with
  | nil => exact hl
  | cons pre e r ih => exact ih (event_cinv hc _ e) (event_line hc hl _ pre e)

theorem Reachable.line {g : GLine} (h : Reachable g) : Line.Reachable g.line := by
  obtain ⟨es, r⟩ := h; exact runs_line r new_cinv .empty

end GLine

/-! ### Geometry of the alignment -/

namespace Geo

theorem scaled_magnitude {v : V2} (hv : v.magnitude ≠ 0) {d : ℝ} (hd : 0 ≤ d) :
    (v.scale (d / v.magnitude)).magnitude = d := by
  rw [V2.magnitude_scale _ (div_nonneg hd v.magnitude_nonneg)]
  field_simp

theorem fromVector_magnitude (p : P3) {d e rot : ℝ} {v : V2} (hv : v.magnitude ≠ 0) (hd : 0 ≤ d) :
    (fromVector p d e rot v).2.magnitude = d := by
  unfold fromVector
  exact scaled_magnitude (by rw [V2.rotate_magnitude]; exact hv) hd

theorem fromVector_diff (p : P3) (d e rot : ℝ) (v : V2) :
    (fromVector p d e rot v).1.x - p.x = (fromVector p d e rot v).2.x ∧
    (fromVector p d e rot v).1.y - p.y = (fromVector p d e rot v).2.y ∧
    (fromVector p d e rot v).1.z - p.z = e := by
  unfold fromVector; simp

/-- The direction vector's length does not matter. -/
theorem fromVector_scale (p : P3) (d e rot : ℝ) (v : V2) {f : ℝ} (hf : 0 < f) :
    fromVector p d e rot (v.scale f) = fromVector p d e rot v := by
  unfold fromVector
  have hm : ((v.rotate rot).scale f).magnitude = (v.rotate rot).magnitude * f :=
    V2.magnitude_scale _ hf.le
  have : ((v.scale f).rotate rot).scale (d / ((v.scale f).rotate rot).magnitude) =
      (v.rotate rot).scale (d / (v.rotate rot).magnitude) := by
    rw [V2.rotate_scale _ hf, hm]
    unfold V2.scale
    ext <;> simp only <;> field_simp
  simp only [this]

/-- Going a fraction of the way. -/
theorem fromVector_fraction (p : P3) (d e rot t : ℝ) (v : V2) :
    (fromVector p (t * d) (t * e) rot v).1 =
      ⟨p.x + t * ((fromVector p d e rot v).1.x - p.x), p.y + t * ((fromVector p d e rot v).1.y - p.y),
        p.z + t * ((fromVector p d e rot v).1.z - p.z)⟩ := by
  unfold fromVector V2.scale
  ext <;> simp only <;> ring

theorem alignmentLoop_length (p : AlignmentPoint ℝ) (o : P3) (v : V2) (ps : List (AlignmentPoint ℝ)) :
    (alignmentLoop p o v ps).length = ps.length := by
  induction ps generalizing p o v with
  | nil => rfl
  | cons q qs ih => simp [alignmentLoop, ih]

theorem pointsAlignment_length (o : P3) (al : List (AlignmentPoint ℝ)) :
    (pointsAlignment o al).length = al.length := by
  cases al with
  | nil => rfl
  | cons p ps => simp [pointsAlignment, alignmentLoop_length]

/-- The direction with which the point after index `i` is reached: the given one at the start, the
previous step later. -/
noncomputable def direction (v : V2) (P : List P3) : ℕ → V2
  | 0 => v
  | i + 1 => ⟨(P.getD (i + 1) P3.default).x - (P.getD i P3.default).x,
      (P.getD (i + 1) P3.default).y - (P.getD i P3.default).y⟩

theorem loop_step (p : AlignmentPoint ℝ) (o : P3) (v : V2) (ps : List (AlignmentPoint ℝ))
    (hv : v.magnitude ≠ 0) (hs : Alignment.Sorted (p :: ps)) (i : ℕ) (hi : i + 1 < (p :: ps).length) :
    (direction v (o :: alignmentLoop p o v ps) i).magnitude ≠ 0 ∧
    (o :: alignmentLoop p o v ps).getD (i + 1) P3.default =
      (fromVector ((o :: alignmentLoop p o v ps).getD i P3.default)
        (((p :: ps)[i + 1]'hi).station - ((p :: ps)[i]'(by omega)).station)
        (((p :: ps)[i + 1]'hi).elevation - ((p :: ps)[i]'(by omega)).elevation)
        ((p :: ps)[i]'(by omega)).rotation
        (direction v (o :: alignmentLoop p o v ps) i)).1 := by
  induction i generalizing p o v ps with
  | zero =>
    cases ps with
    | nil => simp at hi
    | cons q qs =>
      refine ⟨hv, ?_⟩
      simp [alignmentLoop, direction]
  | succ i ih =>
    cases ps with
    | nil => simp at hi
    | cons q qs =>
      rw [Alignment.Sorted, List.pairwise_cons] at hs
      have hpq : p.station < q.station := hs.1 q (by simp)
      simp only [alignmentLoop]
      set r := fromVector o (q.station - p.station) (q.elevation - p.elevation) p.rotation v with hr
      have hrm : r.2.magnitude ≠ 0 := by
        rw [hr, fromVector_magnitude o hv (by linarith)]; linarith
      have := ih q r.1 r.2 qs hrm hs.2 (by simpa using hi)
      have hdir : direction v (o :: r.1 :: alignmentLoop q r.1 r.2 qs) (i + 1) =
          direction r.2 (r.1 :: alignmentLoop q r.1 r.2 qs) i := by
        cases i with
        | zero =>
          have h := fromVector_diff o (q.station - p.station) (q.elevation - p.elevation) p.rotation v
          rw [← hr] at h
          simp only [direction, List.getD_cons_succ, List.getD_cons_zero]
          exact V2.ext h.1 h.2.1
        | succ j => simp only [direction, List.getD_cons_succ]
      rw [hdir]
      simpa only [List.getD_cons_succ, List.getElem_cons_succ] using! this

/-- `loop_step` for a whole alignment. -/
theorem points_step (o : P3) (al : List (AlignmentPoint ℝ)) (hs : Alignment.Sorted al) (i : ℕ)
    (hi : i + 1 < al.length) :
    (direction ⟨1, 0⟩ (pointsAlignment o al) i).magnitude ≠ 0 ∧
    (pointsAlignment o al).getD (i + 1) P3.default =
      (fromVector ((pointsAlignment o al).getD i P3.default)
        ((al[i + 1]'hi).station - (al[i]'(by omega)).station)
        ((al[i + 1]'hi).elevation - (al[i]'(by omega)).elevation)
        (al[i]'(by omega)).rotation (direction ⟨1, 0⟩ (pointsAlignment o al) i)).1 := by
  cases al with
  | nil => simp at hi
  | cons p ps => exact loop_step p o ⟨1, 0⟩ ps (by norm_num [V2.magnitude]) hs i hi

end Geo
end Verif

namespace Verif
namespace Geo
open Alignment

/-- Point at fraction `t` from `a` to `b`. -/
noncomputable def lerp (a b : P3) (t : ℝ) : P3 :=
  ⟨a.x + t * (b.x - a.x), a.y + t * (b.y - a.y), a.z + t * (b.z - a.z)⟩

theorem getElem?_getD {l : List P3} {i : ℕ} (h : i < l.length) : l[i]? = some (l.getD i P3.default) := by
  simp [List.getD, h]

theorem step_magnitude (o : P3) (al : List (AlignmentPoint ℝ)) (hs : Sorted al) (i : ℕ)
    (hi : i + 1 < al.length) :
    (direction ⟨1, 0⟩ (pointsAlignment o al) (i + 1)).magnitude =
      (al[i + 1]'hi).station - (al[i]'(by omega)).station := by
  obtain ⟨h1, h2⟩ := points_step o al hs i hi
  have hlt : (al[i]'(by omega)).station < (al[i + 1]'hi).station :=
    List.pairwise_iff_getElem.mp hs i (i + 1) (by omega) hi (by omega)
  set P := pointsAlignment o al
  have hd := fromVector_diff (P.getD i P3.default) ((al[i + 1]'hi).station - (al[i]'(by omega)).station)
    ((al[i + 1]'hi).elevation - (al[i]'(by omega)).elevation) (al[i]'(by omega)).rotation
    (direction ⟨1, 0⟩ P i)
  rw [← h2] at hd
  have hm := fromVector_magnitude (P.getD i P3.default) (d := (al[i + 1]'hi).station - (al[i]'(by omega)).station)
    (e := (al[i + 1]'hi).elevation - (al[i]'(by omega)).elevation) (rot := (al[i]'(by omega)).rotation)
    (v := direction ⟨1, 0⟩ P i) h1 (by linarith)
  rw [← hm]
  congr 1
  simp only [direction]
  exact V2.ext hd.1 hd.2.1

/-- A station on the alignment lies on the chord of its segment, at its fraction. -/
theorem fromStation_spec (o : P3) {al : List (AlignmentPoint ℝ)} (hs : Sorted al) (hlen : 2 ≤ al.length)
    (s : ℝ) (hfront : (al[0]'(by omega)).station ≤ s) (hback : s ≤ (al[al.length - 1]'(by omega)).station) :
    ∃ i : ℕ, ∃ hi : i + 1 < al.length, indexSegment al s = .val (i : Int) ∧
      (al[i]'(by omega)).station ≤ s ∧ s ≤ (al[i + 1]).station ∧
      fromStation al (pointsAlignment o al) s = .val (some (lerp ((pointsAlignment o al).getD i P3.default)
        ((pointsAlignment o al).getD (i + 1) P3.default)
        ((s - (al[i]'(by omega)).station) / ((al[i + 1]).station - (al[i]'(by omega)).station)))) := by
  obtain ⟨i, hi, hidx, h1, h2, h3⟩ := segment_found hs hlen s hfront hback
  refine ⟨i, hi, hidx, h1, h2, ?_⟩
  have hlt : (al[i]'(by omega)).station < (al[i + 1]'hi).station :=
    List.pairwise_iff_getElem.mp hs i (i + 1) (by omega) hi (by omega)
  have hPl := pointsAlignment_length o al
  set P := pointsAlignment o al with hP
  obtain ⟨hd, hstep⟩ := points_step o al hs i hi
  rw [← hP] at hd hstep
  have hne : ¬ ((i : Int) = -1) := by omega
  have e1 : P[i]? = some (P.getD i P3.default) := getElem?_getD (by omega)
  have e2 : P[i + 1]? = some (P.getD (i + 1) P3.default) := getElem?_getD (by omega)
  have e3 : al[i]? = some (al[i]'(by omega)) := by simp
  have e4 : al[i + 1]? = some (al[i + 1]'hi) := by simp [hi]
  unfold fromStation
  rw [hidx]
  simp only [if_neg hne, Int.toNat_natCast, e1, e2, e3, e4]
  split
  · rename_i he
    simp [lerp, he]
  · rename_i hne1
    split
    · rename_i he
      have : (s - (al[i]'(by omega)).station) / ((al[i + 1]'hi).station - (al[i]'(by omega)).station) = 1 := by
        rw [he]; exact div_self (by linarith)
      rw [this]
      congr 2
      unfold lerp
      ext <;> simp
    · set t := (s - (al[i]'(by omega)).station) / ((al[i + 1]'hi).station - (al[i]'(by omega)).station) with ht
      have hden : (al[i + 1]'hi).station - (al[i]'(by omega)).station ≠ 0 := by linarith
      have ea : s - (al[i]'(by omega)).station =
          t * ((al[i + 1]'hi).station - (al[i]'(by omega)).station) := by rw [ht]; field_simp
      have eb : ((al[i + 1]'hi).elevation - (al[i]'(by omega)).elevation) /
          ((al[i + 1]'hi).station - (al[i]'(by omega)).station) * (s - (al[i]'(by omega)).station) =
          t * ((al[i + 1]'hi).elevation - (al[i]'(by omega)).elevation) := by rw [ht]; field_simp
      have key : ∀ v : V2, (∃ f : ℝ, 0 < f ∧ v = (direction ⟨1, 0⟩ P i).scale f) →
          (fromVector (P.getD i P3.default) (s - (al[i]'(by omega)).station)
            (((al[i + 1]'hi).elevation - (al[i]'(by omega)).elevation) /
              ((al[i + 1]'hi).station - (al[i]'(by omega)).station) * (s - (al[i]'(by omega)).station))
            (al[i]'(by omega)).rotation v).1 = lerp (P.getD i P3.default) (P.getD (i + 1) P3.default) t := by
        rintro v ⟨f, hf, rfl⟩
        rw [fromVector_scale _ _ _ _ _ hf, eb, ea, fromVector_fraction, ← hstep]
        rfl
      cases i with
      | zero =>
        simp only [Nat.cast_zero, if_true]
        exact congrArg _ (congrArg _ (key _ ⟨1, one_pos, by simp [direction, V2.scale]⟩))
      | succ j =>
        have hj : ¬ (((j + 1 : ℕ) : Int) = 0) := by omega
        have hj2 : ((j + 1 : ℕ) : Int) - 1 = (j : Int) := by push_cast; omega
        have hj3 : ¬ ((j : Int) < 0) := by omega
        have e0 : P[j]? = some (P.getD j P3.default) := getElem?_getD (by omega)
        have hpos : 0 < (direction ⟨1, 0⟩ P (j + 1)).magnitude :=
          lt_of_le_of_ne (V2.magnitude_nonneg _) (Ne.symm hd)
        simp only [if_neg hj, hj2, vectorSegment, if_neg hj3, Int.toNat_natCast, e0, e1]
        have hd' : ¬ (V2.mk ((P.getD (j + 1) P3.default).x - (P.getD j P3.default).x)
          ((P.getD (j + 1) P3.default).y - (P.getD j P3.default).y)).magnitude = 0 := hd
        rw [if_neg hd']
        simp only
        exact congrArg _ (congrArg _ (key _ ⟨1 / (direction ⟨1, 0⟩ P (j + 1)).magnitude, by positivity, rfl⟩))

/-- The structure loop comes to its end when the alignment has two points or more. -/
theorem structuresLoop_ok (o : P3) {al : List (AlignmentPoint ℝ)} (hs : Sorted al) (hlen : 2 ≤ al.length)
    (ss : List ℝ) :
    (structuresLoop al (pointsAlignment o al) ss).2 = .val () ∧
    ∀ i (hi : i < ss.length), ∃ q, fromStation al (pointsAlignment o al) (ss[i]) = .val (some q) ∧
      (structuresLoop al (pointsAlignment o al) ss).1[i]? = some (some q) := by
  have total : ∀ s, ∃ q, fromStation al (pointsAlignment o al) s = .val (some q) := by
    intro s
    by_cases h1 : (al[0]'(by omega)).station ≤ s
    · by_cases h2 : s ≤ (al[al.length - 1]'(by omega)).station
      · obtain ⟨i, hi, -, -, -, h⟩ := fromStation_spec o hs hlen s h1 h2
        exact ⟨_, h⟩
      · refine ⟨P3.default, ?_⟩
        have hhead : al.head? = some (al[0]'(by omega)) := by rw [List.head?_eq_getElem?]; simp
        have hlast : al.getLast? = some (al[al.length - 1]'(by omega)) := by
          rw [List.getLast?_eq_getElem?]; simp
        simp [fromStation, indexSegment, isValidStation, hhead, hlast, h2]
    · refine ⟨P3.default, ?_⟩
      have hhead : al.head? = some (al[0]'(by omega)) := by rw [List.head?_eq_getElem?]; simp
      have hlast : al.getLast? = some (al[al.length - 1]'(by omega)) := by
        rw [List.getLast?_eq_getElem?]; simp
      simp [fromStation, indexSegment, isValidStation, hhead, hlast, h1]
  induction ss with
  | nil => exact ⟨rfl, by simp⟩
  | cons s ss ih =>
    obtain ⟨q, hq⟩ := total s
    unfold structuresLoop
    rw [hq]
    simp only
    refine ⟨ih.1, ?_⟩
    intro i hi
    cases i with
    | zero => exact ⟨q, hq, by simp⟩
    | succ j =>
      obtain ⟨q', h1, h2⟩ := ih.2 j (by simpa using hi)
      exact ⟨q', by simpa using h1, by simpa using h2⟩

theorem structuresLoop_length (al : List (AlignmentPoint ℝ)) (pts : List P3) (ss : List ℝ)
    (h : (structuresLoop al pts ss).2 = .val ()) : (structuresLoop al pts ss).1.length = ss.length := by
  induction ss with
  | nil => rfl
  | cons s ss ih =>
    unfold structuresLoop at h ⊢
    split at h
    · simp at h
    · simp at h
    · rename_i p hp
      simp only [List.length_cons, ih h]

end Geo
end Verif
