import Verif.LineGeometryLemmas
import Verif.StructureValidate
import Verif.Props.Vector

/-!
# Properties of the coordinates of a transmission line (C23, C24, C26, C27, C28, C81)
-/

set_option linter.unusedSectionVars false

namespace Verif.Props
open Verif.GLine Verif.Geo

/-- What the caller sees of a call: its value, an exception, or undefined behaviour. -/
def answer {S A : Type} : Outcome S A → Res A
  | .ok _ a => .val a
  | .throws _ => .throws
  | .ub => .ub

/-- The same line (alignment, structures, cables, origin) with nothing cached. -/
def uncached (g : GLine) : GLine := ⟨g.line, g.origin, false, false, [], []⟩

/-- All five coordinate queries give the same answers on `g` and `c`. -/
def SameAnswers (g c : GLine) : Prop :=
  answer g.pointsXyzAlignment = answer c.pointsXyzAlignment ∧
  answer g.pointsXyzLineStructures = answer c.pointsXyzLineStructures ∧
  (∀ s, answer (g.pointXyzAlignment s) = answer (c.pointXyzAlignment s)) ∧
  (∀ i, answer (g.pointXyzLineStructure i) = answer (c.pointXyzLineStructure i)) ∧
  (∀ i j, answer (g.pointXyzLineStructureAttachment i j) = answer (c.pointXyzLineStructureAttachment i j))

/-! ### A concrete line -/

/-- Memory without foreign structures. -/
def noHeap : Heap ℝ := fun _ => none

/-- Base structure with one attachment. -/
noncomputable def exBase : Structure ℝ := ⟨[⟨1, 2, 3⟩], 50⟩

/-- A structure at station 50. -/
noncomputable def exStructure : LineStructure ℝ := ⟨[none], 0, 0, 0, 50, some exBase⟩

theorem exStructure_reachable : LineStructure.Reachable exStructure := by
  have h0 := LineStructure.Reachable.new (0 : ℝ)
  have h1 := h0.step (s' := ⟨[none], 0, 0, 0, 0, some exBase⟩) (.setStructure (some exBase))
    (by simp [LineStructure.Op.apply, LineStructure.setStructure, LineStructure.new, LineStructure.resize, exBase, Outcome.state?])
  exact h1.step (.setStation 50) rfl

/-- Calls that build an alignment of two points 100 apart. -/
noncomputable def exEdits : List Event :=
  [.setOrigin ⟨0, 0, 0⟩, .edit noHeap (.addAlignmentPoint ⟨0, 0, 0⟩),
    .edit noHeap (.addAlignmentPoint ⟨10, 0, 100⟩)]

/-- The line built by them. -/
noncomputable def exLine : Line ℝ := ⟨[⟨0, 0, 0⟩, ⟨10, 0, 100⟩], [], []⟩

theorem exEdits_runs : Runs GLine.new exEdits ⟨exLine, ⟨0, 0, 0⟩, false, false, [], []⟩ := by
  refine .cons trivial rfl (.cons trivial (g' := ⟨⟨[⟨0, 0, 0⟩], [], []⟩, ⟨0, 0, 0⟩, false, false, [], []⟩) ?_
    (.cons trivial (g' := ⟨exLine, ⟨0, 0, 0⟩, false, false, [], []⟩) ?_ (.nil _)))
  · simp [Event.next, edit, Line.Op.apply, Line.addAlignmentPoint, Alignment.addPoint, searchPos, setOrigin,
      GLine.new, Line.empty, Line.wrap, edited, resets, Outcome.state?]
  · have h : (0 : ℝ) < 100 := by norm_num
    have h2 : ¬ ((100 : ℝ) < 0) := by norm_num
    simp [Event.next, edit, Line.Op.apply, Line.addAlignmentPoint, Alignment.addPoint, searchPos, h2,
      Line.wrap, edited, resets, Outcome.state?, exLine]

/-- The line after also adding the structure. -/
noncomputable def exLine1 : Line ℝ := ⟨exLine.alignment, [(1, exStructure)], []⟩

theorem exAdd (g : GLine) (hg : g.line = exLine) :
    Event.next g (.edit noHeap (.addLineStructure 1 exStructure)) =
      some ⟨exLine1, g.origin, g.flagA, false, g.cacheA, g.cacheS⟩ := by
  have h1 : (0 : ℝ) ≤ 50 ∧ (50 : ℝ) ≤ 100 := by norm_num
  simp [Event.next, edit, Line.Op.apply, Line.addLineStructure, hg, exLine, Alignment.isValidStation,
    exStructure, searchPos, Line.wrap, edited, resets, Outcome.state?, exLine1, h1]

theorem exAdd_pre (g : GLine) (hg : g.line = exLine) :
    Event.Pre g (.edit noHeap (.addLineStructure 1 exStructure)) := by
  refine ⟨by decide, ?_, exStructure_reachable⟩
  rw [hg]; simp [exLine]

/-! ### Lemmas -/

theorem uncached_update_of_flags {g : GLine} (hA : g.flagA = false) (hS : g.flagS = false) :
    g.update = (uncached g).update := by
  simp only [GLine.update, updateA, hA, hS, uncached, stations, if_true]

theorem uncached_query_of_flags {A : Type} {g : GLine} (hA : g.flagA = false) (hS : g.flagS = false)
    (f : GLine → Res A) : g.query f = (uncached g).query f := by
  have h := uncached_update_of_flags hA hS
  have e1 : g.isUpdated = false := by simp [isUpdated, hA, hS]
  have e2 : (uncached g).isUpdated = false := rfl
  unfold query refresh
  rw [if_pos e1, if_pos e2, h]

theorem uncached_query_of_fresh {A : Type} {g : GLine} (h : CInv g) (hS : g.flagS = true)
    (f : GLine → Res A) : g.query f = (uncached g).query f := by
  have hA := h.imp hS
  have e1 : ¬ g.isUpdated = false := by simp [isUpdated, hA]
  have e2 : (uncached g).isUpdated = false := rfl
  have hu : (uncached g).update = .ok g true := by
    have h1 := h.freshA hA
    have h2 := h.freshS hS
    simp only [GLine.update, updateA, uncached, stations, if_true]
    rw [← h1]
    unfold stations at h2
    rw [h2]
    cases g
    simp only at hA hS
    subst hA hS
    rfl
  unfold query refresh
  rw [if_neg e1, if_pos e2, hu]

theorem uncached_cinv (g : GLine) : CInv (uncached g) :=
  ⟨by simp [uncached], by simp [uncached], by simp [uncached]⟩

/-- Editing calls and `set_origin`. -/
def IsEdit : Event → Prop
  | .edit _ _ => True
  | .setOrigin _ => True
  | _ => False

/-- Edits of the alignment and `set_origin`. -/
def IsAlignmentEdit : Event → Prop
  | .edit _ (.addAlignmentPoint _) => True
  | .edit _ (.deleteAlignmentPoint _) => True
  | .edit _ (.modifyAlignmentPoint _ _) => True
  | .setOrigin _ => True
  | _ => False

/-- Calls that change neither alignment, origin nor structures: queries, validation, cable edits. -/
def IsQuiet : Event → Prop
  | .edit _ (.addLineCable _) => True
  | .edit _ (.deleteLineCable _) => True
  | .edit _ (.modifyLineCable _ _) => True
  | .edit _ _ => False
  | .setOrigin _ => False
  | _ => True

theorem isAlignmentEdit_flags {g g' : GLine} {e : Event} (he : IsAlignmentEdit e) (h : e.next g = some g') :
    g'.flagA = false ∧ g'.flagS = false := by
  cases e with
  | edit ext op =>
    obtain ⟨l, -, rfl⟩ := edit_state ext op g g' h
    cases op <;> simp_all [IsAlignmentEdit, edited, resets]
  | setOrigin p =>
    simp only [Event.next, Option.some.injEq] at h; subst h; exact ⟨rfl, rfl⟩
  | _ => simp [IsAlignmentEdit] at he

theorem isEdit_flags {g g' : GLine} {e : Event} (he : IsEdit e) (h : e.next g = some g')
    (hA : g.flagA = false) (hS : g.flagS = false) : g'.flagA = false ∧ g'.flagS = false := by
  cases e with
  | edit ext op =>
    obtain ⟨l, -, rfl⟩ := edit_state ext op g g' h
    simp [edited, hA, hS]
  | setOrigin p =>
    simp only [Event.next, Option.some.injEq] at h; subst h; exact ⟨rfl, rfl⟩
  | _ => simp [IsEdit] at he

theorem runs_edit_flags {g g' : GLine} {es : List Event} (r : Runs g es g') (he : ∀ e ∈ es, IsEdit e)
    (hA : g.flagA = false) (hS : g.flagS = false) : g'.flagA = false ∧ g'.flagS = false := by
  induction r with
  | nil => exact ⟨hA, hS⟩
  | cons pre h r ih =>
    have := isEdit_flags (he _ (by simp)) h hA hS
    exact ih (fun e hm => he e (by simp [hm])) this.1 this.2

theorem refresh_of_updated {g : GLine} (h : g.flagS = true) : g.refresh = .ok g true := by
  unfold refresh
  rw [if_neg (by simp [isUpdated, h])]

theorem update_of_updated {g : GLine} (hA : g.flagA = true) (hS : g.flagS = true) :
    g.update = .ok g true := by
  simp [GLine.update, updateA, hA, hS]

theorem isQuiet_flag {g g' : GLine} {e : Event} (hc : CInv g) (he : IsQuiet e) (h : e.next g = some g')
    (hS : g.flagS = true) : g'.flagS = true := by
  have q : g.refresh.state? = some g' → g'.flagS = true := by
    rw [refresh_of_updated hS]
    intro h; simp only [Outcome.state?, Option.some.injEq] at h; subst h; exact hS
  cases e with
  | edit ext op =>
    obtain ⟨l, -, rfl⟩ := edit_state ext op g g' h
    cases op <;> simp_all [IsQuiet, edited, resets]
  | setOrigin p => simp [IsQuiet] at he
  | validate =>
    simp only [Event.next, validateUpdate, update_of_updated (hc.imp hS) hS, Outcome.state?,
      Option.some.injEq] at h
    subst h; exact hS
  | pointsXyzAlignment => exact q (query_state h)
  | pointsXyzLineStructures => exact q (query_state h)
  | pointXyzAlignment s => exact q (query_state h)
  | pointXyzLineStructure i => exact q (query_state h)
  | pointXyzLineStructureAttachment i j => exact q (query_state h)

theorem runs_quiet_flag {g g' : GLine} {es : List Event} (r : Runs g es g') (hc : CInv g)
    (he : ∀ e ∈ es, IsQuiet e) (hS : g.flagS = true) : g'.flagS = true := by
  induction r with
  | nil => exact hS
  | cons pre h r ih =>
    exact ih (event_cinv hc _ h) (fun e hm => he e (by simp [hm])) (isQuiet_flag hc (he _ (by simp)) h hS)

theorem runs_append {g g' g'' : GLine} {es fs : List Event} (r : Runs g es g') (s : Runs g' fs g'') :
    Runs g (es ++ fs) g'' := by
  induction r with
  | nil => exact s
  | cons pre h r ih => exact .cons pre h (ih s)

theorem reachable_step {g g' : GLine} (h : Reachable g) (e : Event) (pre : e.Pre g)
    (hn : e.next g = some g') : Reachable g' := by
  obtain ⟨es, r⟩ := h
  exact ⟨es ++ [e], runs_append r (.cons pre hn (.nil _))⟩

/-! ## C23 -/

/-- C23 is false as stated: query the structure points, add a structure, query again.  The second query
still reports no structure, although the line now has one and the same line queried afresh reports one
point. -/
theorem C23_structure_points_stale :
    ∃ g : GLine, Reachable g ∧ g.line.structures.length = 1 ∧
      answer g.pointsXyzLineStructures = .val [] ∧
      (∃ p, answer (uncached g).pointsXyzLineStructures = .val [p]) ∧
      answer (g.pointXyzLineStructure 0) = .throws := by
  set g0 : GLine := ⟨exLine, ⟨0, 0, 0⟩, false, false, [], []⟩ with hg0
  have hr0 : Reachable g0 := ⟨_, exEdits_runs⟩
  set P := pointsAlignment ⟨0, 0, 0⟩ exLine.alignment with hP
  set g1 : GLine := ⟨exLine, ⟨0, 0, 0⟩, true, true, P, []⟩ with hg1
  have h1 : Event.next g0 .pointsXyzLineStructures = some g1 := by
    simp [Event.next, pointsXyzLineStructures, query, refresh, isUpdated, hg0, GLine.update, updateA, stations,
      exLine, structuresLoop, Outcome.state?, hg1, hP]
  have hr1 : Reachable g1 := reachable_step hr0 .pointsXyzLineStructures trivial h1
  have h2 := exAdd g1 rfl
  have hr2 := reachable_step hr1 _ (exAdd_pre g1 rfl) h2
  refine ⟨_, hr2, by simp [exLine1], ?_, ?_, ?_⟩
  · simp [answer, pointsXyzLineStructures, query, refresh, isUpdated, hg1]
  · have hs : Alignment.Sorted exLine1.alignment := by
      simp [Alignment.Sorted, exLine1, exLine]
    obtain ⟨hok, hget⟩ := structuresLoop_ok ⟨0, 0, 0⟩ hs (by simp [exLine1, exLine]) [50]
    have hlen := structuresLoop_length _ _ _ hok
    match hl : (structuresLoop exLine1.alignment (pointsAlignment ⟨0, 0, 0⟩ exLine1.alignment) [50]).1, hlen with
    | [p], _ =>
      refine ⟨p, ?_⟩
      have hst : exLine1.structures.map (fun e => e.2.station) = [50] := by simp [exLine1, exStructure]
      simp only [answer, pointsXyzLineStructures, query, refresh, isUpdated, uncached, GLine.update, updateA,
        stations, hst, hg1, Bool.or_self, if_true, hok, hl]
  · simp [answer, pointXyzLineStructure, query, refresh, isUpdated, hg1, structurePoint, exLine1, validIndex]

/-- C23, alignment part: whatever happened before, the alignment queries answer as on the same line with
nothing cached, whenever that one answers at all.  Missing: the exception case (one alignment point),
and structure points (see `C23_structure_points_stale`). -/
theorem C23_alignment_partial {g : GLine} (h : Reachable g) :
    (∀ a, answer (uncached g).pointsXyzAlignment = .val a → answer g.pointsXyzAlignment = .val a) ∧
    (∀ s a, answer ((uncached g).pointXyzAlignment s) = .val a → answer (g.pointXyzAlignment s) = .val a) := by
  have hc := h.cinv
  have gen : ∀ (A : Type) (f : List (AlignmentPoint ℝ) → List P3 → Res A) (a : A),
      answer ((uncached g).query fun g => f g.line.alignment g.cacheA) = .val a →
      answer (g.query fun g => f g.line.alignment g.cacheA) = .val a := by
    intro A f a ha
    by_cases hu : g.isUpdated = false
    · have hA : g.flagA = false := by simp [isUpdated] at hu; exact hu.1
      have hS : g.flagS = false := by simp [isUpdated] at hu; exact hu.2
      rw [uncached_query_of_flags hA hS]; exact ha
    · have hA : g.flagA = true := by
        simp only [isUpdated, Bool.or_eq_false_iff, not_and_or, Bool.not_eq_false] at hu
        rcases hu with h | h
        · exact h
        · exact hc.imp h
      have e1 := hc.freshA hA
      unfold query refresh at ha ⊢
      rw [if_neg hu]
      have e2 : (uncached g).isUpdated = false := rfl
      rw [if_pos e2] at ha
      rcases update_cases (uncached_cinv g) with ⟨-, g2, hg, hl, -, -, -, hcA, -⟩ | ⟨-, -, g2, hg, -⟩ | ⟨-, hg⟩
      · rw [hg] at ha
        simp only at ha ⊢
        have e3 : g2.cacheA = g.cacheA := by rw [hcA, e1]; rfl
        have e4 : g2.line = g.line := hl
        rw [e3, e4] at ha
        cases hf : f g.line.alignment g.cacheA <;> rw [hf] at ha <;> simp_all [answer]
      · rw [hg] at ha; simp [answer] at ha
      · rw [hg] at ha; simp [answer] at ha
  exact ⟨gen _ (fun _ c => .val c), fun s => gen _ (fun al c => fromStation al c s)⟩

/-- C23: after an alignment edit or `set_origin`, followed by any edits but no query, every coordinate
query answers exactly as on the same line with nothing cached (exceptions included). -/
theorem C23_after_alignment_edit_partial {g g' g'' : GLine} {e : Event} {es : List Event}
    (he : IsAlignmentEdit e) (h : e.next g = some g') (r : Runs g' es g'') (hes : ∀ e ∈ es, IsEdit e) :
    SameAnswers g'' (uncached g'') := by
  obtain ⟨hA, hS⟩ := isAlignmentEdit_flags he h
  obtain ⟨hA, hS⟩ := runs_edit_flags r hes hA hS
  refine ⟨?_, ?_, fun s => ?_, fun i => ?_, fun i j => ?_⟩ <;>
    exact congrArg answer (uncached_query_of_flags hA hS _)

/-- C23: after a call of `Validate` that returned, followed by queries, validations and cable edits,
every coordinate query answers exactly as on the same line with nothing cached. -/
theorem C23_after_validate_partial {g g' g'' : GLine} {b : Bool} {es : List Event} (hr : Reachable g)
    (h : g.validateUpdate = .ok g' b) (r : Runs g' es g'') (hes : ∀ e ∈ es, IsQuiet e) :
    SameAnswers g'' (uncached g'') := by
  have hc' : CInv g' := event_cinv hr.cinv .validate (by simp [Event.next, h, Outcome.state?])
  have hS : g'.flagS = true := by
    rcases update_cases hr.cinv with ⟨-, g2, hg, -, -, -, hS, -⟩ | ⟨-, -, g2, hg, -⟩ | ⟨-, hg⟩
    · rw [validateUpdate, hg] at h; simp only [Outcome.ok.injEq] at h; rw [← h.1]; exact hS
    · rw [validateUpdate, hg] at h; simp at h
    · rw [validateUpdate, hg] at h; simp at h
  have hS := runs_quiet_flag r hc' hes hS
  have hc := runs_cinv r hc'
  refine ⟨?_, ?_, fun s => ?_, fun i => ?_, fun i j => ?_⟩ <;>
    exact congrArg answer (uncached_query_of_fresh hc hS _)

/-- A history as in `C23_after_alignment_edit_partial`: two alignment points, then a structure. -/
example : ∃ (g g' g'' : GLine) (e : Event) (es : List Event), Reachable g ∧ IsAlignmentEdit e ∧
    e.next g = some g' ∧ Runs g' es g'' ∧ (∀ e ∈ es, IsEdit e) ∧ g''.line.structures.length = 1 := by
  set g0 : GLine := ⟨exLine, ⟨0, 0, 0⟩, false, false, [], []⟩ with hg0
  have hr0 : Reachable g0 := ⟨_, exEdits_runs⟩
  exact ⟨g0, g0, _, .setOrigin ⟨0, 0, 0⟩, [_], hr0, trivial, rfl,
    .cons (exAdd_pre g0 rfl) (exAdd g0 rfl) (.nil _), by simp [IsEdit], by simp [exLine1]⟩

/-! ## C24 -/

/-- Same contents up to the addresses of the structures and the cables. -/
structure SameContent (g c : GLine) : Prop where
  origin : c.origin = g.origin
  alignment : c.line.alignment = g.line.alignment
  structures : c.line.structures.map Prod.snd = g.line.structures.map Prod.snd

theorem sameContent_answers {g c : GLine} (h : SameContent g c) (hA : g.flagA = false) (hS : g.flagS = false)
    (hA' : c.flagA = false) (hS' : c.flagS = false) : SameAnswers c g := by
  have hst : c.stations = g.stations := by
    have := congrArg (List.map LineStructure.station) h.structures
    simpa [stations, List.map_map, Function.comp_def] using this
  have hlen : c.line.structures.length = g.line.structures.length := by
    simpa using congrArg List.length h.structures
  have hget : ∀ n : ℕ, (c.line.structures[n]?).map Prod.snd = (g.line.structures[n]?).map Prod.snd := by
    intro n
    have := congrArg (fun l => l[n]?) h.structures
    simpa using this
  have gen : ∀ (A : Type) (f : GLine → Res A),
      (∀ A S, f ⟨c.line, c.origin, true, true, A, S⟩ = f ⟨g.line, g.origin, true, true, A, S⟩) →
      answer (c.query f) = answer (g.query f) := by
    intro A f hf
    have u : ∀ k : GLine, k.isUpdated = (k.flagA || k.flagS) := fun k => rfl
    have e1 : c.isUpdated = false := by simp [u, hA', hS']
    have e2 : g.isUpdated = false := by simp [u, hA, hS]
    unfold query refresh
    rw [if_pos e1, if_pos e2]
    simp only [GLine.update, updateA, hA, hS, hA', hS', if_true]
    have e3 : (GLine.mk c.line c.origin true false (pointsAlignment c.origin c.line.alignment) c.cacheS).stations =
        g.stations := hst
    have e4 : (GLine.mk g.line g.origin true false (pointsAlignment g.origin g.line.alignment) g.cacheS).stations =
        g.stations := rfl
    simp only [hS, hS'] at *
    rw [e3, e4, h.alignment, h.origin]
    generalize structuresLoop g.line.alignment (pointsAlignment g.origin g.line.alignment) g.stations = r
    obtain ⟨r1, r2⟩ := r
    cases r2 with
    | val u =>
      have := hf (pointsAlignment g.origin g.line.alignment) r1
      rw [h.origin] at this
      simp only [this]
      cases f _ <;> rfl
    | throws => rfl
    | ub => rfl
  refine ⟨gen _ _ fun A S => rfl, gen _ _ fun A S => rfl, fun s => gen _ _ fun A S => ?_,
    fun i => gen _ _ fun A S => ?_, fun i j => gen _ _ fun A S => ?_⟩
  · simp only [h.alignment]
  · simp only [structurePoint, hlen]
  · simp only [attachmentPoint, hlen, h.alignment]
    split
    · rfl
    · have := hget i.toNat
      cases hc : c.line.structures[i.toNat]? <;> cases hg : g.line.structures[i.toNat]? <;>
        rw [hc, hg] at this <;> simp_all

/-- Copying keeps contents. -/
theorem copyTo_content {target g c : GLine} {ext : Heap ℝ} {ptrs : List Ptr} (h : Reachable g)
    (hf : Line.FreshPtrs g.line ptrs) (e : copyTo target g ext ptrs = some c) :
    SameContent g c ∧ c.flagA = g.flagA ∧ c.flagS = g.flagS := by
  unfold copyTo at e
  rw [Line.copy_eq ext h.line.inv.core hf] at e
  simp only [Option.map_some, Option.some.injEq] at e
  subst e
  exact ⟨⟨rfl, rfl, Line.zip_snd hf.len⟩, rfl, rfl⟩

/-- C24 is false as stated: after a query, the copy of a line with two alignment points reports no
alignment point at all. -/
theorem C24_copy_of_queried_line_is_empty :
    ∃ (g c : GLine), Reachable g ∧ copyTo GLine.new g noHeap [] = some c ∧
      c.line.alignment.length = 2 ∧ answer c.pointsXyzAlignment = .val [] ∧
      ∃ p q, answer g.pointsXyzAlignment = .val [p, q] := by
  set g0 : GLine := ⟨exLine, ⟨0, 0, 0⟩, false, false, [], []⟩ with hg0
  have hr0 : Reachable g0 := ⟨_, exEdits_runs⟩
  set P := pointsAlignment ⟨0, 0, 0⟩ exLine.alignment with hP
  set g1 : GLine := ⟨exLine, ⟨0, 0, 0⟩, true, true, P, []⟩ with hg1
  have h1 : Event.next g0 .pointsXyzLineStructures = some g1 := by
    simp [Event.next, pointsXyzLineStructures, query, refresh, isUpdated, hg0, GLine.update, updateA, stations,
      exLine, structuresLoop, Outcome.state?, hg1, hP]
  have hr1 : Reachable g1 := reachable_step hr0 .pointsXyzLineStructures trivial h1
  refine ⟨g1, ⟨exLine, ⟨0, 0, 0⟩, true, true, [], []⟩, hr1, ?_, by simp [exLine], ?_, ?_⟩
  · simp [copyTo, Line.copy, hg1, exLine, Line.copyCables, GLine.new]
  · simp [answer, pointsXyzAlignment, query, refresh, isUpdated]
  · exact ⟨_, _, by
      simp only [answer, pointsXyzAlignment, query, refresh, isUpdated, hg1, Bool.or_self, Bool.true_eq_false,
        if_false, hP, exLine, pointsAlignment, alignmentLoop]; rfl⟩

/-- C24, what holds: the copy of a line that has not been queried since its last alignment edit answers
every coordinate query like the original.  Missing: lines queried before copying. -/
theorem C24_copy_unqueried_partial {target g c : GLine} {ext : Heap ℝ} {ptrs : List Ptr} (h : Reachable g)
    (hf : Line.FreshPtrs g.line ptrs) (e : copyTo target g ext ptrs = some c) (hu : g.isUpdated = false) :
    SameAnswers c g := by
  obtain ⟨hs, h1, h2⟩ := copyTo_content h hf e
  have hA : g.flagA = false := by simp [isUpdated] at hu; exact hu.1
  have hS : g.flagS = false := by simp [isUpdated] at hu; exact hu.2
  exact sameContent_answers hs hA hS (h1.trans hA) (h2.trans hS)

/-- C24: calling `set_origin` on the copy repairs it: it then answers every coordinate query like the
original with the same origin set, whatever was queried before copying. -/
theorem C24_copy_repaired_by_set_origin {target g c : GLine} {ext : Heap ℝ} {ptrs : List Ptr}
    (h : Reachable g) (hf : Line.FreshPtrs g.line ptrs) (e : copyTo target g ext ptrs = some c) (p : P3) :
    SameAnswers (c.setOrigin p) (g.setOrigin p) := by
  obtain ⟨hs, -, -⟩ := copyTo_content h hf e
  exact sameContent_answers ⟨rfl, hs.alignment, hs.structures⟩ rfl rfl rfl rfl

/-- Copies of reachable lines exist. -/
example : ∃ g c : GLine, Reachable g ∧ g.isUpdated = false ∧ g.line.structures.length = 1 ∧
    Line.FreshPtrs g.line [7] ∧ copyTo GLine.new g noHeap [7] = some c := by
  set g0 : GLine := ⟨exLine, ⟨0, 0, 0⟩, false, false, [], []⟩ with hg0
  have hr0 : Reachable g0 := ⟨_, exEdits_runs⟩
  have hr1 := reachable_step hr0 _ (exAdd_pre g0 rfl) (exAdd g0 rfl)
  have hf : Line.FreshPtrs exLine1 [7] := ⟨rfl, by simp, by decide, by simp [exLine1]⟩
  refine ⟨_, ⟨Line.copied exLine1 [7], ⟨0, 0, 0⟩, false, false, [], []⟩, hr1, rfl, rfl, hf, ?_⟩
  simp only [copyTo]
  rw [Line.copy_eq noHeap (hr1.line.inv.core) hf]
  rfl

/-! ## C26 -/

theorem refresh_alignment {g g' : GLine} {b : Bool} (hc : CInv g) (h : g.refresh = .ok g' b) :
    g'.line = g.line ∧ g'.origin = g.origin ∧ g'.cacheA = pointsAlignment g.origin g.line.alignment := by
  unfold refresh at h
  split at h
  · rcases update_cases hc with ⟨-, g2, hg, hl, ho, -, -, hcA, -⟩ | ⟨-, -, g2, hg, -⟩ | ⟨-, hg⟩
    · rw [hg] at h; simp only [Outcome.ok.injEq] at h
      rw [← h.1]; exact ⟨hl, ho, hcA⟩
    · rw [hg] at h; simp at h
    · rw [hg] at h; simp at h
  · rename_i hu
    simp only [Outcome.ok.injEq] at h
    rw [← h.1]
    have hA : g.flagA = true := by
      simp only [isUpdated, Bool.or_eq_false_iff, not_and_or, Bool.not_eq_false] at hu
      rcases hu with h | h
      · exact h
      · exact hc.imp h
    exact ⟨rfl, rfl, hc.freshA hA⟩

theorem refresh_ok {g : GLine} (hc : CInv g) (hs : Alignment.Sorted g.line.alignment)
    (hlen : 2 ≤ g.line.alignment.length) : ∃ g', g.refresh = .ok g' true := by
  unfold refresh
  split
  · have hok := (structuresLoop_ok g.origin hs hlen g.stations).1
    rcases update_cases hc with ⟨-, g2, hg, -⟩ | ⟨h, -⟩ | ⟨h, -⟩
    · exact ⟨g2, hg⟩
    · unfold scratchS at h; rw [hok] at h; simp at h
    · unfold scratchS at h; rw [hok] at h; simp at h
  · exact ⟨g, rfl⟩

theorem alignment_answer {g : GLine} (hc : CInv g) {pts : List P3}
    (h : answer g.pointsXyzAlignment = .val pts) : pts = pointsAlignment g.origin g.line.alignment := by
  unfold pointsXyzAlignment query at h
  cases hr : g.refresh with
  | ok g' b =>
    rw [hr] at h
    simp only [answer, Res.val.injEq] at h
    rw [← h]; exact (refresh_alignment hc hr).2.2
  | throws g' => rw [hr] at h; simp [answer] at h
  | ub => rw [hr] at h; simp [answer] at h

theorem alignment_answer_ok {g : GLine} (hr : Reachable g) (hlen : 2 ≤ g.line.alignment.length) :
    answer g.pointsXyzAlignment = .val (pointsAlignment g.origin g.line.alignment) := by
  obtain ⟨g', h⟩ := refresh_ok hr.cinv hr.line.inv.align hlen
  unfold pointsXyzAlignment query
  rw [h]
  simp only [answer, (refresh_alignment hr.cinv h).2.2]

/-- C26: with two alignment points or more the query returns normally, in every state. -/
theorem C26_alignment_query_returns {g : GLine} (hr : Reachable g) (hlen : 2 ≤ g.line.alignment.length) :
    ∃ pts, answer g.pointsXyzAlignment = .val pts := ⟨_, alignment_answer_ok hr hlen⟩

/-- C26: one point per alignment point, the first one being the origin; consecutive points are apart
horizontally by the station difference and vertically by the elevation difference. -/
theorem C26_stationing_preserved {g : GLine} (hr : Reachable g) {pts : List P3}
    (h : answer g.pointsXyzAlignment = .val pts) :
    pts.length = g.line.alignment.length ∧
    (∀ p, pts[0]? = some p → p = g.origin) ∧
    ∀ (i : ℕ) (a b : AlignmentPoint ℝ), g.line.alignment[i]? = some a → g.line.alignment[i + 1]? = some b →
      ∃ p q, pts[i]? = some p ∧ pts[i + 1]? = some q ∧
        Real.sqrt ((q.x - p.x) ^ 2 + (q.y - p.y) ^ 2) = b.station - a.station ∧
        q.z - p.z = b.elevation - a.elevation := by
  have hp := alignment_answer hr.cinv h
  subst hp
  have hlen := pointsAlignment_length g.origin g.line.alignment
  refine ⟨hlen, ?_, ?_⟩
  · intro p hp
    cases hal : g.line.alignment with
    | nil => rw [hal] at hp; simp [pointsAlignment] at hp
    | cons q qs => rw [hal] at hp; simp [pointsAlignment] at hp; exact hp.symm
  · intro i a b ha hb
    obtain ⟨hi, hb'⟩ := List.getElem?_eq_some_iff.mp hb
    obtain ⟨hi0, ha'⟩ := List.getElem?_eq_some_iff.mp ha
    have hs := hr.line.inv.align
    have hm := step_magnitude g.origin g.line.alignment hs i hi
    obtain ⟨-, hstep⟩ := points_step g.origin g.line.alignment hs i hi
    refine ⟨_, _, getElem?_getD (by omega), getElem?_getD (by omega), ?_, ?_⟩
    · rw [ha', hb'] at hm; exact hm
    · rw [hstep, ha', hb']
      exact (fromVector_diff _ _ _ _ _).2.2

/-- C26, direction of the first segment and turns: the first segment leaves the origin along the x-axis
turned by the first point's rotation, and at each later vertex the direction turns by that vertex's
rotation (counter-clockwise, in degrees), up to `1e-6` of the length. -/
theorem C26_turns {g : GLine} (hr : Reachable g) {pts : List P3}
    (h : answer g.pointsXyzAlignment = .val pts) (i : ℕ) (a b : AlignmentPoint ℝ)
    (ha : g.line.alignment[i]? = some a) (hb : g.line.alignment[i + 1]? = some b) (hrot : |a.rotation| ≤ 360) :
    ∃ p q, pts[i]? = some p ∧ pts[i + 1]? = some q ∧
      (i = 0 →
        |(q.x - p.x) - (b.station - a.station) * (exactRotation ⟨1, 0⟩ a.rotation).x| ≤
          1e-6 * (b.station - a.station) ∧
        |(q.y - p.y) - (b.station - a.station) * (exactRotation ⟨1, 0⟩ a.rotation).y| ≤
          1e-6 * (b.station - a.station)) ∧
      (∀ j z o, i = j + 1 → g.line.alignment[j]? = some z → pts[j]? = some o →
        |(a.station - z.station) * (q.x - p.x) -
          (b.station - a.station) * (exactRotation ⟨p.x - o.x, p.y - o.y⟩ a.rotation).x| ≤
          1e-6 * (a.station - z.station) * (b.station - a.station) ∧
        |(a.station - z.station) * (q.y - p.y) -
          (b.station - a.station) * (exactRotation ⟨p.x - o.x, p.y - o.y⟩ a.rotation).y| ≤
          1e-6 * (a.station - z.station) * (b.station - a.station)) := by
  have hp := alignment_answer hr.cinv h
  subst hp
  have hlen := pointsAlignment_length g.origin g.line.alignment
  obtain ⟨hi, hb'⟩ := List.getElem?_eq_some_iff.mp hb
  obtain ⟨hi0, ha'⟩ := List.getElem?_eq_some_iff.mp ha
  have hs := hr.line.inv.align
  have hlt : a.station < b.station := by
    rw [← ha', ← hb']
    exact List.pairwise_iff_getElem.mp hs i (i + 1) (by omega) hi (by omega)
  obtain ⟨hd, hstep⟩ := points_step g.origin g.line.alignment hs i hi
  set P := pointsAlignment g.origin g.line.alignment with hP
  refine ⟨_, _, getElem?_getD (by omega), getElem?_getD (by omega), ?_⟩
  rw [ha', hb'] at hstep
  have hdiff := fromVector_diff (P.getD i P3.default) (b.station - a.station) (b.elevation - a.elevation)
    a.rotation (direction ⟨1, 0⟩ P i)
  rw [← hstep] at hdiff
  -- the step is the rotated direction scaled to the station difference
  have hstep2 : (fromVector (P.getD i P3.default) (b.station - a.station) (b.elevation - a.elevation)
      a.rotation (direction ⟨1, 0⟩ P i)).2 =
      ((direction ⟨1, 0⟩ P i).rotate a.rotation).scale
        ((b.station - a.station) / (direction ⟨1, 0⟩ P i).magnitude) := by
    simp only [fromVector, V2.rotate_magnitude]
  rw [hstep2] at hdiff
  obtain ⟨c1, c2⟩ := C31_rotate_accurate (direction ⟨1, 0⟩ P i) a.rotation hrot
  have near : ∀ (m r e d : ℝ), 0 ≤ d → 0 ≤ m → |r - e| ≤ 1e-6 * m → |d * r - d * e| ≤ 1e-6 * m * d := by
    intro m r e d hd hm hre
    rw [← mul_sub, abs_mul, abs_of_nonneg hd]
    nlinarith
  constructor
  · rintro rfl
    have hm : (direction ⟨1, 0⟩ P 0).magnitude = 1 := by simp [direction, V2.magnitude]
    rw [hm] at hdiff
    rw [hdiff.1, hdiff.2.1]
    simp only [direction, V2.scale] at c1 c2 ⊢
    have e1 : √((1 : ℝ) ^ 2 + 0 ^ 2) = 1 := by simp
    rw [e1] at c1 c2
    have n1 := near 1 _ _ _ (sub_nonneg.mpr hlt.le) zero_le_one c1
    have n2 := near 1 _ _ _ (sub_nonneg.mpr hlt.le) zero_le_one c2
    rw [mul_one] at n1 n2
    constructor
    · rw [div_one, mul_comm ((V2.mk 1 0).rotate _).x]; exact n1
    · rw [div_one, mul_comm ((V2.mk 1 0).rotate _).y]; exact n2
  · rintro j z o rfl hz ho
    obtain ⟨hj, hz'⟩ := List.getElem?_eq_some_iff.mp hz
    have ho' : o = P.getD j P3.default := by
      rw [getElem?_getD (by omega)] at ho; simpa using ho.symm
    subst ho'
    have hm := step_magnitude g.origin g.line.alignment hs j (by omega)
    rw [← hP, ha', hz'] at hm
    have hzlt : z.station < a.station := by
      rw [← ha', ← hz']
      exact List.pairwise_iff_getElem.mp hs j (j + 1) (by omega) (by omega) (by omega)
    rw [hm] at hdiff
    change |_| ≤ 1e-6 * (direction ⟨1, 0⟩ P (j + 1)).magnitude at c1
    change |_| ≤ 1e-6 * (direction ⟨1, 0⟩ P (j + 1)).magnitude at c2
    rw [hm] at c1 c2
    rw [hdiff.1, hdiff.2.1]
    have n1 := near _ _ _ _ (sub_nonneg.mpr hlt.le) (sub_nonneg.mpr hzlt.le) c1
    have n2 := near _ _ _ _ (sub_nonneg.mpr hlt.le) (sub_nonneg.mpr hzlt.le) c2
    have hne : a.station - z.station ≠ 0 := by linarith
    simp only [V2.scale]
    constructor
    · have e : (a.station - z.station) * (((direction ⟨1, 0⟩ P (j + 1)).rotate a.rotation).x *
          ((b.station - a.station) / (a.station - z.station))) =
          (b.station - a.station) * ((direction ⟨1, 0⟩ P (j + 1)).rotate a.rotation).x := by field_simp
      rw [e]; exact n1
    · have e : (a.station - z.station) * (((direction ⟨1, 0⟩ P (j + 1)).rotate a.rotation).y *
          ((b.station - a.station) / (a.station - z.station))) =
          (b.station - a.station) * ((direction ⟨1, 0⟩ P (j + 1)).rotate a.rotation).y := by field_simp
      rw [e]; exact n2

/-- A reachable line with two alignment points, so the hypotheses of C26 and C27 are met. -/
example : ∃ g : GLine, Reachable g ∧ 2 ≤ g.line.alignment.length ∧
    (g.line.alignment[0]?).map AlignmentPoint.station = some 0 ∧
    (g.line.alignment[1]?).map AlignmentPoint.station = some 100 :=
  ⟨_, ⟨_, exEdits_runs⟩, by simp [exLine], by simp [exLine], by simp [exLine]⟩

/-- A line with a structure on which `Validate` returns (hypothesis of `C23_after_validate_partial`). -/
example : ∃ (g g' : GLine) (b : Bool), Reachable g ∧ g.validateUpdate = .ok g' b ∧
    g.line.structures.length = 1 := by
  set g0 : GLine := ⟨exLine, ⟨0, 0, 0⟩, false, false, [], []⟩ with hg0
  have hr0 : Reachable g0 := ⟨_, exEdits_runs⟩
  have hr1 := reachable_step hr0 _ (exAdd_pre g0 rfl) (exAdd g0 rfl)
  obtain ⟨g', h⟩ := refresh_ok hr1.cinv hr1.line.inv.align (by simp [exLine1, exLine])
  exact ⟨_, g', true, hr1, h, rfl⟩

/-! ## C27 -/

/-- C27: on a line with two alignment points or more, a station within the alignment has its coordinate
on the straight segment between the neighbouring alignment points (as reported by the alignment query),
at the station's fraction of the segment. -/
theorem C27_station_on_segment {g : GLine} (hr : Reachable g) (hlen : 2 ≤ g.line.alignment.length) (s : ℝ)
    (hfront : (g.line.alignment[0]'(by omega)).station ≤ s)
    (hback : s ≤ (g.line.alignment[g.line.alignment.length - 1]'(by omega)).station) :
    ∃ pts, answer g.pointsXyzAlignment = .val pts ∧
    ∃ (i : ℕ) (a b : AlignmentPoint ℝ) (p q : P3), g.line.alignment[i]? = some a ∧
      g.line.alignment[i + 1]? = some b ∧ pts[i]? = some p ∧ pts[i + 1]? = some q ∧
      a.station ≤ s ∧ s ≤ b.station ∧
      answer (g.pointXyzAlignment s) = .val (some
        ⟨p.x + (s - a.station) / (b.station - a.station) * (q.x - p.x),
          p.y + (s - a.station) / (b.station - a.station) * (q.y - p.y),
          p.z + (s - a.station) / (b.station - a.station) * (q.z - p.z)⟩) := by
  refine ⟨_, alignment_answer_ok hr hlen, ?_⟩
  have hs := hr.line.inv.align
  obtain ⟨i, hi, -, h1, h2, h3⟩ := fromStation_spec g.origin hs hlen s hfront hback
  have hPl := pointsAlignment_length g.origin g.line.alignment
  refine ⟨i, g.line.alignment[i], g.line.alignment[i + 1], _, _, by simp, by simp [hi],
    getElem?_getD (by omega), getElem?_getD (by omega), h1, h2, ?_⟩
  obtain ⟨g', h⟩ := refresh_ok hr.cinv hs hlen
  obtain ⟨e1, e2, e3⟩ := refresh_alignment hr.cinv h
  unfold pointXyzAlignment query
  rw [h]
  simp only [e1, e3, h3, answer]
  rfl

/-- C27: the coordinate of an alignment station is the alignment point itself. -/
theorem C27_station_at_vertex {g : GLine} (hr : Reachable g) (hlen : 2 ≤ g.line.alignment.length) (k : ℕ)
    (c : AlignmentPoint ℝ) (hk : g.line.alignment[k]? = some c) :
    ∃ pts p, answer g.pointsXyzAlignment = .val pts ∧ pts[k]? = some p ∧
      answer (g.pointXyzAlignment c.station) = .val (some p) := by
  have hs := hr.line.inv.align
  obtain ⟨hk', hc⟩ := List.getElem?_eq_some_iff.mp hk
  have mono : ∀ i j (hi : i < g.line.alignment.length) (hj : j < g.line.alignment.length), i ≤ j →
      (g.line.alignment[i]).station ≤ (g.line.alignment[j]).station := by
    intro i j hi hj hij
    rcases Nat.lt_or_eq_of_le hij with h | h
    · exact (List.pairwise_iff_getElem.mp hs i j hi hj h).le
    · subst h; rfl
  obtain ⟨pts, hpts, i, a, b, p, q, ha, hb, hp, hq, h1, h2, h3⟩ := C27_station_on_segment hr hlen c.station
    (by rw [← hc]; exact mono 0 k (by omega) hk' (by omega))
    (by rw [← hc]; exact mono k _ hk' (by omega) (by omega))
  obtain ⟨hi0, ha'⟩ := List.getElem?_eq_some_iff.mp ha
  obtain ⟨hi, hb'⟩ := List.getElem?_eq_some_iff.mp hb
  have hlt : a.station < b.station := by
    rw [← ha', ← hb']
    exact List.pairwise_iff_getElem.mp hs i (i + 1) (by omega) hi (by omega)
  have strict : ∀ i j (hi : i < g.line.alignment.length) (hj : j < g.line.alignment.length),
      (g.line.alignment[i]).station ≤ (g.line.alignment[j]).station → i ≤ j := by
    intro i j hi hj h
    by_contra hc
    exact absurd (List.pairwise_iff_getElem.mp hs j i hj hi (by omega)) (not_lt.mpr h)
  have k1 : i ≤ k := strict i k hi0 hk' (by rw [ha', hc]; exact h1)
  have k2 : k ≤ i + 1 := strict k (i + 1) hk' hi (by rw [hb', hc]; exact h2)
  have : k = i ∨ k = i + 1 := by omega
  rcases this with rfl | rfl
  · rw [ha] at hk
    simp only [Option.some.injEq] at hk
    subst hk
    refine ⟨pts, p, hpts, hp, ?_⟩
    rw [h3]; simp
  · rw [hb] at hk
    simp only [Option.some.injEq] at hk
    subst hk
    refine ⟨pts, q, hpts, hq, ?_⟩
    rw [h3, div_self (by linarith)]; simp

/-! ## C28 -/

/-- C28: whenever both the structure's point and the attachment's point are reported (not NaN), the
attachment is above the structure point by height adjustment + structure height + vertical offset, and
horizontally as far from it as the attachment offsets, turned by the structure's rotation and moved by
its offset, say: the alignment has no influence. -/
theorem C28_attachment_offsets {g : GLine} {i j : ℕ} {ptr : Ptr} {s : LineStructure ℝ} {t : Structure ℝ}
    {a : StructureAttachment ℝ} {P B : P3} (hs : g.line.structures[i]? = some (ptr, s)) (ht : s.base = some t)
    (ha : t.attachments[j]? = some a)
    (hB : answer (g.pointXyzLineStructure i) = .val (some B))
    (hP : answer (g.pointXyzLineStructureAttachment i j) = .val (some P)) :
    P.z - B.z = s.heightAdjustment + t.height + a.offsetVerticalTop ∧
    (P.x - B.x) ^ 2 + (P.y - B.y) ^ 2 =
      ((V2.mk a.offsetLongitudinal (-a.offsetTransverse)).rotate s.rotation).x ^ 2 +
      (((V2.mk a.offsetLongitudinal (-a.offsetTransverse)).rotate s.rotation).y - s.offset) ^ 2 := by
  obtain ⟨hi, -⟩ := List.getElem?_eq_some_iff.mp hs
  obtain ⟨hj, -⟩ := List.getElem?_eq_some_iff.mp ha
  unfold pointXyzLineStructure query at hB
  unfold pointXyzLineStructureAttachment query at hP
  cases hr : g.refresh with
  | throws g' => rw [hr] at hB; simp [answer] at hB
  | ub => rw [hr] at hB; simp [answer] at hB
  | ok g' b =>
    rw [hr] at hB hP
    simp only at hB hP
    have hline : g'.line = g.line := by
      unfold refresh at hr
      split at hr
      · unfold GLine.update at hr
        simp only at hr
        have := (updateA_frame g).1
        split at hr
        · split at hr <;> simp only [Outcome.ok.injEq, reduceCtorEq] at hr
          rw [← hr.1]; exact this
        · simp only [Outcome.ok.injEq] at hr; rw [← hr.1]; exact this
      · simp only [Outcome.ok.injEq] at hr; rw [← hr.1]
    have hv1 : ¬ validIndex (i : Int) g.line.structures.length = false := by
      rw [validIndex_natCast.mpr hi]; simp
    have hv2 : ¬ validIndex (j : Int) t.attachments.length = false := by
      rw [validIndex_natCast.mpr hj]; simp
    have hB' : g'.structurePoint i = .val (some B) := by
      cases h : g'.structurePoint i <;> rw [h] at hB <;> simp_all [answer]
    have hP' : g'.attachmentPoint i j = .val (some P) := by
      cases h : g'.attachmentPoint i j <;> rw [h] at hP <;> simp_all [answer]
    unfold structurePoint at hB'
    unfold attachmentPoint at hP'
    rw [hline, if_neg hv1] at hB' hP'
    simp only [Int.toNat_natCast, hs, ht, if_neg hv2, ha] at hB' hP'
    cases hc : g'.cacheS[i]? with
    | none => rw [hc] at hB'; simp at hB'
    | some b0 =>
      rw [hc] at hB' hP'
      simp only [Res.val.injEq] at hB'
      subst hB'
      cases hw : vectorStructure g.line.alignment g'.cacheA s.station with
      | ub => rw [hw] at hP'; simp at hP'
      | throws => rw [hw] at hP'; simp at hP'
      | val w =>
        rw [hw] at hP'
        cases w with
        | none => simp at hP'
        | some w =>
          simp only [Res.val.injEq, Option.some.injEq] at hP'
          subst hP'
          have := rotate_sq (V2.mk (attachmentLocal s t a).x (attachmentLocal s t a).y) w.angle
          simp only [add_sub_cancel_right]
          exact ⟨rfl, this⟩

/-- C28 for an unrotated structure: the horizontal distance is that of the offsets. -/
theorem C28_unrotated_distance {g : GLine} {i j : ℕ} {ptr : Ptr} {s : LineStructure ℝ} {t : Structure ℝ}
    {a : StructureAttachment ℝ} {P B : P3} (hs : g.line.structures[i]? = some (ptr, s)) (ht : s.base = some t)
    (ha : t.attachments[j]? = some a) (h0 : s.rotation = 0)
    (hB : answer (g.pointXyzLineStructure i) = .val (some B))
    (hP : answer (g.pointXyzLineStructureAttachment i j) = .val (some P)) :
    (P.x - B.x) ^ 2 + (P.y - B.y) ^ 2 = a.offsetLongitudinal ^ 2 + (a.offsetTransverse + s.offset) ^ 2 := by
  rw [(C28_attachment_offsets hs ht ha hB hP).2, h0]
  have : (V2.mk a.offsetLongitudinal (-a.offsetTransverse)).rotate 0 =
      V2.mk a.offsetLongitudinal (-a.offsetTransverse) := by
    unfold V2.rotate; rw [if_pos (by norm_num)]
  rw [this]
  ring

/-- Direction of the alignment segment `k` in the cached points. -/
theorem vectorSegment_spec (o : P3) {al : List (AlignmentPoint ℝ)} (hs : Alignment.Sorted al) (k : ℕ)
    (hk : k + 1 < al.length) :
    vectorSegment (pointsAlignment o al) k =
      .val (some ((direction ⟨1, 0⟩ (pointsAlignment o al) (k + 1)).scale
        (1 / (direction ⟨1, 0⟩ (pointsAlignment o al) (k + 1)).magnitude))) := by
  have hm := step_magnitude o al hs k hk
  have hlt := List.pairwise_iff_getElem.mp hs k (k + 1) (by omega) hk (by omega)
  have hne : (direction ⟨1, 0⟩ (pointsAlignment o al) (k + 1)).magnitude ≠ 0 := by rw [hm]; linarith
  have hlen := pointsAlignment_length o al
  unfold vectorSegment
  rw [if_neg (by omega), Int.toNat_natCast, getElem?_getD (by omega), getElem?_getD (by omega)]
  simp only
  exact if_neg hne

/-- C28: when the attachment point is defined.  On a line with two alignment points or more, for a
structure on the alignment, with valid indices, the query on the line with nothing cached returns a point,
except where the alignment folds straight back at an interior vertex carrying the structure (then the
coordinates are NaN). -/
theorem C28_attachment_defined {g : GLine} (hr : Reachable g) (hlen : 2 ≤ g.line.alignment.length) {i j : ℕ}
    {ptr : Ptr} {s : LineStructure ℝ} {t : Structure ℝ} {a : StructureAttachment ℝ}
    (hs : g.line.structures[i]? = some (ptr, s)) (ht : s.base = some t)
    (ha : t.attachments[j]? = some a)
    (hfront : (g.line.alignment[0]'(by omega)).station ≤ s.station)
    (hback : s.station ≤ (g.line.alignment[g.line.alignment.length - 1]'(by omega)).station) :
    (∃ B, answer ((uncached g).pointXyzLineStructure i) = .val (some B)) ∧
    ((∃ P, answer ((uncached g).pointXyzLineStructureAttachment i j) = .val (some P)) ∨
      ∃ (pts : List P3) (k : ℕ) (b : AlignmentPoint ℝ) (p q r : P3),
        answer (uncached g).pointsXyzAlignment = .val pts ∧
        g.line.alignment[k + 1]? = some b ∧ b.station = s.station ∧
        pts[k]? = some p ∧ pts[k + 1]? = some q ∧ pts[k + 2]? = some r ∧
        (q.x - p.x) * (r.x - q.x) + (q.y - p.y) * (r.y - q.y) =
          - Real.sqrt ((q.x - p.x) ^ 2 + (q.y - p.y) ^ 2) * Real.sqrt ((r.x - q.x) ^ 2 + (r.y - q.y) ^ 2)) := by
  obtain ⟨hi, hsi⟩ := List.getElem?_eq_some_iff.mp hs
  obtain ⟨hj, -⟩ := List.getElem?_eq_some_iff.mp ha
  have hsort := hr.line.inv.align
  set al := g.line.alignment with hal
  set P := pointsAlignment g.origin al with hPdef
  have hPl : P.length = al.length := pointsAlignment_length _ _
  obtain ⟨hok, hget⟩ := structuresLoop_ok g.origin hsort hlen g.stations
  have hisl : i < g.stations.length := by simpa [stations] using hi
  obtain ⟨q, hq, hqc⟩ := hget i hisl
  rw [← hPdef] at hok hq hqc
  have hu : (uncached g).refresh = .ok ⟨g.line, g.origin, true, true, P, (structuresLoop al P g.stations).1⟩
      true := by
    have : (uncached g).isUpdated = false := rfl
    unfold refresh
    rw [if_pos this]
    simp only [GLine.update, updateA, uncached, if_true, stations, ← hal, ← hPdef]
    unfold stations at hok
    rw [hok]
  have hv1 : ¬ validIndex (i : Int) g.line.structures.length = false := by
    rw [validIndex_natCast.mpr hi]; simp
  have hv2 : ¬ validIndex (j : Int) t.attachments.length = false := by
    rw [validIndex_natCast.mpr hj]; simp
  constructor
  · refine ⟨q, ?_⟩
    unfold pointXyzLineStructure query
    rw [hu]
    simp only [structurePoint, if_neg hv1, Int.toNat_natCast, hqc, answer]
  · have red : ∀ w : Option V2, vectorStructure al P s.station = .val w →
        (w = none ∨ ∃ P, answer ((uncached g).pointXyzLineStructureAttachment i j) = .val (some P)) := by
      intro w hw
      cases w with
      | none => left; rfl
      | some w =>
        right
        unfold pointXyzLineStructureAttachment query
        rw [hu]
        simp only [attachmentPoint, if_neg hv1, Int.toNat_natCast, hs, ht, if_neg hv2, ha, ← hal, hw, hqc,
          answer]
        exact ⟨_, rfl⟩
    obtain ⟨k, hk, hidx, h1, h2, h3⟩ := Alignment.segment_found hsort hlen s.station hfront hback
    have hhead : al.head? = some (al[0]'(by omega)) := by rw [List.head?_eq_getElem?]; simp
    have hlast : al.getLast? = some (al[al.length - 1]'(by omega)) := by
      rw [List.getLast?_eq_getElem?]; simp
    have hvk := vectorSegment_spec g.origin hsort k hk
    rw [← hPdef] at hvk
    by_cases hend : s.station = (al[0]'(by omega)).station ∨ s.station = (al[al.length - 1]'(by omega)).station
    · left
      have hw : vectorStructure al P s.station = vectorSegment P k := by
        unfold vectorStructure
        rw [hidx]
        simp only [hhead, hlast, if_pos hend]
      rw [hvk] at hw
      rcases red _ hw with h | h
      · simp at h
      · exact h
    · by_cases hany : al.any (fun p => decide (s.station = p.station)) = false
      · left
        have hw : vectorStructure al P s.station = vectorSegment P k := by
          unfold vectorStructure
          rw [hidx]
          simp only [hhead, hlast, if_neg hend, if_pos hany]
        rw [hvk] at hw
        rcases red _ hw with h | h
        · simp at h
        · exact h
      · -- an interior vertex
        rw [not_or] at hend
        have hex : ∃ m, ∃ hm : m < al.length, s.station = (al[m]).station := by
          simp only [Bool.not_eq_false, List.any_eq_true, decide_eq_true_eq] at hany
          obtain ⟨x, hx, hxe⟩ := hany
          obtain ⟨m, hm, rfl⟩ := List.getElem_of_mem hx
          exact ⟨m, hm, hxe⟩
        obtain ⟨m, hm, hme⟩ := hex
        have strict : ∀ i j (hi : i < al.length) (hj : j < al.length), (al[i]).station ≤ (al[j]).station →
            i ≤ j := by
          intro i j hi hj h
          by_contra hc
          exact absurd (List.pairwise_iff_getElem.mp hsort j i hj hi (by omega)) (not_lt.mpr h)
        have hm1 : m ≤ k + 1 := strict m (k + 1) hm hk (by rw [← hme]; exact h2)
        have hkm : k < m := by
          by_contra hc
          have hle : m ≤ k := by omega
          have hkm' : k ≤ m := strict k m (by omega) hm (by rw [← hme]; exact h1)
          have : m = k := by omega
          subst this
          rcases h3 with h3 | h3
          · subst h3; exact hend.1 hme
          · rw [hme] at h3; exact lt_irrefl _ h3
        have hmk : m = k + 1 := by omega
        subst hmk
        have hk2 : k + 2 < al.length := by
          by_contra hc
          have : k + 1 = al.length - 1 := by omega
          apply hend.2
          rw [hme]
          congr 2
        have hvk2 := vectorSegment_spec g.origin hsort (k + 1) hk2
        rw [← hPdef] at hvk2
        set u := direction ⟨1, 0⟩ P (k + 1) with hudef
        set w := direction ⟨1, 0⟩ P (k + 2) with hwdef
        have hum : u.magnitude ≠ 0 := by
          have := step_magnitude g.origin al hsort k hk
          rw [← hPdef] at this
          rw [hudef, this]
          have := List.pairwise_iff_getElem.mp hsort k (k + 1) (by omega) hk (by omega)
          linarith
        have hwm : w.magnitude ≠ 0 := by
          have := step_magnitude g.origin al hsort (k + 1) hk2
          rw [← hPdef] at this
          rw [hwdef, this]
          have := List.pairwise_iff_getElem.mp hsort (k + 1) (k + 2) (by omega) hk2 (by omega)
          linarith
        have hcast : ((k : Int) + 1) = ((k + 1 : ℕ) : Int) := by push_cast; rfl
        have hw : vectorStructure al P s.station = (if (V2.mk ((u.scale (1 / u.magnitude)).x +
            (w.scale (1 / w.magnitude)).x) ((u.scale (1 / u.magnitude)).y +
            (w.scale (1 / w.magnitude)).y)).magnitude = 0 then .val none else .val (some ((V2.mk
              ((u.scale (1 / u.magnitude)).x + (w.scale (1 / w.magnitude)).x)
              ((u.scale (1 / u.magnitude)).y + (w.scale (1 / w.magnitude)).y)).scale (1 / (V2.mk
              ((u.scale (1 / u.magnitude)).x + (w.scale (1 / w.magnitude)).x)
              ((u.scale (1 / u.magnitude)).y + (w.scale (1 / w.magnitude)).y)).magnitude)))) := by
          unfold vectorStructure
          rw [hidx]
          simp only [hhead, hlast, if_neg (not_or.mpr hend), if_neg hany, hvk, hcast, hvk2]
        by_cases hz : (V2.mk ((u.scale (1 / u.magnitude)).x +
            (w.scale (1 / w.magnitude)).x) ((u.scale (1 / u.magnitude)).y +
            (w.scale (1 / w.magnitude)).y)).magnitude = 0
        · right
          rw [V2.magnitude_eq_zero] at hz
          simp only [V2.scale] at hz
          refine ⟨P, k, al[k + 1], _, _, _, ?_, by simp [hk], hme.symm, getElem?_getD (by omega),
            getElem?_getD (by omega), getElem?_getD (by omega), ?_⟩
          · unfold pointsXyzAlignment query
            rw [hu]; rfl
          · change u.x * w.x + u.y * w.y = - u.magnitude * w.magnitude
            have ex : u.x = - w.x * u.magnitude / w.magnitude := by
              have := hz.1; field_simp at this ⊢; linarith
            have ey : u.y = - w.y * u.magnitude / w.magnitude := by
              have := hz.2; field_simp at this ⊢; linarith
            rw [ex, ey]
            have := w.magnitude_sq
            field_simp
            nlinarith
        · left
          rw [if_neg hz] at hw
          rcases red _ hw with h | h
          · simp at h
          · exact h

/-- C28: a structure that was moved past the end of the alignment (which `ModifyLineStructure` accepts
within one unit, see C13) has no coordinates: the structure query reports the placeholder point and the
attachment query throws. -/
theorem C28_structure_past_end_throws :
    ∃ g : GLine, Reachable g ∧ g.line.structures.length = 1 ∧
      answer (g.pointXyzLineStructure 0) = .val (some P3.default) ∧
      answer (g.pointXyzLineStructureAttachment 0 0) = .throws := by
  set g0 : GLine := ⟨exLine, ⟨0, 0, 0⟩, false, false, [], []⟩ with hg0
  have hr0 : Reachable g0 := ⟨_, exEdits_runs⟩
  have hr1 := reachable_step hr0 _ (exAdd_pre g0 rfl) (exAdd g0 rfl)
  set s2 : LineStructure ℝ := { exStructure with station := 100.5 } with hs2
  have hsr : LineStructure.Reachable s2 := exStructure_reachable.step (.setStation 100.5) rfl
  have h2 : Event.next ⟨exLine1, g0.origin, g0.flagA, false, g0.cacheA, g0.cacheS⟩
      (.edit noHeap (.modifyLineStructure 0 s2)) =
      some ⟨⟨exLine.alignment, [(1, s2)], []⟩, ⟨0, 0, 0⟩, false, false, [], []⟩ := by
    have e1 : ¬ (100.5 : ℝ) ≤ -1 := by norm_num
    have e2 : ¬ (100 + 1 : ℝ) ≤ 100.5 := by norm_num
    simp [Event.next, edit, Line.Op.apply, Line.modifyLineStructure, exLine1, exLine, validIndex, hs2, e1, e2,
      Line.wrap, edited, resets, Outcome.state?, Line.finishCables, hg0, Line.stationBack, Line.stationAhead,
      exStructure, exBase, Line.deleteInvalidConnections, Line.deleteInvalidLineCables]
  have hr2 := reachable_step hr1 (.edit noHeap (.modifyLineStructure 0 s2)) hsr h2
  have e3 : ¬ (100.5 : ℝ) ≤ 100 := by norm_num
  have e4 : (0 : ℝ) ≤ 100.5 := by norm_num
  have e5 : ¬ (100.5 : ℝ) = 0 := by norm_num
  have e6 : ¬ (100.5 : ℝ) = 100 := by norm_num
  refine ⟨_, hr2, rfl, ?_, ?_⟩
  · simp [answer, pointXyzLineStructure, query, refresh, isUpdated, GLine.update, updateA, stations,
      structuresLoop, fromStation, Alignment.indexSegment, Alignment.isValidStation, exLine, hs2, e3,
      structurePoint, validIndex]
  · simp [answer, pointXyzLineStructureAttachment, query, refresh, isUpdated, GLine.update, updateA, stations,
      structuresLoop, fromStation, Alignment.indexSegment, Alignment.isValidStation, exLine, hs2, e3,
      attachmentPoint, validIndex, exStructure, exBase, vectorStructure, e5, e6, vectorSegment]

/-! ## C81 -/

/-- C81 is false as stated: a line whose structure passes `Structure::Validate` without any message has an
attachment above the top of the structure. -/
theorem C81_attachment_above_top :
    ∃ (g : GLine) (s : LineStructure ℝ) (t : Structure ℝ) (B P : P3), Reachable g ∧
      g.line.structures = [(1, s)] ∧ s.base = some t ∧ t.validate = (true, []) ∧
      answer (g.pointXyzLineStructure 0) = .val (some B) ∧
      answer (g.pointXyzLineStructureAttachment 0 0) = .val (some P) ∧
      B.z + s.heightAdjustment + t.height < P.z := by
  set g0 : GLine := ⟨exLine, ⟨0, 0, 0⟩, false, false, [], []⟩ with hg0
  have hr0 : Reachable g0 := ⟨_, exEdits_runs⟩
  have hr1 := reachable_step hr0 _ (exAdd_pre g0 rfl) (exAdd g0 rfl)
  obtain ⟨⟨B, hB⟩, hP⟩ := C28_attachment_defined (i := 0) (j := 0) hr1 (by simp [exLine1, exLine])
    (ptr := 1) (s := exStructure) (t := exBase) (a := ⟨1, 2, 3⟩) rfl rfl rfl
    (by norm_num [exLine1, exLine, exStructure]) (by norm_num [exLine1, exLine, exStructure])
  have hval : exBase.validate = (true, []) := by
    have e1 : ¬ (3 : ℝ) < 0 := by norm_num
    have e2 : ¬ (50 : ℝ) < 3 := by norm_num
    have e3 : ¬ (50 : ℝ) ≤ 0 := by norm_num
    simp [Structure.validate, exBase, StructureAttachment.validate, Structure.exceeding, e1, e2, e3]
  rcases hP with ⟨P, hP⟩ | ⟨pts, k, b, p, q, r, -, hb, hst, -⟩
  · refine ⟨_, exStructure, exBase, B, P, hr1, rfl, rfl, hval, hB, hP, ?_⟩
    have h := (C28_attachment_offsets (g := uncached _) (i := 0) (j := 0) (ptr := 1) (s := exStructure)
      (t := exBase) (a := ⟨1, 2, 3⟩) rfl rfl rfl hB hP).1
    have : exStructure.heightAdjustment + exBase.height + (3 : ℝ) = P.z - B.z := h.symm
    linarith
  · exfalso
    cases k with
    | zero => simp [exLine1, exLine] at hb; subst hb; norm_num [exStructure] at hst
    | succ k => simp [exLine1, exLine] at hb

/-- C81, what holds: an attachment whose vertical offset is zero is exactly at the top, and any attachment
with an offset that its own validator accepts is at or above the top; it is above the base if the height
adjustment is not negative.  Missing: being at or below the top. -/
theorem C81_attachment_from_top_partial {g : GLine} {i j : ℕ} {ptr : Ptr} {s : LineStructure ℝ}
    {t : Structure ℝ} {a : StructureAttachment ℝ} {P B : P3} (hs : g.line.structures[i]? = some (ptr, s))
    (ht : s.base = some t) (ha : t.attachments[j]? = some a) (hv : t.validate.1 = true)
    (hva : a.validate.1 = true)
    (hB : answer (g.pointXyzLineStructure i) = .val (some B))
    (hP : answer (g.pointXyzLineStructureAttachment i j) = .val (some P)) :
    (a.offsetVerticalTop = 0 → P.z = B.z + s.heightAdjustment + t.height) ∧
    B.z + s.heightAdjustment + t.height ≤ P.z ∧ P.z ≤ B.z + s.heightAdjustment + 2 * t.height ∧
    (0 ≤ s.heightAdjustment → B.z < P.z) := by
  have h := (C28_attachment_offsets hs ht ha hB hP).1
  have h0 : 0 ≤ a.offsetVerticalTop := by
    unfold StructureAttachment.validate at hva
    split at hva
    · simp at hva
    · linarith
  unfold Structure.validate at hv
  simp only [Bool.and_eq_true, decide_eq_true_eq, not_le, List.isEmpty_iff] at hv
  obtain ⟨⟨-, hh⟩, hex⟩ := hv
  have hle : a.offsetVerticalTop ≤ t.height := by
    unfold Structure.exceeding at hex
    rw [List.flatMap_eq_nil_iff] at hex
    have := hex a (List.mem_of_getElem? ha)
    by_contra hc
    rw [if_pos (not_le.mp hc)] at this
    simp at this
  refine ⟨fun h2 => by linarith, by linarith, by linarith, fun h3 => by linarith⟩

end Verif.Props
