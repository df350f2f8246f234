import Verif.Props.CatenarySolver

/-! # Property C115: answers of the catenary solver and the history of calls -/

set_option linter.unusedSectionVars false

namespace Verif.Props

open Catenary3d CatenarySolver

/-- A new solver given the inputs of `s`. -/
noncomputable def freshSolver (s : CatenarySolver) : CatenarySolver :=
  ((((CatenarySolver.new.setSpacing s.catenary.spacing).setWeight s.catenary.weightUnit).setPositionTarget
    s.positionTarget).setTypeTarget s.typeTarget).setValueTarget s.valueTarget

theorem freshSolver_reachable (s : CatenarySolver) : (freshSolver s).Reachable :=
  ⟨[.setSpacing s.catenary.spacing, .setWeight s.catenary.weightUnit, .setPositionTarget s.positionTarget,
    .setTypeTarget s.typeTarget, .setValueTarget s.valueTarget], rfl⟩

/-- What holds after any history: an updated solver holds the tension a new solver finds. -/
structure SolverSound (s : CatenarySolver) : Prop where
  reach : s.catenary.Reachable
  direction : s.catenary.direction = Catenary3d.new.direction
  found : s.isUpdated = true → ∃ r, (freshSolver s).solve = some (true, r) ∧
    s.catenary.tensionHorizontal = r.catenary.tensionHorizontal

theorem SolverSound.same {s : CatenarySolver} (h : SolverSound s) : SameInputs (freshSolver s) s :=
  ⟨⟨solver_catenary (freshSolver_reachable s), h.reach, h.direction.symm, rfl, rfl⟩, rfl, rfl, rfl⟩

theorem freshSolver_congr {s s' : CatenarySolver} (h1 : s'.catenary.spacing = s.catenary.spacing)
    (h2 : s'.catenary.weightUnit = s.catenary.weightUnit) (h3 : s'.positionTarget = s.positionTarget)
    (h4 : s'.typeTarget = s.typeTarget) (h5 : s'.valueTarget = s.valueTarget) :
    freshSolver s' = freshSolver s := by
  unfold freshSolver; rw [h1, h2, h3, h4, h5]

/-- An update gives what the update of a new solver gives. -/
theorem SolverSound.update {s : CatenarySolver} (h : SolverSound s) :
    SolverSound s.update.2 ∧ freshSolver s.update.2 = freshSolver s ∧
      s.update.1 = (freshSolver s).update.1 ∧
      (s.update.1 = true → s.update.2.isUpdated = true ∧
        Same (freshSolver s).update.2.catenary s.update.2.catenary ∧
        (freshSolver s).update.2.catenary.tensionHorizontal = s.update.2.catenary.tensionHorizontal) := by
  rcases solve_same h.same with ⟨e1, e2⟩ | ⟨b, q, q', e1, e2, e3, e4⟩
  · have u : s.update = (false, s) := by unfold CatenarySolver.update; rw [e2]
    have v : (freshSolver s).update = (false, freshSolver s) := by unfold CatenarySolver.update; rw [e1]
    rw [u, v]
    exact ⟨h, rfl, rfl, fun h => by cases h⟩
  · have F := solve_frame h.reach e2
    have F0 := solve_frame (solver_catenary (freshSolver_reachable s)) e1
    have hd := solve_direction e2
    have hf : freshSolver q' = freshSolver s :=
      freshSolver_congr F.1.2.1 F.1.2.2 F.2.1 F.2.2.1 F.2.2.2.1
    cases b with
    | false =>
      have u : s.update = (false, { q' with isUpdated := false }) := by
        unfold CatenarySolver.update; rw [e2]
      have v : (freshSolver s).update = (false, { q with isUpdated := false }) := by
        unfold CatenarySolver.update; rw [e1]
      rw [u, v]
      exact ⟨⟨F.1.1, hd.trans h.direction, fun h => by cases h⟩, hf, rfl, fun h => by cases h⟩
    | true =>
      have u : s.update = (q'.catenary.validate.1, { q' with isUpdated := true, catenary := q'.catenary.refresh }) := by
        unfold CatenarySolver.update; rw [e2]; rfl
      have v : (freshSolver s).update =
          (q.catenary.validate.1, { q with isUpdated := true, catenary := q.catenary.refresh }) := by
        unfold CatenarySolver.update; rw [e1]; rfl
      obtain ⟨a1, a2, a3, a4⟩ := refresh_params q'.catenary
      have a4' : q'.catenary.refresh.tensionHorizontal = q'.catenary.tensionHorizontal := a4
      have b4' : q.catenary.refresh.tensionHorizontal = q.catenary.tensionHorizontal :=
        (refresh_params q.catenary).2.2.2
      have hf' : freshSolver { q' with isUpdated := true, catenary := q'.catenary.refresh } = freshSolver s :=
        (freshSolver_congr (s := q') (s' := { q' with isUpdated := true, catenary := q'.catenary.refresh })
          a2 a3 rfl rfl rfl).trans hf
      have ht := e4 rfl
      rw [u, v]
      refine ⟨⟨F.1.touch.1, (a1.trans hd).trans h.direction, fun _ => ⟨q, ?_, ?_⟩⟩, hf', ?_, fun _ => ⟨rfl, ?_, ?_⟩⟩
      · rw [hf']; exact e1
      · rw [ht]; exact a4'
      · show q'.catenary.validate.1 = q.catenary.validate.1
        rw [Bool.eq_iff_iff, (C54_validate_3d F.1.1).1, (C54_validate_3d F0.1.1).1]
        have w1 : q.catenary.spacing = q'.catenary.spacing := e3.1.2.2.2.1
        have w2 : q.catenary.weightUnit = q'.catenary.weightUnit := e3.1.2.2.2.2
        rw [← w1, ← w2, ht]
      · exact same_refresh e3.1
      · show q.catenary.refresh.tensionHorizontal = q'.catenary.refresh.tensionHorizontal
        rw [a4', b4', ht]

theorem SolverSound.step {s : CatenarySolver} (h : SolverSound s) (e : CatenarySolver.Event) :
    SolverSound (e.next s) := by
  cases e with
  | setPositionTarget p => exact ⟨h.reach, h.direction, fun h => by cases h⟩
  | setSpacing v => exact ⟨h.reach.step (.setSpacing v), h.direction, fun h => by cases h⟩
  | setTypeTarget t => exact ⟨h.reach, h.direction, fun h => by cases h⟩
  | setValueTarget v => exact ⟨h.reach, h.direction, fun h => by cases h⟩
  | setWeight v => exact ⟨h.reach.step (.setWeight v), h.direction, fun h => by cases h⟩
  | tensionHorizontal =>
    show SolverSound (CatenarySolver.tensionHorizontal s).2
    unfold CatenarySolver.tensionHorizontal
    split_ifs
    · exact h
    · exact h.update.1
    · exact h.update.1
  | catenary =>
    show SolverSound (catenaryQ s).2
    unfold catenaryQ
    split_ifs
    · exact h
    · exact h.update.1
    · exact h.update.1
  | validate =>
    show SolverSound (CatenarySolver.validate s).2
    unfold CatenarySolver.validate
    split_ifs
    · exact h.update.1
    · exact h

theorem solver_sound {s : CatenarySolver} (R : s.Reachable) : SolverSound s := by
  obtain ⟨es, rfl⟩ := R
  have : ∀ (es : List CatenarySolver.Event) (s : CatenarySolver), SolverSound s →
      SolverSound (es.foldl CatenarySolver.Event.next s) := by
    intro es
    induction es with
    | nil => exact fun _ h => h
    | cons e es ih => exact fun s h => ih _ (h.step e)
  exact this es CatenarySolver.new ⟨⟨[], rfl⟩, rfl, fun h => by cases h⟩

/-- C115: whatever was called before, `Validate` answers what it answers for a new solver with the same inputs. -/
theorem C115_validate {s : CatenarySolver} (R : s.Reachable) : s.validate.1 = (freshSolver s).validate.1 := by
  have hi : s.InputsValid ↔ (freshSolver s).InputsValid := Iff.rfl
  unfold CatenarySolver.validate
  by_cases h : s.InputsValid
  · rw [if_pos h, if_pos (hi.1 h)]
    exact (solver_sound R).update.2.2.1
  · rw [if_neg h, if_neg (fun h' => h (hi.2 h'))]

/-- C115 fails for queries after a failed search: the solver answers the rejected tension, a new one with the same
inputs fails. -/
theorem C115_fails : ∃ s : CatenarySolver, s.Reachable ∧ s.tensionHorizontal.1 = 40 ∧
    (freshSolver s).tensionHorizontal.1 = -999999 := by
  obtain ⟨s, R, -, h1, h2⟩ := C58_witness
  have hu : s.isUpdated = false := by
    by_contra hc
    have hc : s.isUpdated = true := by simpa using hc
    have e : s.tensionHorizontal.2 = s := by unfold CatenarySolver.tensionHorizontal; rw [if_pos hc]
    rw [e, h1] at h2
    norm_num at h2
  have e : s.tensionHorizontal.2 = s.update.2 := by
    unfold CatenarySolver.tensionHorizontal
    rw [hu]; simp only [Bool.false_eq_true, if_false]; split_ifs <;> rfl
  obtain ⟨-, hf, hb, hg⟩ := (solver_sound R).update
  have hfail : s.update.1 = false := by
    by_contra hc
    have hc : s.update.1 = true := by simpa using hc
    have a : s.tensionHorizontal.1 = s.update.2.catenary.tensionHorizontal := by
      unfold CatenarySolver.tensionHorizontal
      rw [hu, if_neg (by decide), if_pos hc]
    have b : s.update.2.tensionHorizontal.1 = s.update.2.catenary.tensionHorizontal := by
      unfold CatenarySolver.tensionHorizontal
      rw [if_pos (hg hc).1]
    rw [e, b, ← a, h1] at h2
    norm_num at h2
  refine ⟨s.tensionHorizontal.2, ?_, h2, ?_⟩
  · obtain ⟨es, rfl⟩ := R
    exact ⟨es ++ [.tensionHorizontal], by rw [List.foldl_append]; rfl⟩
  · rw [e, hf]
    unfold CatenarySolver.tensionHorizontal
    rw [← hb, hfail]; rfl

/-- C115: when a new solver with the same inputs finds a tension, the solver answers that tension whatever was
called before, and every query on its catenary is answered alike.  Missing: inputs a new solver fails on; for those
the answer may change from failure to the rejected tension, `C115_fails`. -/
theorem C115_history_partial {s : CatenarySolver} (R : s.Reachable)
    (h : (freshSolver s).tensionHorizontal.1 ≠ -999999) :
    s.tensionHorizontal.1 = (freshSolver s).tensionHorizontal.1 ∧
      ∀ {A : Type} (q : Query3 A), q.ask s.catenaryQ.1 = q.ask (freshSolver s).catenaryQ.1 := by
  have J := solver_sound R
  have hn : (freshSolver s).isUpdated = false := rfl
  have hu : (freshSolver s).update.1 = true := by
    by_contra hc
    apply h
    unfold CatenarySolver.tensionHorizontal
    rw [hn, if_neg (by decide), if_neg hc]
  have f1 : (freshSolver s).tensionHorizontal.1 = (freshSolver s).update.2.catenary.tensionHorizontal := by
    unfold CatenarySolver.tensionHorizontal
    rw [hn, if_neg (by decide), if_pos hu]
  have f2 : (freshSolver s).catenaryQ.1 = (freshSolver s).update.2.catenary := by
    unfold catenaryQ
    rw [hn, if_neg (by decide), if_pos hu]
  have same : ∃ k, (s.tensionHorizontal.1 = k.tensionHorizontal) ∧ s.catenaryQ.1 = k ∧
      Same (freshSolver s).update.2.catenary k ∧
      (freshSolver s).update.2.catenary.tensionHorizontal = k.tensionHorizontal := by
    by_cases hb : s.isUpdated = true
    · refine ⟨s.catenary, ?_, ?_, ?_, ?_⟩
      · unfold CatenarySolver.tensionHorizontal; rw [if_pos hb]
      · unfold catenaryQ; rw [if_pos hb]
      · have F := update_fam (solver_catenary (freshSolver_reachable s))
        obtain ⟨r, h1, _, h3, _⟩ := update_true hu
        refine ⟨F.1, J.reach, ?_, F.2.1, F.2.2⟩
        rw [h3, (refresh_params _).1, solve_direction h1, J.direction]
        rfl
      · obtain ⟨r, h1, h2⟩ := J.found hb
        obtain ⟨r', h1', _, h3', _⟩ := update_true hu
        rw [h1] at h1'
        cases h1'
        rw [h3', h2]
        exact (refresh_params _).2.2.2
    · have hu' : s.update.1 = true := J.update.2.2.1.trans hu
      obtain ⟨_, g1, g2⟩ := J.update.2.2.2 hu'
      refine ⟨s.update.2.catenary, ?_, ?_, g1, g2⟩
      · unfold CatenarySolver.tensionHorizontal; rw [if_neg hb, if_pos hu']
      · unfold catenaryQ; rw [if_neg hb, if_pos hu']
  obtain ⟨k, k1, k2, k3, k4⟩ := same
  refine ⟨by rw [k1, f1, k4], fun {A} q => ?_⟩
  rw [k2, f2]
  obtain ⟨r, r', d, sp, w⟩ := k3
  have k4' : (freshSolver s).update.2.catenary.tensionHorizontal = k.tensionHorizontal := k4
  rw [C50_history_3d r q, C50_history_3d r' q, d, sp, w, k4']

/-- A new solver that accepts its inputs answers a tension. -/
theorem fresh_tension {s : CatenarySolver} (R : s.Reachable) (hn : s.isUpdated = false)
    (h : s.validate.1 = true) : s.tensionHorizontal.1 ≠ -999999 := by
  obtain ⟨_, hu, _⟩ := validate_true h
  obtain ⟨r, h1, h2, h3, _⟩ := update_true hu
  unfold CatenarySolver.tensionHorizontal
  rw [hn, if_neg (by decide), if_pos hu]
  show s.update.2.catenary.tensionHorizontal ≠ _
  rw [h3]
  intro hc
  exact validate_pos (solve_frame (solver_catenary R) h1).1.1 h2 ((refresh_params r.catenary).2.2.2 ▸ hc)

/-- A solver asked for the constant 1000 and then given the constant 2000 meets the hypotheses. -/
example : ∃ s : CatenarySolver, s = (exSolver .constant 1000).tensionHorizontal.2.setValueTarget 2000 ∧
    s.Reachable ∧ (freshSolver s).tensionHorizontal.1 ≠ -999999 := by
  have F := update_fam (solver_catenary (exSolver_reachable .constant 1000))
  have e : freshSolver ((exSolver .constant 1000).tensionHorizontal.2.setValueTarget 2000) =
      freshSolver (exSolver .constant 2000) := by
    have hk : ∀ s : CatenarySolver, s.isUpdated = false → s.tensionHorizontal.2 = s.update.2 := by
      intro s h
      unfold CatenarySolver.tensionHorizontal
      rw [h, if_neg (by decide)]
      split_ifs <;> rfl
    rw [hk _ rfl]
    exact freshSolver_congr F.2.1 F.2.2 rfl rfl rfl
  refine ⟨_, rfl, ⟨[.setSpacing ⟨100, 0, 0⟩, .setWeight ⟨0, 0, 1⟩, .setTypeTarget .constant, .setValueTarget 1000,
    .tensionHorizontal, .setValueTarget 2000], rfl⟩, ?_⟩
  rw [e]
  refine fresh_tension (freshSolver_reachable _) rfl ?_
  rw [C55_accepts (freshSolver_reachable _) rfl]
  refine ⟨Or.inl rfl, ?_, rfl, ?_, rfl, le_refl _, ?_, ?_⟩
  · show (0:ℝ) < 100; norm_num
  · show |(0:ℝ)| < 2000; norm_num
  · show (0:ℝ) < 1; norm_num
  · show (exSolver .constant 2000).catenary.spacing.magnitude / 2 ≤ 2000
    rw [exSolver_spacing]; norm_num

end Verif.Props
