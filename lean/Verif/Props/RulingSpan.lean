import Verif.SectionCable
import Verif.Props.SolverTension

/-! # The ruling span catenary meets the constraint (C107) -/

set_option linter.unusedSectionVars false

namespace Verif.Props

open Catenary3d CatenarySolver SectionCable

/-- A solver that has not been asked yet and that reports a tension has solved. -/
theorem asked_solved {s : CatenarySolver} (hu : s.isUpdated = false)
    (h : s.tensionHorizontal.1 ≠ -999999) :
    ∃ s', s.solve = some (true, s') ∧ s'.catenary.validate.1 = true ∧
      s.tensionHorizontal.1 = s'.catenary.tensionHorizontal := by
  unfold CatenarySolver.tensionHorizontal at h ⊢
  rw [if_neg (by rw [hu]; decide)] at h ⊢
  split_ifs at h ⊢ with hu'
  · obtain ⟨s', h1, h2, h3, _⟩ := update_true hu'
    refine ⟨s', h1, h2, ?_⟩
    rw [h3]
    exact (refresh_params _).2.2.2
  · exact absurd rfl h

/-- The catenary with which `CatenaryRulingSpan` starts. -/
noncomputable def blankSpan (c : SectionCable) (load : V3) : Catenary3d :=
  (Catenary3d.new.setSpacing c.spacing).setWeight load

theorem blankSpan_reachable (c : SectionCable) (load : V3) : (blankSpan c load).Reachable :=
  ⟨[.setSpacing c.spacing, .setWeight load], rfl⟩

theorem tensionSolver_facts (c : SectionCable) (load : V3) :
    (c.tensionSolver load).catenary = blankSpan c load ∧ (c.tensionSolver load).isUpdated = false ∧
      (c.tensionSolver load).valueTarget = c.constraint.limit := by
  unfold SectionCable.tensionSolver
  simp only
  split <;> first | exact ⟨rfl, rfl, rfl⟩ | (split_ifs <;> exact ⟨rfl, rfl, rfl⟩)

theorem ruling_val {c : SectionCable} {k : Catenary3d} (h : c.catenaryRulingSpan = .val k) :
    ∃ load, c.loadUnit = .val load ∧ k = (blankSpan c load).setTension
      (if c.constraint.typeLimit = .horizontalTension then c.constraint.limit
        else (c.tensionSolver load).tensionHorizontal.1) := by
  unfold catenaryRulingSpan at h
  match hl : c.loadUnit with
  | .val load =>
    rw [hl] at h
    refine ⟨load, rfl, ?_⟩
    have := Res.val.inj h
    rw [← this]
    split_ifs <;> rfl
  | .throws => rw [hl] at h; cases h
  | .ub => rw [hl] at h; cases h

/-- C107: if the ruling span catenary of a line cable is valid, it spans the ruling span and meets the limit of the
cable's constraint: the horizontal tension and the catenary constant exactly, the length to 0.0075 over the unit load,
the support tension (the larger of the two) to 0.01 times the distance of the end points over their horizontal distance,
the sag to 0.015 times this ratio over the unit load. -/
theorem C107_limit {c : SectionCable} {k : Catenary3d} (h : c.catenaryRulingSpan = .val k)
    (hv : k.validate.1 = true) :
    k.spacing = c.spacing ∧ c.loadUnit = .val k.weightUnit ∧
    match c.constraint.typeLimit with
    | .null => False
    | .horizontalTension => k.tensionHorizontal = c.constraint.limit
    | .catenaryConstant => k.constant = c.constraint.limit
    | .length => |k.length - c.constraint.limit| ≤ 0.0075 / k.weightUnit.magnitude
    | .sag => |k.sag - c.constraint.limit| ≤
        0.015 * (c.spacing.magnitude / c.spacing.x) / k.weightUnit.magnitude
    | .supportTension => |k.tensionMax - c.constraint.limit| ≤ 0.01 * (c.spacing.magnitude / c.spacing.x) := by
  obtain ⟨load, hl, e⟩ := ruling_val h
  have R0 := blankSpan_reachable c load
  have F0 := fam_refl R0
  have Rk : k.Reachable := by rw [e]; exact (F0.step _).1
  have sp : k.spacing = c.spacing := by rw [e]; rfl
  have wu : k.weightUnit = load := by rw [e]; rfl
  have hval := (C54_validate_3d Rk).1.1 hv
  have hne := validate_pos Rk hv
  have S : (blankSpan c load).Span := by
    obtain ⟨_, h1, h2, _, h3, h4, h5, _⟩ := hval
    rw [sp] at h1 h2
    rw [wu] at h3 h4 h5
    exact ⟨h1, h2, h3, h4, h5⟩
  have hw : 0 < load.magnitude := S.w_pos
  refine ⟨sp, by rw [wu]; exact hl, ?_⟩
  obtain ⟨f1, f2, f3⟩ := tensionSolver_facts c load
  -- the tension reported by the solver
  have key : c.constraint.typeLimit ≠ .horizontalTension → ∃ s', (c.tensionSolver load).solve = some (true, s') ∧
      s'.catenary.validate.1 = true ∧ Fam (blankSpan c load) s'.catenary ∧
      k = (blankSpan c load).setTension s'.catenary.tensionHorizontal ∧
      s'.catenary.tensionHorizontal ≠ -999999 := by
    intro ht
    rw [if_neg ht] at e
    have hq : (c.tensionSolver load).tensionHorizontal.1 ≠ -999999 := by
      intro hq
      apply hne
      rw [e, hq]
      rfl
    obtain ⟨s', a1, a2, a3⟩ := asked_solved f2 hq
    have F := (solve_frame (by rw [f1]; exact R0) a1).1
    rw [f1] at F
    exact ⟨s', a1, a2, F, by rw [e, a3], a3 ▸ hq⟩
  have S' : (c.tensionSolver load).catenary.Span := by rw [f1]; exact S
  have R' : (c.tensionSolver load).catenary.Reachable := by rw [f1]; exact R0
  match ht : c.constraint.typeLimit with
  | .horizontalTension =>
    rw [if_pos ht] at e
    rw [e]
    rfl
  | .null =>
    obtain ⟨s', a1, _⟩ := key (by rw [ht]; decide)
    have : (c.tensionSolver load).typeTarget = .null := by unfold tensionSolver; rw [ht]; rfl
    unfold solve at a1
    rw [this] at a1
    cases a1
  | .catenaryConstant =>
    obtain ⟨s', a1, a2, F, a3, _⟩ := key (by rw [ht]; decide)
    have : (c.tensionSolver load).typeTarget = .constant := by unfold tensionSolver; rw [ht]; rfl
    unfold solve at a1
    rw [this] at a1
    have a1 := Option.some.inj a1
    unfold solveConstant at a1
    have hs' : s'.catenary.tensionHorizontal = c.constraint.limit * load.magnitude := by
      have := congrArg (fun p : Bool × CatenarySolver => p.2.catenary.tensionHorizontal) a1
      simp only at this
      rw [← this, f3, f1]
      rfl
    simp only
    rw [a3, hs']
    show (((blankSpan c load).setTension (c.constraint.limit * load.magnitude)).refresh.catenary2d.constant) = _
    unfold Catenary2d.constant
    have F1 := F0.step (c.constraint.limit * load.magnitude)
    rw [(refresh_params _).2.2.2, F1.1.inner.2.2, F1.2.2]
    show c.constraint.limit * load.magnitude / load.magnitude = _
    field_simp
  | .length =>
    obtain ⟨s', a1, a2, F, a3, a4⟩ := key (by rw [ht]; decide)
    have tt : (c.tensionSolver load).typeTarget = .length := by unfold tensionSolver; rw [ht]; rfl
    rcases (length_outcome R' S' tt a1).2.2 with b | ⟨b, b'⟩
    · exact absurd b a4
    · rw [f1, f3] at b'
      unfold leftStart at b
      rw [f1] at b
      simp only
      rw [wu, a3, length_fam S F0 (S.ratio b).1]
      refine b'.trans (le_of_eq ?_)
      show 0.01 * (0.75 / load.magnitude) = _
      ring
  | .sag =>
    obtain ⟨s', a1, a2, F, a3, a4⟩ := key (by rw [ht]; decide)
    have tt : (c.tensionSolver load).typeTarget = .sag := by unfold tensionSolver; rw [ht]; rfl
    have tp : (c.tensionSolver load).positionTarget = -1 := by unfold tensionSolver; rw [ht]; rfl
    rcases sagFn_outcome R' S' tt tp a1 with b | ⟨b, b'⟩
    · exact absurd b a4
    · rw [f1, f3] at b'
      unfold leftStart at b
      rw [f1] at b
      simp only
      rw [wu, a3, sagFn_fam S F0 (S.ratio b).1]
      refine b'.trans ?_
      rw [S.chord]
      have h2 : c.spacing.x ≤ (blankSpan c load).spacing2d.x := (S.physical one_pos).s2x
      have : c.spacing.magnitude / (blankSpan c load).spacing2d.x ≤ c.spacing.magnitude / c.spacing.x :=
        div_le_div_of_nonneg_left (Real.sqrt_nonneg _) S.sx h2
      have := div_le_div_of_nonneg_right this hw.le
      have e3 : ∀ t : ℝ, 0.01 * (1.5 * t / load.magnitude) = 0.015 * (t / load.magnitude) := by
        intro t; ring
      show 0.01 * (1.5 * (c.spacing.magnitude / _) / load.magnitude) ≤ _
      rw [e3, mul_div_assoc]
      linarith
  | .supportTension =>
    obtain ⟨s', a1, a2, F, a3, a4⟩ := key (by rw [ht]; decide)
    have tt : (c.tensionSolver load).typeTarget = .tension := by
      unfold tensionSolver; rw [ht]; simp only; split_ifs <;> rfl
    have tp : (c.spacing.z ≤ 0 ∧ (c.tensionSolver load).positionTarget = 0) ∨
        (0 < c.spacing.z ∧ (c.tensionSolver load).positionTarget = 1) := by
      unfold tensionSolver; rw [ht]; simp only
      split_ifs with hz
      · exact Or.inl ⟨hz, rfl⟩
      · exact Or.inr ⟨not_le.1 hz, rfl⟩
    have tp' : (c.tensionSolver load).positionTarget = -1 ∨ (c.tensionSolver load).positionTarget = 0 ∨
        (c.tensionSolver load).positionTarget = 1 := by
      rcases tp with ⟨_, h⟩ | ⟨_, h⟩
      exacts [.inr (.inl h), .inr (.inr h)]
    rcases target_outcome R' S' tt tp' a1 with b | ⟨b, b'⟩
    · exact absurd b a4
    · rw [f1, f3] at b'
      unfold leftStart at b
      rw [f1] at b
      have hyz : (blankSpan c load).spacing2d.y = c.spacing.z * (|load.z| / load.magnitude) := rfl
      have hq : 0 < |load.z| / load.magnitude := div_pos (abs_pos.2 S.wz.ne') hw
      have hshift : tensionShift (c.tensionSolver load).positionTarget (blankSpan c load) =
          (blankSpan c load).weightUnit.magnitude * |(blankSpan c load).spacing2d.y| / 2 := by
        unfold tensionShift
        rcases tp with ⟨h', h⟩ | ⟨h', h⟩
        · have : (blankSpan c load).spacing2d.y ≤ 0 := by
            rw [hyz]; exact mul_nonpos_of_nonpos_of_nonneg h' hq.le
          rw [h, if_neg (by norm_num), if_pos rfl, abs_of_nonpos this]; ring
        · have : 0 ≤ (blankSpan c load).spacing2d.y := by rw [hyz]; exact mul_nonneg h'.le hq.le
          rw [h, if_neg (by norm_num), if_neg (by norm_num), abs_of_nonneg this]
      simp only
      rw [a3, max_fam S F0 (S.ratio b).1, ← hshift]
      refine b'.trans ?_
      rw [S.chord]
      have h2 : c.spacing.x ≤ (blankSpan c load).spacing2d.x := (S.physical one_pos).s2x
      have : c.spacing.magnitude / (blankSpan c load).spacing2d.x ≤ c.spacing.magnitude / c.spacing.x :=
        div_le_div_of_nonneg_left (Real.sqrt_nonneg _) S.sx h2
      show 0.01 * (c.spacing.magnitude / _) ≤ _
      linarith

/-- A bare cable of 1 lb/ft. -/
noncomputable def exBare : Cable :=
  let c : CableComponent := ⟨0, 0, [], [], 0, 0, 0, 0, 1, 1⟩
  ⟨0, 1, c, c, 1, 0, [], 10000, 0, 1⟩

/-- No ice and no wind. -/
noncomputable def exCalm : WeatherLoadCase := ⟨0, 0, 60, 0⟩

/-- A line cable whose support tension in still air is limited to 20000, on a 300 ft ruling span that rises 400 ft. -/
noncomputable def exSection : SectionCable :=
  ⟨some exBare, [], ⟨some exCalm, .initial, 20000, .supportTension⟩, ⟨300, 0, 400⟩, some exCalm, some exCalm⟩

theorem exSection_load : exSection.loadUnit = .val ⟨0, 0, 1⟩ := by
  show Res.val (⟨0, ((1:ℝ) + 2 * 0) * 1 * 0, 1 + (Cylinder.volume ⟨1 + 2 * 0, 1⟩ - Cylinder.volume ⟨1, 1⟩) * 0⟩ : V3) = _
  norm_num

theorem exSection_solver : exSection.tensionSolver ⟨0, 0, 1⟩ =
    (((((CatenarySolver.new.setSpacing ⟨300, 0, 400⟩).setValueTarget 20000).setWeight ⟨0, 0, 1⟩).setTypeTarget
      .tension).setPositionTarget 1) := by
  unfold tensionSolver
  have : ¬ exSection.spacing.z ≤ 0 := by show ¬ (400:ℝ) ≤ 0; norm_num
  have e : exSection.constraint.typeLimit = .supportTension := rfl
  simp only [e, if_neg this]
  rfl

/-- The theorem C107 applies: the example's limit is met. -/
theorem exSection_ruling : ∃ k, exSection.catenaryRulingSpan = .val k ∧ k.validate.1 = true := by
  have hacc : (exSection.tensionSolver ⟨0, 0, 1⟩).validate.1 = true := by
    have R : (exSection.tensionSolver ⟨0, 0, 1⟩).Reachable := by
      rw [exSection_solver]
      exact ⟨[.setSpacing ⟨300, 0, 400⟩, .setValueTarget 20000, .setWeight ⟨0, 0, 1⟩, .setTypeTarget .tension,
        .setPositionTarget 1], rfl⟩
    have hc : (exSection.tensionSolver ⟨0, 0, 1⟩).catenary = (exIncline 20000).catenary := by
      rw [exSection_solver]; rfl
    have hi := exIncline_inputs (v := 20000) (by norm_num)
    have hR := solver_catenary (exIncline_reachable 20000)
    refine C106_accepted R ?_ (by rw [exSection_solver]; rfl) (Or.inr (Or.inr ⟨by rw [exSection_solver]; rfl, ?_⟩)) ?_
      (m := 250) ?_ ?_ ?_ ?_
    · obtain ⟨_, h2, h3, h4, h5, h6, h7⟩ := hi
      rw [← hc] at h2 h3 h4 h7
      refine ⟨Or.inr ?_, h2, h3, h4, by rw [exSection_solver]; exact h5, by rw [exSection_solver]; exact h6, h7⟩
      rw [exSection_solver]
      show ¬ ((1:ℝ) < 0 ∨ (1:ℝ) < 1)
      norm_num
    · rw [hc]; show (0:ℝ) ≤ 400; norm_num
    · rw [hc]; show |(400:ℝ)| < 2000; rw [abs_of_pos (by norm_num)]; norm_num
    · rw [hc, exIncline_spacing, exIncline_weight]; norm_num
    · rw [hc]
      have : (exSection.tensionSolver ⟨0, 0, 1⟩).valueTarget = 20000 := by rw [exSection_solver]; rfl
      rw [this]
      exact exIncline_least
    · rw [exSection_solver]; show (20000:ℝ) ≤ 300000; norm_num
    · rw [exSection_solver]; show (250:ℝ) + 0.01 < 20000; norm_num
  obtain ⟨f1, f2, _⟩ := tensionSolver_facts exSection ⟨0, 0, 1⟩
  obtain ⟨s', h1, h2, h3, _⟩ := update_true (validate_true hacc).2.1
  have F := (solve_frame (by rw [f1]; exact blankSpan_reachable _ _) h1).1
  have hh : (exSection.tensionSolver ⟨0, 0, 1⟩).tensionHorizontal.1 = s'.catenary.tensionHorizontal := by
    unfold CatenarySolver.tensionHorizontal
    rw [if_neg (by rw [f2]; decide), if_pos (validate_true hacc).2.1, h3]
    exact (refresh_params _).2.2.2
  refine ⟨(blankSpan exSection ⟨0, 0, 1⟩).setTension s'.catenary.tensionHorizontal, ?_, ?_⟩
  · unfold catenaryRulingSpan
    rw [exSection_load]
    simp only
    rw [if_neg (by decide), hh]
    rfl
  · have hv := (C54_validate_3d F.1).1.1 h2
    rw [(C54_validate_3d ((fam_refl (blankSpan_reachable exSection ⟨0, 0, 1⟩)).step _).1).1]
    rw [F.2.1, F.2.2, f1] at hv
    exact hv

example : ∃ k, exSection.catenaryRulingSpan = .val k ∧
    |k.tensionMax - 20000| ≤ 0.01 * ((⟨300, 0, 400⟩ : V3).magnitude / 300) := by
  obtain ⟨k, h, hv⟩ := exSection_ruling
  exact ⟨k, h, (C107_limit h hv).2.2⟩

end Verif.Props
