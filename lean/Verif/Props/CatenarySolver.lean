import Verif.CatenarySolverLemmas
import Verif.SecantGrowth

/-! # Properties of the catenary solver (C55-C59, C86) -/

set_option linter.unusedSectionVars false

namespace Verif.Props

open Catenary3d CatenarySolver

/-! ## Shape of a solve -/

theorem fam_refl {k : Catenary3d} (h : k.Reachable) : Fam k k := ⟨h, rfl, rfl⟩

/-- A property of catenaries kept by the probes. -/
structure Kept (I : Catenary3d → Prop) : Prop where
  set : ∀ k x, I k → I (k.setTension x)
  query : ∀ k, I k → I (Catenary3d.Event.query.next k)

theorem secantLoop_kept {I : Catenary3d → Prop} (K : Kept I) (g : Probe) (t : ℝ) (n : ℕ)
    (s : SecantState) (k : Catenary3d) (h : I k) : I (secantLoop g t n s k).2 := by
  induction n generalizing s k with
  | zero => exact h
  | succ n ih =>
    unfold secantLoop
    split
    · exact ih _ _ (K.query _ (K.set _ _ h))
    · exact h

theorem secantSolve_kept {I : Catenary3d → Prop} (K : Kept I) (g : Probe) (t : ℝ) (l r : V2)
    (k : Catenary3d) (h : I k) : I (secantSolve g t l r k).2 := by
  unfold secantSolve
  simp only
  split <;> exact K.set _ _ (secantLoop_kept K _ _ _ _ _ h)

theorem solve_kept {I : Catenary3d → Prop} (K : Kept I) {s s' : CatenarySolver} {b : Bool}
    (h : s.solve = some (b, s')) (hI : I s.catenary) :
    I s'.catenary ∧ s'.positionTarget = s.positionTarget ∧ s'.typeTarget = s.typeTarget ∧
      s'.valueTarget = s.valueTarget ∧ s'.isUpdated = s.isUpdated := by
  have hp : ∀ k x, I k → I (Catenary3d.Event.query.next (k.setTension x)) :=
    fun k x h => K.query _ (K.set _ _ h)
  unfold solve at h
  split at h
  · cases h
  · simp only [Option.some.injEq, solveConstant, Prod.mk.injEq] at h
    rw [← h.2]
    exact ⟨K.set _ _ hI, rfl, rfl, rfl, rfl⟩
  · simp only [Option.some.injEq, solveLength] at h
    split_ifs at h <;> (rw [Prod.mk.injEq] at h; rw [← h.2]; refine ⟨?_, rfl, rfl, rfl, rfl⟩)
    · exact hp _ _ hI
    · exact hp _ _ hI
    · exact secantSolve_kept K _ _ _ _ _ (hp _ _ (hp _ _ hI))
  · simp only [Option.some.injEq, solveSag] at h
    split_ifs at h <;> (rw [Prod.mk.injEq] at h; rw [← h.2]; refine ⟨?_, rfl, rfl, rfl, rfl⟩)
    · exact hp _ _ hI
    · exact secantSolve_kept K _ _ _ _ _ (hp _ _ (hp _ _ hI))
  · simp only [Option.some.injEq, solveTension] at h
    split_ifs at h <;> (rw [Prod.mk.injEq] at h; rw [← h.2]; refine ⟨?_, rfl, rfl, rfl, rfl⟩)
    · exact hp _ _ hI
    · exact secantSolve_kept K _ _ _ _ _ (hp _ _ (hp _ _ hI))

/-- A solve changes the catenary's tension and caches only. -/
theorem solve_frame {s s' : CatenarySolver} {b : Bool} (R : s.catenary.Reachable)
    (h : s.solve = some (b, s')) :
    Fam s.catenary s'.catenary ∧ s'.positionTarget = s.positionTarget ∧ s'.typeTarget = s.typeTarget ∧
      s'.valueTarget = s.valueTarget ∧ s'.isUpdated = s.isUpdated :=
  solve_kept ⟨fun _ x h => h.step x, fun _ h => h.query⟩ h (fam_refl R)

theorem solve_direction {s s' : CatenarySolver} {b : Bool} (h : s.solve = some (b, s')) :
    s'.catenary.direction = s.catenary.direction :=
  (solve_kept (I := fun k => k.direction = s.catenary.direction)
    ⟨fun _ _ h => h, fun k h => (refresh_params k).1.trans h⟩ h rfl).1

/-- What a successful update returns. -/
theorem update_true {s : CatenarySolver} (h : s.update.1 = true) :
    ∃ s', s.solve = some (true, s') ∧ s'.catenary.validate.1 = true ∧
      s.update.2.catenary = s'.catenary.refresh ∧ s.update.2.isUpdated = true := by
  unfold update at h ⊢
  match hs : s.solve with
  | none => rw [hs] at h; cases h
  | some (false, s') => rw [hs] at h; cases h
  | some (true, s') => rw [hs] at h; exact ⟨s', rfl, h, rfl, rfl⟩

theorem update_fam {s : CatenarySolver} (R : s.catenary.Reachable) :
    Fam s.catenary s.update.2.catenary := by
  unfold update
  match hs : s.solve with
  | none => exact fam_refl R
  | some (false, s') => exact (solve_frame R hs).1
  | some (true, s') => exact (solve_frame R hs).1.touch

/-- The catenary inside a reachable solver is reachable. -/
theorem solver_catenary {s : CatenarySolver} (h : s.Reachable) : s.catenary.Reachable := by
  obtain ⟨es, rfl⟩ := h
  have : ∀ (es : List CatenarySolver.Event) (s : CatenarySolver), s.catenary.Reachable →
      (es.foldl CatenarySolver.Event.next s).catenary.Reachable := by
    intro es
    induction es with
    | nil => exact fun _ h => h
    | cons e es ih =>
      intro s h
      apply ih
      cases e with
      | setPositionTarget p => exact h
      | setSpacing v => exact h.step (.setSpacing v)
      | setTypeTarget t => exact h
      | setValueTarget v => exact h
      | setWeight v => exact h.step (.setWeight v)
      | tensionHorizontal =>
        show (CatenarySolver.tensionHorizontal s).2.catenary.Reachable
        unfold CatenarySolver.tensionHorizontal
        split_ifs
        · exact h
        · exact (update_fam h).1
        · exact (update_fam h).1
      | catenary =>
        show (catenaryQ s).2.catenary.Reachable
        unfold catenaryQ
        split_ifs
        · exact h
        · exact (update_fam h).1
        · exact (update_fam h).1
      | validate =>
        show (CatenarySolver.validate s).2.catenary.Reachable
        unfold CatenarySolver.validate
        split_ifs
        · exact (update_fam h).1
        · exact h
  exact this es new ⟨[], rfl⟩

theorem inputs_span {s : CatenarySolver} (h : s.InputsValid) : s.catenary.Span := by
  obtain ⟨_, h1, h2, _, _, _, h3, h4, h5⟩ := h
  exact ⟨not_le.1 h1, not_not.1 h2, not_not.1 h3, not_lt.1 h4, not_le.1 h5⟩

/-- What a successful validation leaves behind. -/
theorem validate_true {s : CatenarySolver} (h : s.validate.1 = true) :
    s.InputsValid ∧ s.update.1 = true ∧ s.validate.2 = s.update.2 := by
  unfold CatenarySolver.validate at h ⊢
  split_ifs at h ⊢ with hi
  exact ⟨hi, h, rfl⟩

theorem validate_catenary {s : CatenarySolver} (h : s.validate.1 = true) :
    ∃ s', s.solve = some (true, s') ∧ s'.catenary.validate.1 = true ∧
      s.validate.2.catenaryQ.1 = s'.catenary.refresh := by
  obtain ⟨hi, hu, e⟩ := validate_true h
  obtain ⟨s', h1, h2, h3, h4⟩ := update_true hu
  refine ⟨s', h1, h2, ?_⟩
  rw [e]
  unfold catenaryQ
  rw [if_pos h4]
  exact h3

theorem refresh_refresh (k : Catenary3d) : k.refresh.refresh = k.refresh := by
  have h := refresh_isUpdated k
  show (if k.refresh.isUpdated = false then _ else k.refresh) = _
  rw [h]; rfl

theorem probe_eq {F : Catenary3d → Prop} {g : Probe} {f : ℝ → ℝ} {x0 : ℝ} (A : Answers F g f x0)
    {k : Catenary3d} (hk : F k) {h : ℝ} (hh : x0 ≤ h) :
    probe g k h = (f h, Event.query.next (k.setTension h)) := by
  unfold probe; rw [A.eval k hk h hh]

/-! ## C55: constant targets -/

/-- C55: a constant target is accepted exactly when the inputs are valid, the end points differ by less
than 2000 in elevation and the target is at least half the distance of the end points. -/
theorem C55_accepts {s : CatenarySolver} (R : s.Reachable) (ht : s.typeTarget = .constant) :
    s.validate.1 = true ↔
      (s.positionTarget = -1 ∨ 0 ≤ s.positionTarget ∧ s.positionTarget ≤ 1) ∧
      0 < s.catenary.spacing.x ∧ s.catenary.spacing.y = 0 ∧ |s.catenary.spacing.z| < 2000 ∧
      s.catenary.weightUnit.x = 0 ∧ 0 ≤ s.catenary.weightUnit.y ∧ 0 < s.catenary.weightUnit.z ∧
      s.catenary.spacing.magnitude / 2 ≤ s.valueTarget := by
  have hR := solver_catenary R
  have hs : s.solve = some s.solveConstant := by unfold solve; rw [ht]
  have hu : s.update.1 = (s.catenary.setTension
      (s.valueTarget * s.catenary.weightUnit.magnitude)).validate.1 := by
    unfold update; rw [hs]; rfl
  have hv : (s.catenary.setTension (s.valueTarget * s.catenary.weightUnit.magnitude)).validate.1 = true ↔
      0 < s.valueTarget * s.catenary.weightUnit.magnitude ∧ 0 < s.catenary.spacing.x ∧
      s.catenary.spacing.y = 0 ∧ |s.catenary.spacing.z| < 2000 ∧ s.catenary.weightUnit.x = 0 ∧
      0 ≤ s.catenary.weightUnit.y ∧ 0 < s.catenary.weightUnit.z ∧ s.catenary.spacing.magnitude / 2 ≤
        s.valueTarget * s.catenary.weightUnit.magnitude / s.catenary.weightUnit.magnitude :=
    (C54_validate_3d (hR.step (.setTension (s.valueTarget * s.catenary.weightUnit.magnitude)))).1
  unfold CatenarySolver.validate
  constructor
  · intro h
    split_ifs at h with hi
    have S := inputs_span hi
    rw [hu] at h
    obtain ⟨_, h1, h2, h3, h4, h5, h6, h7⟩ := hv.1 h
    rw [mul_div_assoc, div_self S.w_pos.ne', mul_one] at h7
    refine ⟨?_, h1, h2, h3, h4, h5, h6, h7⟩
    rcases hi.1 with h | h
    · exact Or.inl h
    · rw [not_or, not_lt, not_lt] at h; exact Or.inr h
  · rintro ⟨h0, h1, h2, h3, h4, h5, h6, h7⟩
    have S : s.catenary.Span := ⟨h1, h2, h4, h5, h6⟩
    have hp : 0 < s.valueTarget := by linarith [S.s_pos]
    have hi : s.InputsValid := by
      refine ⟨?_, not_le.2 h1, not_not.2 h2, not_lt.2 h3.le, by rw [ht]; decide, not_le.2 hp,
        not_not.2 h4, not_lt.2 h5, not_le.2 h6⟩
      rcases h0 with h | h
      · exact Or.inl h
      · exact Or.inr (by rw [not_or, not_lt, not_lt]; exact h)
    rw [if_pos hi, hu]
    refine hv.2 ⟨mul_pos hp S.w_pos, h1, h2, h3, h4, h5, h6, ?_⟩
    rw [mul_div_assoc, div_self S.w_pos.ne', mul_one]
    exact h7

/-- C55: the returned catenary has the target constant. -/
theorem C55_constant {s : CatenarySolver} (R : s.Reachable) (ht : s.typeTarget = .constant)
    (h : s.validate.1 = true) :
    s.validate.2.catenaryQ.1.constant = s.valueTarget ∧
    s.validate.2.catenaryQ.1.spacing = s.catenary.spacing ∧
    s.validate.2.catenaryQ.1.weightUnit = s.catenary.weightUnit := by
  have hR := solver_catenary R
  have S := inputs_span (validate_true h).1
  obtain ⟨s', hs, hv, e⟩ := validate_catenary h
  have F := (solve_frame hR hs).1
  rw [e]
  refine ⟨?_, F.touch.2.1, F.touch.2.2⟩
  have hc : s'.catenary.tensionHorizontal = s.valueTarget * s.catenary.weightUnit.magnitude := by
    have hs' : s.solve = some s.solveConstant := by unfold solve; rw [ht]
    rw [hs', Option.some.injEq] at hs
    exact (congrArg (fun p : Bool × CatenarySolver => p.2.catenary.tensionHorizontal) hs).symm
  unfold Catenary3d.constant
  rw [refresh_refresh]
  unfold Catenary2d.constant
  rw [(refresh_params _).2.2.2, F.1.inner.2.2, F.2.2, hc, mul_div_assoc, div_self S.w_pos.ne', mul_one]

/-- A level 100 ft span with 1 lb/ft. -/
noncomputable def exSolver (t : TargetType) (v : ℝ) : CatenarySolver :=
  (((CatenarySolver.new.setSpacing ⟨100, 0, 0⟩).setWeight ⟨0, 0, 1⟩).setTypeTarget t).setValueTarget v

theorem exSolver_reachable (t : TargetType) (v : ℝ) : (exSolver t v).Reachable :=
  ⟨[.setSpacing ⟨100, 0, 0⟩, .setWeight ⟨0, 0, 1⟩, .setTypeTarget t, .setValueTarget v], rfl⟩

theorem exSolver_spacing (t : TargetType) (v : ℝ) : (exSolver t v).catenary.spacing.magnitude = 100 := by
  show √((100:ℝ) ^ 2 + 0 ^ 2 + 0 ^ 2) = 100
  rw [show ((100:ℝ) ^ 2 + 0 ^ 2 + 0 ^ 2) = 100 ^ 2 by norm_num, Real.sqrt_sq (by norm_num)]

theorem exSolver_weight (t : TargetType) (v : ℝ) : (exSolver t v).catenary.weightUnit.magnitude = 1 := by
  show √((0:ℝ) ^ 2 + 0 ^ 2 + 1 ^ 2) = 1
  rw [show ((0:ℝ) ^ 2 + 0 ^ 2 + 1 ^ 2) = 1 by norm_num, Real.sqrt_one]

theorem exSolver_inputs {t : TargetType} (ht : t ≠ .null) {v : ℝ} (hv : 0 < v) :
    (exSolver t v).InputsValid := by
  refine ⟨Or.inl rfl, ?_, ?_, ?_, ht, not_le.2 hv, ?_, ?_, ?_⟩
  · show ¬ (100:ℝ) ≤ 0; norm_num
  · show ¬ (0:ℝ) ≠ 0; simp
  · show ¬ 2000 < |(0:ℝ)|; simp
  · show ¬ (0:ℝ) ≠ 0; simp
  · show ¬ (0:ℝ) < 0; simp
  · show ¬ (1:ℝ) ≤ 0; norm_num

example : (exSolver .constant 1000).validate.1 = true := by
  rw [C55_accepts (exSolver_reachable _ _) rfl, exSolver_spacing]
  refine ⟨Or.inl rfl, ?_, rfl, ?_, rfl, le_refl _, ?_, ?_⟩
  · show (0:ℝ) < 100; norm_num
  · show |(0:ℝ)| < 2000; norm_num
  · show (0:ℝ) < 1; norm_num
  · show (100:ℝ) / 2 ≤ 1000; norm_num

/-! ## C56, C57: length targets -/

/-- The outcome of a solve for a length. -/
theorem length_outcome {s s' : CatenarySolver} (R : s.catenary.Reachable) (S : s.catenary.Span)
    (ht : s.typeTarget = .length) (hs : s.solve = some (true, s')) :
    s.catenary.spacing.magnitude < s.valueTarget ∧
    s.valueTarget ≤ s.catenary.lengthFn s.leftStart ∧
    (s'.catenary.tensionHorizontal = -999999 ∨
      (s.leftStart ≤ s'.catenary.tensionHorizontal ∧
        |s.catenary.lengthFn s'.catenary.tensionHorizontal - s.valueTarget| ≤
          0.01 * (0.75 / s.catenary.weightUnit.magnitude))) := by
  have hs' : s.solve = some s.solveLength := by unfold solve; rw [ht]
  rw [hs', Option.some.injEq] at hs
  have A : Answers (Fam s.catenary) Catenary3d.length s.catenary.lengthFn s.leftStart := length_answers S
  have F := fam_refl R
  have hl0 : 0 < s.leftStart := (S.ratio (le_refl _)).1
  have p1 := probe_eq A F (le_refl s.leftStart)
  have p2 := probe_eq A (F.step s.leftStart).query (show s.leftStart ≤ s.leftStart * 1.10 by linarith)
  unfold solveLength at hs
  simp only [p1, p2] at hs
  split_ifs at hs with h1 h2
  · cases hs
  · cases hs
  rw [Prod.mk.injEq] at hs
  refine ⟨not_le.1 h1, not_lt.1 h2, ?_⟩
  have hw := S.w_pos
  have := (secantSolve_dec A (by positivity : 0 ≤ 0.75 / s.catenary.weightUnit.magnitude)
    (length_supported S) (fun x hx => (length_slope S hx).2) (fun x hx => (length_slope S hx).1)
    (show s.leftStart < s.leftStart * 1.10 by linarith) (not_lt.1 h2)
    ((F.step s.leftStart).query.step (s.leftStart * 1.10)).query hs.1).2
  rw [← hs.2]
  exact this

/-- The tension −999999 that an iteration without steps returns is rejected. -/
theorem validate_pos {k : Catenary3d} (R : k.Reachable) (h : k.validate.1 = true) :
    k.tensionHorizontal ≠ -999999 := by
  intro e
  have := ((C54_validate_3d R).1.1 h).1
  rw [e] at this
  norm_num at this

/-- C56: if a length target is accepted, the returned catenary spans the given end points under the given
load and its length differs from the target by at most `0.0075` over the unit load. -/
theorem C56_length {s : CatenarySolver} (R : s.Reachable) (ht : s.typeTarget = .length)
    (h : s.validate.1 = true) :
    let k := s.validate.2.catenaryQ.1
    k.spacing = s.catenary.spacing ∧ k.weightUnit = s.catenary.weightUnit ∧
    |k.length - s.valueTarget| ≤ 0.0075 / s.catenary.weightUnit.magnitude := by
  intro k
  have hR := solver_catenary R
  have S := inputs_span (validate_true h).1
  obtain ⟨s', hs, hv, e⟩ := validate_catenary h
  have F := (solve_frame hR hs).1
  have hk : k = s'.catenary.refresh := e
  rw [hk]
  refine ⟨F.touch.2.1, F.touch.2.2, ?_⟩
  rcases (length_outcome hR S ht hs).2.2 with h' | ⟨h', h''⟩
  · exact absurd h' (validate_pos F.1 hv)
  · have e2 : s'.catenary.refresh.length = s.catenary.lengthFn s'.catenary.tensionHorizontal := by
      have e3 := length_fam S F (S.ratio h').1
      have e4 : s'.catenary.refresh.length = s'.catenary.length := by
        unfold Catenary3d.length; rw [refresh_refresh]
      rw [e4, ← e3]
      have c1 := C50_history_3d F.1 Query3.length
      have c2 := C50_history_3d (F.step s'.catenary.tensionHorizontal).1 Query3.length
      exact c1.trans c2.symm
    rw [e2]
    refine le_trans h'' (le_of_eq ?_)
    ring

/-- Every length between the distance of the end points (exclusive) and the length at the least tension
is attained. -/
theorem length_attained {k0 : Catenary3d} (S : k0.Span) {t : ℝ} (h0 : k0.spacing.magnitude < t)
    (h1 : t ≤ k0.lengthFn (k0.spacing.magnitude / 2 * k0.weightUnit.magnitude)) :
    ∃ h, k0.spacing.magnitude / 2 * k0.weightUnit.magnitude ≤ h ∧ k0.lengthFn h = t := by
  set x0 := k0.spacing.magnitude / 2 * k0.weightUnit.magnitude with hx0
  have hw := S.w_pos
  have ha := S.s2_pos
  -- a tension whose length is below the target
  have hlim : ∃ h, x0 ≤ h ∧ k0.lengthFn h < t := by
    have hc : ContinuousAt (fun u : ℝ => √(k0.spacing2d.y ^ 2 + (k0.spacing2d.x * Real.cosh u) ^ 2)) 0 := by
      apply Continuous.continuousAt
      exact Real.continuous_sqrt.comp
        (continuous_const.add ((continuous_const.mul Real.continuous_cosh).pow 2))
    have hv : √(k0.spacing2d.y ^ 2 + (k0.spacing2d.x * Real.cosh 0) ^ 2) < t := by
      rw [Real.cosh_zero, mul_one, add_comm]
      have := S.chord
      unfold V2.magnitude at this
      rw [this]
      exact h0
    have hev := hc.eventually (gt_mem_nhds hv)
    rw [Metric.eventually_nhds_iff] at hev
    obtain ⟨δ, hδ, hd⟩ := hev
    refine ⟨max x0 (k0.spacing2d.x / 2 * k0.weightUnit.magnitude / (δ / 2)), le_max_left _ _, ?_⟩
    set h := max x0 (k0.spacing2d.x / 2 * k0.weightUnit.magnitude / (δ / 2)) with hh
    obtain ⟨hp, hcp, hz0, hz1⟩ := S.ratio (le_max_left x0 (k0.spacing2d.x / 2 * k0.weightUnit.magnitude / (δ / 2)))
    rw [← hh] at hp hcp hz0 hz1
    have hz : k0.spacing2d.x / 2 / (h / k0.weightUnit.magnitude) ≤ δ / 2 := by
      have := le_max_right x0 (k0.spacing2d.x / 2 * k0.weightUnit.magnitude / (δ / 2))
      rw [← hh, div_le_iff₀ (by linarith)] at this
      rw [div_le_iff₀ hcp, ← mul_div_assoc, le_div_iff₀ hw]
      linarith
    refine lt_of_le_of_lt ?_ (hd (y := k0.spacing2d.x / 2 / (h / k0.weightUnit.magnitude)) (by
      rw [Real.dist_eq, sub_zero, abs_of_pos hz0]; linarith))
    unfold lengthFn
    apply Real.sqrt_le_sqrt
    have e1 : h / k0.weightUnit.magnitude * (k0.spacing2d.x / 2 / (h / k0.weightUnit.magnitude)) =
      k0.spacing2d.x / 2 := mul_div_cancel₀ _ hcp.ne'
    set z := k0.spacing2d.x / 2 / (h / k0.weightUnit.magnitude)
    have e2 := mul_le_mul_of_nonneg_left (sinh_slope hz0 hz1).1.le hcp.le
    have e3 := Real.sinh_pos_iff.2 hz0
    have e4 : 2 * (h / k0.weightUnit.magnitude * Real.sinh z) ≤ k0.spacing2d.x * Real.cosh z := by
      have : 2 * (h / k0.weightUnit.magnitude * z) * Real.cosh z = k0.spacing2d.x * Real.cosh z := by
        rw [e1]; ring
      linarith
    have e5 := pow_le_pow_left₀ (by positivity) e4 2
    linarith
  obtain ⟨h2, hx2, hl2⟩ := hlim
  have hcont : ContinuousOn k0.lengthFn (Set.Icc x0 h2) := by
    unfold lengthFn
    apply ContinuousOn.sqrt
    apply continuousOn_const.add
    apply ContinuousOn.pow
    apply continuousOn_const.mul
    have hd : ContinuousOn (fun h => h / k0.weightUnit.magnitude) (Set.Icc x0 h2) :=
      continuousOn_id.div_const _
    apply hd.mul
    apply Real.continuous_sinh.comp_continuousOn
    apply continuousOn_const.div hd
    intro x hx
    exact (S.ratio hx.1).2.1.ne'
  obtain ⟨h, ⟨hh1, _⟩, e⟩ := intermediate_value_Icc' hx2 hcont ⟨hl2.le, h1⟩
  exact ⟨h, hh1, e⟩

/-- C57 (soundness side): a length target that no admissible tension attains is not accepted. -/
theorem C57_unattainable {s : CatenarySolver} (R : s.Reachable) (ht : s.typeTarget = .length)
    (hn : ∀ h, (s.catenary.setTension h).validate.1 = true →
      (s.catenary.setTension h).length ≠ s.valueTarget) : s.validate.1 = false := by
  by_contra hc
  rw [Bool.not_eq_false] at hc
  have hR := solver_catenary R
  have S := inputs_span (validate_true hc).1
  obtain ⟨s', hs, hv, e⟩ := validate_catenary hc
  have F := (solve_frame hR hs).1
  obtain ⟨h1, h2, _⟩ := length_outcome hR S ht hs
  obtain ⟨h, hh, he⟩ := length_attained S h1 h2
  have F0 := fam_refl hR
  refine hn h ?_ ?_
  · obtain ⟨_, _, _, hz, _⟩ := (C54_validate_3d F.1).1.1 hv
    rw [F.2.1] at hz
    refine (C54_validate_3d (F0.step h).1).1.2 ⟨(S.ratio hh).1, S.sx, S.sy, hz, S.wx, S.wy, S.wz, ?_⟩
    show s.catenary.spacing.magnitude / 2 ≤ h / s.catenary.weightUnit.magnitude
    rw [le_div_iff₀ S.w_pos]
    exact hh
  · rw [length_fam S F0 (S.ratio hh).1, he]

/-- The tensions an admissible catenary can have. -/
theorem admissible {k0 : Catenary3d} (R : k0.Reachable) (S : k0.Span) (hz : |k0.spacing.z| < 2000) (h : ℝ) :
    (k0.setTension h).validate.1 = true ↔ k0.spacing.magnitude / 2 * k0.weightUnit.magnitude ≤ h := by
  rw [(C54_validate_3d ((fam_refl R).step h).1).1]
  constructor
  · rintro ⟨_, _, _, _, _, _, _, h8⟩
    change k0.spacing.magnitude / 2 ≤ h / k0.weightUnit.magnitude at h8
    rwa [le_div_iff₀ S.w_pos] at h8
  · intro hh
    refine ⟨(S.ratio hh).1, S.sx, S.sy, hz, S.wx, S.wy, S.wz, ?_⟩
    show k0.spacing.magnitude / 2 ≤ h / k0.weightUnit.magnitude
    rwa [le_div_iff₀ S.w_pos]

theorem leftStart_pos {s : CatenarySolver} (S : s.catenary.Span) : 0 < s.leftStart :=
  (S.ratio (le_refl _)).1

/-- C57 fails: on every span, the length of a catenary whose tension exceeds the least admissible tension
`m` by more than 0.01 but at most by 10 percent is an attainable target that is rejected. -/
theorem C57_rejected {s : CatenarySolver} (R : s.Reachable) (S : s.catenary.Span)
    (ht : s.typeTarget = .length) {h : ℝ}
    (h0 : s.catenary.spacing.magnitude / 2 * s.catenary.weightUnit.magnitude + 0.01 < h)
    (h1 : h ≤ 1.1 * (s.catenary.spacing.magnitude / 2 * s.catenary.weightUnit.magnitude))
    (hv : s.valueTarget = (s.catenary.setTension h).length) :
    s.validate.1 = false ∧ s.tensionHorizontal.1 = (if s.isUpdated then s.catenary.tensionHorizontal else -999999) := by
  have hR := solver_catenary R
  have A : Answers (Fam s.catenary) Catenary3d.length s.catenary.lengthFn s.leftStart := length_answers S
  have F := fam_refl hR
  have hl0 := leftStart_pos S
  have hlh : s.leftStart ≤ h := by
    show s.catenary.spacing.magnitude / 2 * s.catenary.weightUnit.magnitude ≤ h
    linarith
  have hs' : s.solve = some s.solveLength := by unfold solve; rw [ht]
  rw [A.eval _ F _ hlh] at hv
  have hf : s.solveLength.1 = false := by
    have p1 := probe_eq A F (le_refl s.leftStart)
    have p2 := probe_eq A (F.step s.leftStart).query (show s.leftStart ≤ s.leftStart * 1.10 by linarith)
    unfold solveLength
    simp only [p1, p2]
    split_ifs
    · rfl
    · rfl
    rw [hv]
    exact secantSolve_dec_fails A (length_supported S) (fun x hx => (length_slope S hx).1) h0
      (by
        have : s.leftStart = s.catenary.spacing.magnitude / 2 * s.catenary.weightUnit.magnitude := rfl
        rw [this]; linarith) _ ((F.step s.leftStart).query.step (s.leftStart * 1.10)).query
  have hu : s.update.1 = false := by
    unfold update
    rw [hs']
    match hm : s.solveLength with
    | (false, _) => rfl
    | (true, _) => rw [hm] at hf; cases hf
  constructor
  · unfold CatenarySolver.validate
    split_ifs
    · exact hu
    · rfl
  · unfold CatenarySolver.tensionHorizontal
    rw [hu]
    by_cases hb : s.isUpdated = true <;> simp [hb]

/-- C57 fails: the length of the catenary with tension 52 on the 100 ft span is rejected. -/
theorem C57_witness : ∃ s : CatenarySolver, s.Reachable ∧ s.InputsValid ∧ s.typeTarget = .length ∧
    (∃ h, (s.catenary.setTension h).validate.1 = true ∧ (s.catenary.setTension h).length = s.valueTarget) ∧
    s.validate.1 = false := by
  set v := ((exSolver .length 1).catenary.setTension 52).length with hv
  have hR := solver_catenary (exSolver_reachable .length v)
  have hS1 : (exSolver .length v).catenary.Span := by
    refine ⟨?_, rfl, rfl, le_refl _, ?_⟩
    · show (0:ℝ) < 100; norm_num
    · show (0:ℝ) < 1; norm_num
  have hval : (exSolver .length v).valueTarget = ((exSolver .length v).catenary.setTension 52).length := rfl
  have hpos : 0 < v := by
    have F := (fam_refl hR).step 52
    have P := hS1.physical (x := 52) (by norm_num)
    rw [hv]
    show 0 < ((exSolver .length v).catenary.setTension 52).length
    unfold Catenary3d.length Catenary2d.lengthQ
    rw [F.1.inner.1.refresh_eq]
    exact Catenary2d.length_pos (P.inner_positive F.1)
  refine ⟨exSolver .length v, exSolver_reachable _ _, exSolver_inputs (by decide) hpos, rfl,
    ⟨52, ?_, hval.symm⟩, ?_⟩
  · rw [admissible hR hS1 (by show |(0:ℝ)| < 2000; norm_num), exSolver_spacing, exSolver_weight]
    norm_num
  · refine (C57_rejected (exSolver_reachable _ _) hS1 rfl (h := 52) ?_ ?_ hval).1
    · rw [exSolver_spacing, exSolver_weight]; norm_num
    · rw [exSolver_spacing, exSolver_weight]; norm_num

/-- C57 for part of the targets: lengths of catenaries whose tension lies between 1.1 and 1000 times the
least admissible tension `m` are accepted, when `m` is between 0.1 and a thousand million.  Missing: tensions closer
to `m` (rejected, see above) and larger ones, which are nearly straight: the sag is less than a two-thousandth of the
span. -/
theorem C57_accepted_partial {s : CatenarySolver} (R : s.Reachable) (hi : s.InputsValid)
    (ht : s.typeTarget = .length) (hz : |s.catenary.spacing.z| < 2000) {m h : ℝ}
    (hm : m = s.catenary.spacing.magnitude / 2 * s.catenary.weightUnit.magnitude)
    (m0 : 0.1 < m) (m1 : m ≤ 1000000000) (h0 : 1.1 * m < h) (h1 : h ≤ 1000 * m)
    (hv : s.valueTarget = (s.catenary.setTension h).length) : s.validate.1 = true := by
  have hR := solver_catenary R
  have S := inputs_span hi
  have A : Answers (Fam s.catenary) Catenary3d.length s.catenary.lengthFn s.leftStart := length_answers S
  have F := fam_refl hR
  have hl : s.leftStart = m := hm.symm
  have hlh : s.leftStart ≤ h := by linarith
  have hs' : s.solve = some s.solveLength := by unfold solve; rw [ht]
  rw [A.eval _ F _ hlh] at hv
  have hF2 := ((F.step s.leftStart).query.step (s.leftStart * 1.10)).query
  have drop : ∀ a b, s.leftStart ≤ a → a < b → 0 < s.catenary.lengthFn a - s.catenary.lengthFn b :=
    fun a b h0 hab => sub_pos.2 (length_anti S h0 hab)
  obtain ⟨J, j0, js, jn⟩ := climb_meets (f := s.catenary.lengthFn) (x0 := s.leftStart) (r := h) (κ := 1.5)
    (u := 0.0011) (α := 1.1225) (β := 0.034) (γ := 0.35) (n1 := 53) (n2 := 12) (right := s.leftStart * 1.10)
    (by norm_num) (by norm_num) (by norm_num) (by norm_num) (by norm_num) (by norm_num) (by norm_num) (by norm_num)
    (by norm_num) (by norm_num) (by norm_num) (by norm_num) (by linarith)
    (le_trans (mul_le_mul_of_nonneg_right (by linarith : h ≤ 1000000000000) (by positivity)) (by norm_num))
    (by linarith) (by linarith)
    (fun a b x h0 hab hbx hxr _ e => step_square' (by linarith) hab hbx hxr (drop a b h0 hab) e
      (length_square S h0 hab (by linarith)))
    (fun a b x h0 hab hbx hxr hk e => (cubic_steps (by linarith) hab hbx hxr (step_cubic (by linarith) hab hbx hxr
      (drop a b h0 hab) e (length_cubic S h0 hab (by linarith))) hk).1)
    (fun a b x h0 hab hbx hxr hk e => (cubic_steps (by linarith) hab hbx hxr (step_cubic (by linarith) hab hbx hxr
      (drop a b h0 hab) e (length_cubic S h0 hab (by linarith))) hk).2.1)
    (fun a b x h0 hab hbx hxr hk e => (cubic_steps (by linarith) hab hbx hxr (step_cubic (by linarith) hab hbx hxr
      (drop a b h0 hab) e (length_cubic S h0 hab (by linarith))) hk).2.2)
  have key := secantSolve_dec_meets (r := h) (right := s.leftStart * 1.10) A (length_strict S)
    (fun x hx => (length_slope S hx).1) (by show s.leftStart < _; linarith) (by linarith) J j0 js jn
    (by show 0.01 < s.leftStart * 1.10 - s.leftStart; linarith) _ hF2
  have hb1 : s.catenary.spacing.magnitude < s.valueTarget := by
    rw [hv, ← length_fam S F (S.ratio hlh).1]
    have P := S.physical (S.ratio hlh).1
    have := C54_chord (F.step h).1 P
    rw [this.1] at this
    have := this.2
    change 0 < _ - s.catenary.spacing.magnitude at this
    linarith
  have hb2 : s.valueTarget ≤ s.catenary.lengthFn s.leftStart := by
    rw [hv]
    exact (length_anti S (le_refl _) (by show s.leftStart < h; linarith)).le
  have hf : s.solveLength.1 = true ∧ Fam s.catenary s.solveLength.2.catenary ∧
      s.leftStart ≤ s.solveLength.2.catenary.tensionHorizontal := by
    have p1 := probe_eq A F (le_refl s.leftStart)
    have p2 := probe_eq A (F.step s.leftStart).query (show s.leftStart ≤ s.leftStart * 1.10 by linarith)
    unfold solveLength
    simp only [p1, p2, not_le.2 hb1, not_lt.2 hb2, if_false]
    rw [hv]
    exact key
  unfold CatenarySolver.validate
  rw [if_pos hi]
  unfold update
  rw [hs']
  match hmm : s.solveLength with
  | (false, _) => rw [hmm] at hf; cases hf.1
  | (true, s') =>
    rw [hmm] at hf
    obtain ⟨_, f1, f2⟩ := hf
    simp only
    rw [(C54_validate_3d f1.1).1, f1.2.1, f1.2.2]
    refine ⟨(S.ratio f2).1, S.sx, S.sy, hz, S.wx, S.wy, S.wz, ?_⟩
    rw [le_div_iff₀ S.w_pos]
    exact f2

/-- The theorems C56 and C57 apply: a successful solve for a length. -/
example : ∃ s : CatenarySolver, s.Reachable ∧ s.typeTarget = .length ∧ s.validate.1 = true := by
  set v := ((exSolver .length 1).catenary.setTension 60).length with hv
  have hR := solver_catenary (exSolver_reachable .length v)
  have hS1 : (exSolver .length v).catenary.Span := by
    refine ⟨?_, rfl, rfl, le_refl _, ?_⟩
    · show (0:ℝ) < 100; norm_num
    · show (0:ℝ) < 1; norm_num
  have hpos : 0 < v := by
    have F := (fam_refl hR).step 60
    have P := hS1.physical (x := 60) (by norm_num)
    rw [hv]
    show 0 < ((exSolver .length v).catenary.setTension 60).length
    unfold Catenary3d.length Catenary2d.lengthQ
    rw [F.1.inner.1.refresh_eq]
    exact Catenary2d.length_pos (P.inner_positive F.1)
  refine ⟨exSolver .length v, exSolver_reachable _ _, rfl, ?_⟩
  refine C57_accepted_partial (exSolver_reachable _ _) (exSolver_inputs (by decide) hpos) rfl
    (by show |(0:ℝ)| < 2000; norm_num) (m := 50) (h := 60) ?_ (by norm_num) (by norm_num) (by norm_num)
    (by norm_num) rfl
  rw [exSolver_spacing, exSolver_weight]; norm_num

/-! ## C59: tension targets, C86: sag targets -/

/-- The outcome of a solve for the maximum tension of a level span. -/
theorem tension_outcome {s s' : CatenarySolver} (R : s.catenary.Reachable) (S : s.catenary.Span)
    (ht : s.typeTarget = .tension) (hp : s.positionTarget = -1) (hz : s.catenary.spacing.z = 0)
    (hs : s.solve = some (true, s')) :
    s'.catenary.tensionHorizontal = -999999 ∨
      (s.leftStart ≤ s'.catenary.tensionHorizontal ∧
        |s.catenary.levelTension s'.catenary.tensionHorizontal - s.valueTarget| ≤ 0.01 * 1) := by
  have hs' : s.solve = some s.solveTension := by unfold solve; rw [ht]
  rw [hs', Option.some.injEq] at hs
  have hg : s.tensionProbe = Catenary3d.tensionMax := by
    funext k; unfold tensionProbe; rw [if_pos hp]
  have A : Answers (Fam s.catenary) s.tensionProbe s.catenary.levelTension s.leftStart := by
    rw [hg]; exact tension_answers S hz
  have F := fam_refl R
  have hl0 := leftStart_pos S
  have hgt : s.leftStart < s.catenary.levelTension s.leftStart := by
    obtain ⟨_, _, z0, _⟩ := S.ratio (le_refl _)
    unfold levelTension
    have : 1 < Real.cosh (s.catenary.spacing2d.x / 2 / (s.leftStart / s.catenary.weightUnit.magnitude)) :=
      Real.one_lt_cosh.2 z0.ne'
    nlinarith
  have p1 := probe_eq A F (le_refl s.leftStart)
  unfold solveTension at hs
  simp only [p1] at hs
  split_ifs at hs with h1
  · cases hs
  have h1' := not_lt.1 h1
  have hr : s.leftStart < s.valueTarget := by linarith
  have p2 := probe_eq A (F.step s.leftStart).query hr.le
  simp only [p2] at hs
  rw [Prod.mk.injEq] at hs
  have := (secantSolve_inc A zero_le_one (tension_supported S) (fun x hx => (tension_slope S hx).2.le)
    (fun x hx => (tension_slope S hx).1) hr h1'
    ((F.step s.leftStart).query.step s.valueTarget).query hs.1).2
  rw [← hs.2]
  exact this

/-- The outcome of a solve for the sag of a level span. -/
theorem sag_outcome {s s' : CatenarySolver} (R : s.catenary.Reachable) (S : s.catenary.Span)
    (ht : s.typeTarget = .sag) (hp : s.positionTarget = -1) (hz : s.catenary.spacing.z = 0)
    (hs : s.solve = some (true, s')) :
    s'.catenary.tensionHorizontal = -999999 ∨
      (s.leftStart ≤ s'.catenary.tensionHorizontal ∧
        |s.catenary.levelSag s'.catenary.tensionHorizontal - s.valueTarget| ≤
          0.01 * (1 / s.catenary.weightUnit.magnitude)) := by
  have hs' : s.solve = some s.solveSag := by unfold solve; rw [ht]
  rw [hs', Option.some.injEq] at hs
  have hg : s.sagProbe = Catenary3d.sag := by
    funext k; unfold sagProbe; rw [if_pos hp]
  have A : Answers (Fam s.catenary) s.sagProbe s.catenary.levelSag s.leftStart := by
    rw [hg]; exact sag_answers S hz
  have F := fam_refl R
  have hl0 := leftStart_pos S
  have hw := S.w_pos
  have p1 := probe_eq A F (le_refl s.leftStart)
  have p2 := probe_eq A (F.step s.leftStart).query (show s.leftStart ≤ s.leftStart * 1.10 by linarith)
  unfold solveSag at hs
  simp only [p1, p2] at hs
  split_ifs at hs with h1
  · cases hs
  rw [Prod.mk.injEq] at hs
  have := (secantSolve_dec A (by positivity : 0 ≤ 1 / s.catenary.weightUnit.magnitude)
    (sag_supported S) (fun x hx => (sag_slope S hx).2) (fun x hx => (sag_slope S hx).1)
    (show s.leftStart < s.leftStart * 1.10 by linarith) (not_lt.1 h1)
    ((F.step s.leftStart).query.step (s.leftStart * 1.10)).query hs.1).2
  rw [← hs.2]
  exact this

/-- Asking a refreshed catenary. -/
theorem ask_refresh {k : Catenary3d} (R : k.Reachable) {A : Type} (q : Query3 A) :
    q.ask k.refresh = q.ask (k.setTension k.tensionHorizontal) := by
  have h1 := C50_history_3d (R.step .touch) q
  have h2 := C50_history_3d (R.step (.setTension k.tensionHorizontal)) q
  obtain ⟨a, b, c, d⟩ := refresh_params k
  refine h1.trans (Eq.trans ?_ h2.symm)
  show q.ask ((((Catenary3d.new.setDirection k.refresh.direction).setSpacing k.refresh.spacing).setTension
      k.refresh.catenary2d.tensionHorizontal).setWeight k.refresh.weightUnit) = _
  rw [a, b, c, d]
  rfl

/-- C59: if a maximum tension target on a level span is accepted, the returned catenary's maximum tension
differs from the target by at most 0.01. -/
theorem C59_level_tension {s : CatenarySolver} (R : s.Reachable) (ht : s.typeTarget = .tension)
    (hp : s.positionTarget = -1) (hz : s.catenary.spacing.z = 0) (h : s.validate.1 = true) :
    |s.validate.2.catenaryQ.1.tensionMax - s.valueTarget| ≤ 0.01 := by
  have hR := solver_catenary R
  have S := inputs_span (validate_true h).1
  obtain ⟨s', hs, hv, e⟩ := validate_catenary h
  have F := (solve_frame hR hs).1
  rw [e]
  rcases tension_outcome hR S ht hp hz hs with h' | ⟨h', h''⟩
  · exact absurd h' (validate_pos F.1 hv)
  · have e2 : s'.catenary.refresh.tensionMax = s.catenary.levelTension s'.catenary.tensionHorizontal :=
      (ask_refresh F.1 Query3.tensionMax).trans (tension_fam S F hz (S.ratio h').1)
    rw [e2]
    linarith

/-- C87: on a level span every maximum tension target between the tension at the least admissible
horizontal tension `m` and ten million is accepted, unless it lies within 0.01 of `m`. -/
theorem C87_level_tension {s : CatenarySolver} (R : s.Reachable) (hi : s.InputsValid)
    (ht : s.typeTarget = .tension) (hp : s.positionTarget = -1) (hz : s.catenary.spacing.z = 0) {m : ℝ}
    (hm : m = s.catenary.spacing.magnitude / 2 * s.catenary.weightUnit.magnitude)
    (h0 : (s.catenary.setTension m).tensionMax < s.valueTarget) (h1 : s.valueTarget ≤ 10000000)
    (h2 : m + 0.01 < s.valueTarget) : s.validate.1 = true := by
  have hR := solver_catenary R
  have S := inputs_span hi
  have hs' : s.solve = some s.solveTension := by unfold solve; rw [ht]
  have hg : s.tensionProbe = Catenary3d.tensionMax := by
    funext k; unfold tensionProbe; rw [if_pos hp]
  have A0 : Answers (Fam s.catenary) Catenary3d.tensionMax s.catenary.levelTension s.leftStart :=
    tension_answers S hz
  have A : Answers (Fam s.catenary) s.tensionProbe s.catenary.levelTension s.leftStart := by
    rw [hg]; exact A0
  have F := fam_refl hR
  have hl : s.leftStart = m := hm.symm
  have hm0 : 0 < m := by rw [← hl]; exact leftStart_pos S
  rw [← hl, A0.eval _ F _ (le_refl _)] at h0
  -- the tension that gives the target
  have hroot : ∃ r, s.leftStart < r ∧ r < s.valueTarget ∧ s.catenary.levelTension r = s.valueTarget := by
    have hcont : ContinuousOn s.catenary.levelTension (Set.Icc s.leftStart s.valueTarget) := by
      unfold levelTension
      apply continuousOn_id.mul
      apply Real.continuous_cosh.comp_continuousOn
      apply continuousOn_const.div (continuousOn_id.div_const _)
      intro x hx
      exact (S.ratio hx.1).2.1.ne'
    have hv : s.valueTarget < s.catenary.levelTension s.valueTarget := by
      obtain ⟨hpos, _, z0, _⟩ := S.ratio (show s.leftStart ≤ s.valueTarget by linarith)
      unfold levelTension
      have : 1 < Real.cosh (s.catenary.spacing2d.x / 2 / (s.valueTarget / s.catenary.weightUnit.magnitude)) :=
        Real.one_lt_cosh.2 z0.ne'
      nlinarith
    obtain ⟨r, ⟨hr1, hr2⟩, e⟩ := intermediate_value_Icc (by linarith : s.leftStart ≤ s.valueTarget) hcont
      ⟨h0.le, hv.le⟩
    refine ⟨r, lt_of_le_of_ne hr1 ?_, lt_of_le_of_ne hr2 ?_, e⟩
    · rintro rfl; linarith
    · rintro rfl; linarith
  obtain ⟨r, hr1, hr2, hr⟩ := hroot
  have key := secantSolve_inc_succeeds (K := 1) (μ := 0.36) (q := 0.64) (r := r) (right := s.valueTarget) A
    (tension_strict S) (by norm_num) (fun x hx => tension_slope_lower S hx)
    (fun x hx => (tension_slope S hx).2.le) (by norm_num) (by norm_num) hr1 hr2 (by
      have : r - s.leftStart ≤ 10000000 := by linarith
      refine le_trans (mul_le_mul_of_nonneg_left this (by norm_num)) ?_
      norm_num) (by linarith) _ ((F.step s.leftStart).query.step s.valueTarget).query
  rw [hr] at key
  have hf : s.solveTension.1 = true ∧ Fam s.catenary s.solveTension.2.catenary ∧
      s.leftStart ≤ s.solveTension.2.catenary.tensionHorizontal := by
    have p1 := probe_eq A F (le_refl s.leftStart)
    have p2 := probe_eq A (F.step s.leftStart).query (show s.leftStart ≤ s.valueTarget by linarith)
    unfold solveTension
    simp only [p1, p2, not_lt.2 h0.le, if_false]
    exact key
  unfold CatenarySolver.validate
  rw [if_pos hi]
  unfold update
  rw [hs']
  match hmm : s.solveTension with
  | (false, _) => rw [hmm] at hf; cases hf.1
  | (true, s') =>
    rw [hmm] at hf
    obtain ⟨_, f1, f2⟩ := hf
    simp only
    rw [(C54_validate_3d f1.1).1, f1.2.1, f1.2.2]
    refine ⟨(S.ratio f2).1, S.sx, S.sy, by rw [hz]; norm_num, S.wx, S.wy, S.wz, ?_⟩
    rw [le_div_iff₀ S.w_pos]
    exact f2

/-- The theorems C59 and C87 apply: the 100 ft span with a maximum tension of 2000. -/
example : (exSolver .tension 2000).validate.1 = true := by
  refine C87_level_tension (exSolver_reachable _ _) (exSolver_inputs (by decide) (by norm_num)) rfl rfl rfl
    (m := 50) ?_ ?_ ?_ ?_
  · rw [exSolver_spacing, exSolver_weight]; norm_num
  · have hR := solver_catenary (exSolver_reachable .tension 2000)
    have S := inputs_span (exSolver_inputs (t := .tension) (v := 2000) (by decide) (by norm_num))
    rw [tension_fam S (fam_refl hR) rfl (by norm_num)]
    unfold levelTension
    obtain ⟨_, _, _, z1⟩ := S.ratio (h := 50) (by rw [exSolver_spacing, exSolver_weight]; norm_num)
    have h4 : Real.cosh ((exSolver .tension 2000).catenary.spacing2d.x / 2 /
        (50 / (exSolver .tension 2000).catenary.weightUnit.magnitude)) ≤ Real.cosh 1 := by
      rw [Real.cosh_le_cosh, abs_of_pos one_pos, abs_of_nonneg]
      · exact z1
      · exact (S.ratio (h := 50) (by rw [exSolver_spacing, exSolver_weight]; norm_num)).2.2.1.le
    have h5 : Real.cosh 1 < 3 := by
      rw [Real.cosh_eq]
      have e1 := Real.exp_one_lt_d9
      have e2 : Real.exp (-1) ≤ 1 := Real.exp_le_one_iff.2 (by norm_num)
      norm_num at e1
      linarith
    show 50 * _ < (2000:ℝ)
    linarith
  · show (2000:ℝ) ≤ 10000000; norm_num
  · show (50:ℝ) + 0.01 < 2000; norm_num

/-- C86: if a sag target on a level span is accepted, the returned catenary's sag differs from the target by
at most 0.01 over the unit load. -/
theorem C86_level_sag {s : CatenarySolver} (R : s.Reachable) (ht : s.typeTarget = .sag)
    (hp : s.positionTarget = -1) (hz : s.catenary.spacing.z = 0) (h : s.validate.1 = true) :
    |s.validate.2.catenaryQ.1.sag - s.valueTarget| ≤ 0.01 / s.catenary.weightUnit.magnitude := by
  have hR := solver_catenary R
  have S := inputs_span (validate_true h).1
  obtain ⟨s', hs, hv, e⟩ := validate_catenary h
  have F := (solve_frame hR hs).1
  rw [e]
  rcases sag_outcome hR S ht hp hz hs with h' | ⟨h', h''⟩
  · exact absurd h' (validate_pos F.1 hv)
  · have e2 : s'.catenary.refresh.sag = s.catenary.levelSag s'.catenary.tensionHorizontal :=
      (ask_refresh F.1 Query3.sag).trans (sag_fam S F hz (S.ratio h').1)
    rw [e2]
    refine le_trans h'' (le_of_eq ?_)
    ring

/-! ## C58: failures persist -/

/-- Catenaries with the same spacing, load and direction. -/
def Same (k k' : Catenary3d) : Prop :=
  k.Reachable ∧ k'.Reachable ∧ k.direction = k'.direction ∧ k.spacing = k'.spacing ∧
    k.weightUnit = k'.weightUnit

/-- A probe that only looks at the parameters. -/
def Determined (g : Probe) : Prop :=
  ∀ k k', Same k k' → k.tensionHorizontal = k'.tensionHorizontal → g k = g k'

theorem query_determined (q : Query3 ℝ) : Determined q.ask := by
  rintro k k' ⟨r, r', d, sp, w⟩ h
  show q.ask k = q.ask k'
  rw [C50_history_3d r q, C50_history_3d r' q, d, sp, w, h]

theorem same_set {k k' : Catenary3d} (h : Same k k') (x : ℝ) : Same (k.setTension x) (k'.setTension x) :=
  ⟨h.1.step (.setTension x), h.2.1.step (.setTension x), h.2.2⟩

theorem same_refresh {k k' : Catenary3d} (h : Same k k') : Same k.refresh k'.refresh := by
  obtain ⟨r, r', d, sp, w⟩ := h
  obtain ⟨a1, a2, a3, _⟩ := refresh_params k
  obtain ⟨b1, b2, b3, _⟩ := refresh_params k'
  exact ⟨r.step .touch, r'.step .touch, by rw [a1, b1, d], by rw [a2, b2, sp], by rw [a3, b3, w]⟩

theorem same_query {k k' : Catenary3d} (h : Same k k') :
    Same (Catenary3d.Event.query.next k) (Catenary3d.Event.query.next k') :=
  ⟨h.1.step .query, h.2.1.step .query, (same_refresh h).2.2⟩

theorem probe_same {g : Probe} (D : Determined g) {k k' : Catenary3d} (h : Same k k') (x : ℝ) :
    (probe g k x).1 = (probe g k' x).1 ∧ Same (probe g k x).2 (probe g k' x).2 :=
  ⟨D _ _ (same_set h x) rfl, same_query (same_set h x)⟩

theorem secantLoop_same {g : Probe} (D : Determined g) (t : ℝ) (n : ℕ) (s : SecantState)
    {k k' : Catenary3d} (h : Same k k') :
    (secantLoop g t n s k).1 = (secantLoop g t n s k').1 ∧
      Same (secantLoop g t n s k).2 (secantLoop g t n s k').2 := by
  induction n generalizing s k k' with
  | zero => exact ⟨rfl, h⟩
  | succ n ih =>
    unfold secantLoop
    split
    · obtain ⟨e, h'⟩ := probe_same D h (s.next t)
      simp only [e]
      exact ih _ h'
    · exact ⟨rfl, h⟩

theorem secantSolve_same {g : Probe} (D : Determined g) (t : ℝ) (l r : V2) {k k' : Catenary3d}
    (h : Same k k') :
    (secantSolve g t l r k).1 = (secantSolve g t l r k').1 ∧
      Same (secantSolve g t l r k).2 (secantSolve g t l r k').2 ∧
      (secantSolve g t l r k).2.tensionHorizontal = (secantSolve g t l r k').2.tensionHorizontal := by
  obtain ⟨e, h'⟩ := secantLoop_same D t 101 ⟨l, r, ⟨-999999, -999999⟩, 0⟩ h
  unfold secantSolve
  simp only [e]
  split
  · exact ⟨rfl, same_set h' _, rfl⟩
  · exact ⟨rfl, same_set h' _, rfl⟩

/-- Solvers with the same inputs. -/
def SameInputs (s s' : CatenarySolver) : Prop :=
  Same s.catenary s'.catenary ∧ s.positionTarget = s'.positionTarget ∧ s.typeTarget = s'.typeTarget ∧
    s.valueTarget = s'.valueTarget

theorem sagProbe_determined (s : CatenarySolver) : Determined s.sagProbe := by
  by_cases h : s.positionTarget = -1
  · have : s.sagProbe = Query3.sag.ask := by funext k; simp [sagProbe, h, Query3.ask]
    rw [this]; exact query_determined _
  · have : s.sagProbe = (Query3.sagAt s.positionTarget).ask := by
      funext k; simp [sagProbe, h, Query3.ask]
    rw [this]; exact query_determined _

theorem tensionProbe_determined (s : CatenarySolver) : Determined s.tensionProbe := by
  by_cases h : s.positionTarget = -1
  · have : s.tensionProbe = Query3.tensionMax.ask := by funext k; simp [tensionProbe, h, Query3.ask]
    rw [this]; exact query_determined _
  · have : s.tensionProbe = (Query3.tension s.positionTarget).ask := by
      funext k; simp [tensionProbe, h, Query3.ask]
    rw [this]; exact query_determined _

/-- A solve depends on the inputs only. -/
theorem solve_same {s s' : CatenarySolver} (h : SameInputs s s') :
    (s.solve = none ∧ s'.solve = none) ∨
    ∃ b r r', s.solve = some (b, r) ∧ s'.solve = some (b, r') ∧ SameInputs r r' ∧
      (b = true → r.catenary.tensionHorizontal = r'.catenary.tensionHorizontal) := by
  obtain ⟨hc, hp, ht, hv⟩ := h
  have hsp := hc.2.2.2.1
  have hw := hc.2.2.2.2
  have hl : s.leftStart = s'.leftStart := by unfold leftStart; rw [hsp, hw]
  unfold solve
  rw [← ht]
  match hty : s.typeTarget with
  | .null => exact Or.inl ⟨rfl, rfl⟩
  | .constant =>
    refine Or.inr ⟨true, _, _, rfl, rfl, ⟨?_, hp, ht, hv⟩, fun _ => ?_⟩
    · rw [← hv, ← hw]; exact same_set hc _
    · show s.valueTarget * _ = s'.valueTarget * _
      rw [hv, hw]
  | .length =>
    right
    have D : Determined Catenary3d.length := query_determined Query3.length
    obtain ⟨e1, h1⟩ := probe_same D hc s.leftStart
    obtain ⟨e2, h2⟩ := probe_same D h1 (s.leftStart * 1.10)
    unfold solveLength
    simp only [← hl, ← hv, ← hsp, ← e1, ← e2]
    split_ifs
    · exact ⟨false, _, _, rfl, rfl, ⟨h1, hp, ht, by simp [hv]⟩, by simp⟩
    · exact ⟨false, _, _, rfl, rfl, ⟨h1, hp, ht, by simp [hv]⟩, by simp⟩
    · obtain ⟨f1, f2, f3⟩ := secantSolve_same D s.valueTarget
        ⟨s.leftStart, (probe Catenary3d.length s.catenary s.leftStart).1⟩
        ⟨s.leftStart * 1.10, (probe Catenary3d.length (probe Catenary3d.length s.catenary s.leftStart).2
          (s.leftStart * 1.10)).1⟩ h2
      exact ⟨_, _, _, rfl, congrArg some (Prod.ext f1.symm rfl), ⟨f2, hp, ht, by simp [hv]⟩, fun _ => f3⟩
  | .sag =>
    right
    have D := sagProbe_determined s
    have hg : s.sagProbe = s'.sagProbe := by unfold sagProbe; rw [hp]
    obtain ⟨e1, h1⟩ := probe_same D hc s.leftStart
    obtain ⟨e2, h2⟩ := probe_same D h1 (s.leftStart * 1.10)
    unfold solveSag
    simp only [← hl, ← hv, ← hg, ← e1, ← e2]
    split_ifs
    · exact ⟨false, _, _, rfl, rfl, ⟨h1, hp, ht, by simp [hv]⟩, by simp⟩
    · obtain ⟨f1, f2, f3⟩ := secantSolve_same D s.valueTarget
        ⟨s.leftStart, (probe s.sagProbe s.catenary s.leftStart).1⟩
        ⟨s.leftStart * 1.10, (probe s.sagProbe (probe s.sagProbe s.catenary s.leftStart).2
          (s.leftStart * 1.10)).1⟩ h2
      exact ⟨_, _, _, rfl, congrArg some (Prod.ext f1.symm rfl), ⟨f2, hp, ht, by simp [hv]⟩, fun _ => f3⟩
  | .tension =>
    right
    have D := tensionProbe_determined s
    have hg : s.tensionProbe = s'.tensionProbe := by unfold tensionProbe; rw [hp]
    obtain ⟨e1, h1⟩ := probe_same D hc s.leftStart
    obtain ⟨e2, h2⟩ := probe_same D h1 s.valueTarget
    unfold solveTension
    simp only [← hl, ← hv, ← hg, ← e1, ← e2]
    split_ifs
    · exact ⟨false, _, _, rfl, rfl, ⟨h1, hp, ht, by simp [hv]⟩, by simp⟩
    · obtain ⟨f1, f2, f3⟩ := secantSolve_same D s.valueTarget
        ⟨s.leftStart, (probe s.tensionProbe s.catenary s.leftStart).1⟩
        ⟨s.valueTarget, (probe s.tensionProbe (probe s.tensionProbe s.catenary s.leftStart).2
          s.valueTarget).1⟩ h2
      exact ⟨_, _, _, rfl, congrArg some (Prod.ext f1.symm rfl), ⟨f2, hp, ht, by simp [hv]⟩, fun _ => f3⟩

/-- C58 fails: on the 100 ft span, a constant target below 50 fails when first asked for and then
answers the tension that was rejected. -/
theorem C58_witness : ∃ s : CatenarySolver, s.Reachable ∧ s.InputsValid ∧
    s.tensionHorizontal.1 = -999999 ∧ s.tensionHorizontal.2.tensionHorizontal.1 = 40 := by
  have hu : (exSolver .constant 40).update.1 = false := by
    have h : ¬ (exSolver .constant 40).validate.1 = true := by
      rw [C55_accepts (exSolver_reachable _ _) rfl, exSolver_spacing]
      rintro ⟨_, _, _, _, _, _, _, h⟩
      have : (exSolver .constant 40).valueTarget = 40 := rfl
      rw [this] at h
      norm_num at h
    unfold CatenarySolver.validate at h
    rw [if_pos (exSolver_inputs (by decide) (by norm_num))] at h
    simpa using h
  refine ⟨exSolver .constant 40, exSolver_reachable _ _, exSolver_inputs (by decide) (by norm_num), ?_, ?_⟩
  · unfold CatenarySolver.tensionHorizontal
    rw [hu]; rfl
  · have e : (exSolver .constant 40).tensionHorizontal.2 = (exSolver .constant 40).update.2 := by
      unfold CatenarySolver.tensionHorizontal
      rw [hu]; rfl
    rw [e]
    have e2 : (exSolver .constant 40).update.2.isUpdated = true := rfl
    unfold CatenarySolver.tensionHorizontal
    rw [if_pos e2]
    show ((exSolver .constant 40).update.2.catenary.catenary2d).tensionHorizontal = 40
    have e3 : (exSolver .constant 40).update.2.catenary =
      ((exSolver .constant 40).catenary.setTension (40 * (exSolver .constant 40).catenary.weightUnit.magnitude)).refresh := rfl
    rw [e3, (refresh_params _).2.2.2, exSolver_weight]
    show (40:ℝ) * 1 = 40
    norm_num

/-- The calls that only ask. -/
def asks : CatenarySolver.Event → Prop
  | .tensionHorizontal | .catenary | .validate => True
  | _ => False

/-- The target types for which a failure is shown to persist. -/
def Persistent (s : CatenarySolver) : Prop :=
  s.typeTarget = .null ∨
  s.catenary.Span ∧ |s.catenary.spacing.z| < 2000 ∧
    (s.typeTarget = .length ∨
      s.catenary.spacing.z = 0 ∧ s.positionTarget = -1 ∧ (s.typeTarget = .sag ∨ s.typeTarget = .tension))

/-- Such a solve leaves either an admissible tension or -999999. -/
theorem persistent_outcome {s s' : CatenarySolver} (R : s.catenary.Reachable) (P : Persistent s)
    (hs : s.solve = some (true, s')) (hv : s'.catenary.validate.1 = false) :
    s'.catenary.tensionHorizontal = -999999 := by
  rcases P with h | ⟨S, hz, h⟩
  · unfold solve at hs; rw [h] at hs; cases hs
  · have F := (solve_frame R hs).1
    have hout : s'.catenary.tensionHorizontal = -999999 ∨
        s.leftStart ≤ s'.catenary.tensionHorizontal := by
      rcases h with h | ⟨h1, h2, h | h⟩
      · rcases (length_outcome R S h hs).2.2 with h | h
        · exact Or.inl h
        · exact Or.inr h.1
      · rcases sag_outcome R S h h2 h1 hs with h | h
        · exact Or.inl h
        · exact Or.inr h.1
      · rcases tension_outcome R S h h2 h1 hs with h | h
        · exact Or.inl h
        · exact Or.inr h.1
    rcases hout with h | h
    · exact h
    · exfalso
      have : s'.catenary.validate.1 = true := by
        rw [(C54_validate_3d F.1).1, F.2.1, F.2.2]
        refine ⟨(S.ratio h).1, S.sx, S.sy, hz, S.wx, S.wy, S.wz, ?_⟩
        rw [le_div_iff₀ S.w_pos]
        exact h
      rw [this] at hv
      cases hv

/-- C58 for the target types `Persistent` (no target type, lengths, and sags and maximum tensions of level
spans): once the tension is reported as -999999, it is reported so whatever is asked, in any order, until
an input changes.  Missing: constant targets (see the witness), and sags and tensions at a position or of
inclined spans. -/
theorem C58_failure_partial {s : CatenarySolver} (R : s.Reachable) (hu : s.isUpdated = false)
    (P : Persistent s) (hfirst : s.tensionHorizontal.1 = -999999) (es : List CatenarySolver.Event)
    (hes : ∀ e ∈ es, asks e) :
    (es.foldl CatenarySolver.Event.next s).tensionHorizontal.1 = -999999 := by
  have hR := solver_catenary R
  have hfail : s.update.1 = false := by
    by_contra h
    have h : s.update.1 = true := by simpa using h
    obtain ⟨s', h1, h2, h3, _⟩ := update_true h
    have F := (solve_frame hR h1).1
    unfold CatenarySolver.tensionHorizontal at hfirst
    rw [h, hu] at hfirst
    simp only [Bool.false_eq_true, if_false, if_true] at hfirst
    rw [h3] at hfirst
    exact validate_pos F.1 h2 ((refresh_params s'.catenary).2.2.2 ▸ hfirst)
  -- states reached by asking
  let J : CatenarySolver → Prop := fun r =>
    SameInputs s r ∧ (r.isUpdated = true → r.catenary.tensionHorizontal = -999999)
  have hupd : ∀ r, J r → r.update.1 = false ∧ J r.update.2 := by
    rintro r ⟨hs, hr⟩
    unfold update at hfail ⊢
    rcases solve_same hs with ⟨e1, e2⟩ | ⟨b, q, q', e1, e2, e3, e4⟩
    · rw [e2]
      exact ⟨rfl, hs, hr⟩
    · rw [e1] at hfail
      rw [e2]
      have sf := solve_frame hR e1
      have sf' := solve_frame hs.1.2.1 e2
      have hsame : SameInputs s q' := by
        refine ⟨⟨hR, sf'.1.1, ?_, ?_, ?_⟩, ?_, ?_, ?_⟩
        · rw [solve_direction e2, hs.1.2.2.1]
        · rw [sf'.1.2.1, hs.1.2.2.2.1]
        · rw [sf'.1.2.2, hs.1.2.2.2.2]
        · rw [sf'.2.1, hs.2.1]
        · rw [sf'.2.2.1, hs.2.2.1]
        · rw [sf'.2.2.2.1, hs.2.2.2]
      cases b with
      | false =>
        refine ⟨rfl, hsame, ?_⟩
        intro h; cases h
      | true =>
        have h9 := persistent_outcome hR P e1 hfail
        rw [e4 rfl] at h9
        refine ⟨?_, ⟨⟨hR, sf'.1.touch.1, ?_⟩, hsame.2⟩, ?_⟩
        · show q'.catenary.validate.1 = false
          by_contra h
          exact validate_pos sf'.1.1 (by simpa using h) h9
        · obtain ⟨a, b, c, _⟩ := refresh_params q'.catenary
          show _ = q'.catenary.refresh.direction ∧ _ = q'.catenary.refresh.spacing ∧
            _ = q'.catenary.refresh.weightUnit
          rw [a, b, c]
          exact hsame.1.2.2
        · intro _
          show q'.catenary.refresh.catenary2d.tensionHorizontal = _
          rw [(refresh_params _).2.2.2]
          exact h9
  have hask : ∀ r, J r → r.tensionHorizontal.1 = -999999 ∧ J r.tensionHorizontal.2 := by
    intro r hr
    obtain ⟨h1, h2⟩ := hupd r hr
    unfold CatenarySolver.tensionHorizontal
    rw [h1]
    by_cases hb : r.isUpdated = true
    · simp only [hb, if_true]; exact ⟨hr.2 hb, hr⟩
    · simp only [hb]; exact ⟨rfl, h2⟩
  have hfold : ∀ (es : List CatenarySolver.Event) (r : CatenarySolver), (∀ e ∈ es, asks e) → J r →
      J (es.foldl CatenarySolver.Event.next r) := by
    intro es
    induction es with
    | nil => exact fun r _ h => h
    | cons e es ih =>
      intro r he hr
      apply ih _ (fun e' h => he e' (List.mem_cons_of_mem _ h))
      have := he e (List.mem_cons_self)
      cases e with
      | tensionHorizontal => exact (hask r hr).2
      | catenary =>
        show J r.catenaryQ.2
        unfold catenaryQ
        rw [(hupd r hr).1]
        by_cases hb : r.isUpdated = true
        · simp only [hb, if_true]; exact hr
        · simp only [hb]; exact (hupd r hr).2
      | validate =>
        show J r.validate.2
        unfold CatenarySolver.validate
        split_ifs
        · exact (hupd r hr).2
        · exact hr
      | setPositionTarget p => exact absurd this id
      | setSpacing p => exact absurd this id
      | setTypeTarget p => exact absurd this id
      | setValueTarget p => exact absurd this id
      | setWeight p => exact absurd this id
  refine (hask _ (hfold es s hes ⟨⟨⟨hR, hR, rfl, rfl, rfl⟩, rfl, rfl, rfl⟩, ?_⟩)).1
  intro h; rw [hu] at h; cases h

/-- A length of 50 on the 100 ft span fails, and this is seen by `C58_failure_partial`. -/
example : (exSolver .length 50).tensionHorizontal.1 = -999999 ∧ Persistent (exSolver .length 50) := by
  have S := inputs_span (exSolver_inputs (t := .length) (v := 50) (by decide) (by norm_num))
  refine ⟨?_, Or.inr ⟨S, ?_, Or.inl rfl⟩⟩
  · have hs : (exSolver .length 50).solve = some (exSolver .length 50).solveLength := rfl
    have h1 : (exSolver .length 50).solveLength.1 = false := by
      unfold solveLength
      simp only
      rw [if_pos]
      rw [exSolver_spacing]
      show (50:ℝ) ≤ 100
      norm_num
    have hu : (exSolver .length 50).update.1 = false := by
      unfold update
      rw [hs]
      match hm : (exSolver .length 50).solveLength with
      | (false, _) => rfl
      | (true, _) => rw [hm] at h1; cases h1
    unfold CatenarySolver.tensionHorizontal
    rw [hu]; rfl
  · show |(0:ℝ)| < 2000; norm_num

end Verif.Props
