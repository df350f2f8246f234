import Verif.Props.LineSaggerExample
import Verif.Props.ThermalHistory
import Verif.Props.SagCorrector
import Verif.Props.Locator

/-!
# C133: objects edited behind the pointers

The solvers keep pointers to their inputs.  An input can be edited in place, and nothing tells the solver; in the model
such an edit replaces the member without clearing the flag.  `Validate` is the call that looks at the inputs again.
-/

set_option linter.unusedSectionVars false

namespace Verif.Props
open Verif Verif.CatenaryReloader Verif.ElongationModel

/-! ## Classes whose `Validate` computes anew -/

/-- A new current solver with the settings of another. -/
noncomputable def freshCurrent (s : CurrentSolver) (t : ℝ) : CurrentSolver :=
  (((CurrentSolver.new.setCable s.cable).setTemperature t).setUnits s.units).setWeather s.weather

/-- **C133** for the steady current.  Whatever was set, asked and edited before, `Validate` gives the verdict of a new
solver with the inputs as they are now, and the queries after it give its answers. -/
theorem C133_current_partial (s : CurrentSolver) (t : ℝ) (h : s.temperature = some t) :
    s.validate.2 = (freshCurrent s t).validate.2 ∧
    s.validate.1.askCurrent.2 = (freshCurrent s t).askCurrent.2 ∧
    s.validate.1.askState.2 = (freshCurrent s t).askState.2 := by
  have ev : s.validate.1 = s.update.1 := rfl
  have e4 : s.temperature = (freshCurrent s t).temperature := h
  obtain ⟨u1, u2⟩ := update_settings (s := s) (s' := freshCurrent s t) rfl e4 rfl rfl
  have e5 : (freshCurrent s t).refresh = (freshCurrent s t).update := if_neg (show ¬ false = true by decide)
  obtain ⟨w1, w2⟩ := fresh_refresh (update_idem s)
  have k : s.update.1.cable = s.cable ∧ s.update.1.temperature = s.temperature ∧ s.update.1.units = s.units ∧
      s.update.1.weather = s.weather := by
    unfold CurrentSolver.update
    split_ifs <;> try split
    all_goals exact ⟨rfl, rfl, rfl, rfl⟩
  obtain ⟨v1, v2⟩ := update_settings (s := s.update.1) (s' := freshCurrent s t) k.1 (k.2.1.trans e4) k.2.2.1 k.2.2.2
  refine ⟨?_, ?_, ?_⟩
  · show (_ && s.update.2) = (_ && (freshCurrent s t).update.2)
    rw [u1]
    congr 1
    show (_ && (match s.temperature with | some t => _ | none => true) && _ && _) = _
    rw [h]
    rfl
  · rw [ev]
    unfold CurrentSolver.askCurrent
    rw [e5, w1, w2, v1]
    split_ifs with hb
    · exact (v2 (v1.trans hb)).1
    · rfl
  · rw [ev]
    unfold CurrentSolver.askState
    rw [e5, w1, w2, v1]
    split_ifs with hb
    · exact (v2 (v1.trans hb)).2
    · rfl

/-- The sun comes out in the weather object after a query.  The solver goes on reporting a current of 0; after `Validate`
it reports -2. -/
example :
    let s : CurrentSolver := { currentAfter (currentSetup exThermal 0 .metric (exWeather 0) ++ [.current]) with
      weather := some (exWeather 4) }
    s.askCurrent.2 = some 0 ∧ s.validate.1.askCurrent.2 = some (-2) := by
  intro s
  have hs : s = currentAfter (currentSetup exThermal 0 .metric (exWeather 0) ++
      [.current, .setWeather (some (exWeather 4))]) := by
    simp [s, currentAfter, CurrentCall.next, CurrentSolver.setWeather]
  have ht : s.temperature = some 0 := by
    rw [hs]
    have := heatValid_of exThermal_valid (u := .metric) (by decide) (exWeather_valid (sun := 0) (le_refl _))
    simp [currentAfter, currentSetup, CurrentCall.next, CurrentSolver.askCurrent, CurrentSolver.refresh,
      CurrentSolver.update, CurrentSolver.setCable, CurrentSolver.setTemperature, CurrentSolver.setUnits,
      CurrentSolver.setWeather, CurrentSolver.new, this]
  have hc : s.cable = some (some exThermal) ∧ s.units = .metric := by
    rw [hs]
    have := heatValid_of exThermal_valid (u := .metric) (by decide) (exWeather_valid (sun := 0) (le_refl _))
    simp [currentAfter, currentSetup, CurrentCall.next, CurrentSolver.askCurrent, CurrentSolver.refresh,
      CurrentSolver.update, CurrentSolver.setCable, CurrentSolver.setTemperature, CurrentSolver.setUnits,
      CurrentSolver.setWeather, CurrentSolver.new, this]
  refine ⟨by rw [hs]; exact C67_current_stale.1, ?_⟩
  rw [(C133_current_partial s 0 ht).2.1]
  have : freshCurrent s 0 = currentAfter (currentSetup exThermal 0 .metric (exWeather 4)) := by
    unfold freshCurrent
    rw [hc.1, hc.2]
    rfl
  rw [this]
  exact C67_current_stale.2

/-- **C133** for the steady temperature: the same, if `Validate` returns (without weather it is undefined). -/
theorem C133_temperature_partial (s s' : TemperatureSolver) (v : Bool) (h : s.validate = .ok s' v) :
    let n := temperatureSetup s.cable s.current s.units s.weather
    resultOf n.validate = .val v ∧ resultOf s'.askTemperature = resultOf n.askTemperature ∧
      resultOf s'.askState = resultOf n.askState := by
  intro n
  unfold TemperatureSolver.validate TemperatureSolver.update at h
  have e1 : n.weather = s.weather := rfl
  have e2 : n.cable = s.cable := rfl
  have e3 : n.current = s.current := rfl
  have e4 : n.units = s.units := rfl
  have e5 : n.isUpdated = false := rfl
  unfold TemperatureSolver.validate TemperatureSolver.askTemperature TemperatureSolver.askState
    TemperatureSolver.refresh TemperatureSolver.update
  rw [e1, e2, e3, e4, e5]
  cases hw : s.weather with
  | none => rw [hw] at h; cases h
  | some w =>
    rw [hw] at h
    simp only at h ⊢
    by_cases hi : (TemperatureSolver.search s.cable s.current s.units w).iter < 100
    · rw [if_pos hi] at h ⊢
      simp only [Outcome.ok.injEq] at h
      obtain ⟨h1, h2⟩ := h
      subst h1
      exact ⟨congrArg Res.val h2, rfl, rfl⟩
    · rw [if_neg hi] at h ⊢
      simp only [Outcome.ok.injEq] at h
      obtain ⟨h1, h2⟩ := h
      subst h1
      refine ⟨congrArg Res.val h2, ?_, ?_⟩
      · simp only [Bool.false_eq_true, if_false, if_neg hi]
      · simp only [Bool.false_eq_true, if_false, if_neg hi]

/-- `Validate` returns whenever there is a weather object. -/
example (s : TemperatureSolver) (w : ThermalWeather) (h : s.weather = some w) : ∃ s' v, s.validate = .ok s' v := by
  unfold TemperatureSolver.validate TemperatureSolver.update
  rw [h]
  simp only
  split_ifs <;> exact ⟨_, _, rfl⟩

/-- A new transient solver with the settings of another. -/
noncomputable def freshTransient (s : TransientSolver) : TransientSolver :=
  (((((TransientSolver.new.setCable s.cable).setCurrentSteady s.currentSteady).setCurrentStep
    s.currentStep).setDuration s.duration).setUnits s.units).setWeather s.weather

/-- **C133** for the transient temperature: the same. -/
theorem C133_transient_partial (s : TransientSolver) :
    s.validate.2 = (freshTransient s).validate.2 ∧ s.validate.1.askPoints.2 = (freshTransient s).askPoints.2 := by
  have ev : s.validate.1 = s.update.1 := rfl
  have hn : TransientFresh (freshTransient s) := fun h => absurd h (by show ¬ false = true; decide)
  have u : ∀ a b : TransientSolver, a.cable = b.cable → a.currentSteady = b.currentSteady →
      a.currentStep = b.currentStep → a.duration = b.duration → a.units = b.units → a.weather = b.weather →
      a.update.2 = b.update.2 ∧ a.update.1.points = b.update.1.points := by
    intro a b h1 h2 h3 h4 h5 h6
    unfold TransientSolver.update
    rw [h1, h2, h3, h4, h5, h6]
    split_ifs <;> try split
    all_goals exact ⟨rfl, rfl⟩
  have k : s.update.1.cable = s.cable ∧ s.update.1.currentSteady = s.currentSteady ∧
      s.update.1.currentStep = s.currentStep ∧ s.update.1.duration = s.duration ∧ s.update.1.units = s.units ∧
      s.update.1.weather = s.weather := by
    unfold TransientSolver.update
    split_ifs <;> try split
    all_goals exact ⟨rfl, rfl, rfl, rfl, rfl, rfl⟩
  refine ⟨?_, ?_⟩
  · show (_ && s.update.2) = (_ && (freshTransient s).update.2)
    rw [(u s (freshTransient s) rfl rfl rfl rfl rfl rfl).1]
    rfl
  · rw [ev, transient_ask (transient_update s), transient_ask hn]
    obtain ⟨u1, u2⟩ := u s.update.1 (freshTransient s) k.1 k.2.1 k.2.2.1 k.2.2.2.1 k.2.2.2.2.1 k.2.2.2.2.2
    rw [u1, u2]

/-- A new equilibrium solver with the settings of another. -/
noncomputable def freshEquilibrium (s : EquilibriumSolver) : EquilibriumSolver :=
  ((((EquilibriumSolver.new.setAngleCatenaries s.angleCatenaries).setAngleHardware s.angleHardware).setBack
    s.back).setAhead s.ahead).setDirection s.direction

/-- **C133** for the equilibrium of a suspension assembly: the same, with the messages, if `Validate` returns (without
catenaries it is undefined). -/
theorem C133_equilibrium_partial (s s' : EquilibriumSolver) (v : Bool × List String) (h : s.validate = .ok s' v) :
    resultOf (freshEquilibrium s).validate = .val v ∧
    resultOf s'.angleEquilibriumQ = resultOf (freshEquilibrium s).angleEquilibriumQ ∧
    resultOf s'.tensionImbalance = resultOf (freshEquilibrium s).tensionImbalance := by
  obtain ⟨a1, a2, a3, a4, a5, a6, a7, a8⟩ := s
  cases a4 with
  | none => cases a5 <;> cases h
  | some a =>
    cases a5 with
    | none => cases h
    | some b =>
      cases h
      exact ⟨rfl, rfl, rfl⟩

/-- `Validate` returns whenever there are catenaries. -/
example (s : EquilibriumSolver) (a b : Catenary3d) (ha : s.ahead = some a) (hb : s.back = some b) :
    ∃ s' v, s.validate = .ok s' v := by
  unfold EquilibriumSolver.validate EquilibriumSolver.update
  rw [ha, hb]
  exact ⟨_, _, rfl⟩

/-- **C133** for the sag corrections: the same, if `Validate` returns. -/
theorem C133_corrector_partial {s s' : SagCorrector} {heap : Heap ℝ} {v : Bool × List String}
    (h : s.validate heap = .ok s' v) :
    resultOf ((freshCorrector s).validate heap) = .val v ∧
    ∀ {A : Type} (q : CorrectorQuery A), resultOf (q.ask s') = resultOf (q.ask (freshCorrector s)) := by
  have hv : ∀ (s : SagCorrector) (heap : Heap ℝ),
      resultOf (s.validate heap) = resultOf ((freshCorrector s).validate heap) := by
    intro s heap
    have := update_same_inputs (s := s) (t := freshCorrector s) rfl rfl
    unfold SagCorrector.validate
    show resultOf (match SagCorrector.validateLineCable heap s.lineCable with | .ub => _ | .throws => _ | .val a => _) =
      resultOf (match SagCorrector.validateLineCable heap s.lineCable with | .ub => _ | .throws => _ | .val a => _)
    cases SagCorrector.validateLineCable heap s.lineCable with
    | ub => rfl
    | throws => rfl
    | val a =>
      match e1 : s.update, e2 : (freshCorrector s).update with
      | .ub, .ub => rfl
      | .throws _, .throws _ => rfl
      | .ok _ false, .ok _ false => rfl
      | .ok a true, .ok b true => rfl
      | .ub, .throws _ | .ub, .ok _ _ | .throws _, .ub | .throws _, .ok _ _ | .ok _ true, .ub | .ok _ false, .ub
      | .ok _ true, .throws _ | .ok _ false, .throws _ | .ok _ true, .ok _ false | .ok _ false, .ok _ true =>
        rw [e1, e2] at this; exact this.elim
  refine ⟨by rw [← hv, h]; rfl, ?_⟩
  have hu : ∃ b, s.update = .ok s' b := by
    unfold SagCorrector.validate at h
    split at h
    · cases h
    · cases h
    · simp only at h
      match e : s.update with
      | .ub => rw [e] at h; cases h
      | .throws t => rw [e] at h; cases h
      | .ok t true => rw [e] at h; cases h; exact ⟨true, rfl⟩
      | .ok t false => rw [e] at h; cases h; exact ⟨false, rfl⟩
  obtain ⟨b, hb⟩ := hu
  obtain ⟨k1, k2, k3⟩ := update_keeps (s := s) (s' := s') (by rw [hb]; rfl)
  have hf : freshCorrector s' = freshCorrector s := by unfold freshCorrector; rw [k1, k2]
  have hc : Current s' := by
    intro hi
    rcases k3 with ⟨b', e, f⟩ | ⟨e, -⟩
    · rw [hi] at f
      subst f
      exact update_fresh e
    · rw [e] at hb; cases hb
  intro A q
  rw [← hf]
  cases q with
  | clipped => exact ask_fresh hc _ _
  | pulleyed => exact ask_fresh hc _ _
  | offsets => exact ask_fresh hc _ _
  | corrections => exact ask_fresh hc _ _
  | validate heap => exact hv s' heap

/-- `Validate` returns for the example of C113. -/
example : ∃ (s s' : SagCorrector) (heap : Heap ℝ) (m : List String), s.validate heap = .ok s' (true, m) := by
  obtain ⟨s, -, h, -⟩ := C113_single_fails
  have := h fun _ => none
  match e : s.validate fun _ => none with
  | .ok s' v => rw [e] at this; cases this; exact ⟨s, s', _, _, e⟩
  | .throws s' => rw [e] at this; cases this
  | .ub => rw [e] at this; cases this

/-- **C133** fails for the sag corrections when `Validate` throws: the attachment points are removed in place after a
query.  `Validate` throws, and then the corrector hands out an empty list of catenaries as if it were valid; asking a new
corrector throws. -/
theorem C133_corrector_throw : ∃ s s' t : SagCorrector, ∃ ks, s.Reachable ∧ s.catenariesClipped = .ok s' (some ks) ∧
    ks.length = 2 ∧
    (∀ heap, ({ s' with points := some [] } : SagCorrector).validate heap = .throws t) ∧
    t.catenariesClipped = .ok t (some []) ∧
    resultOf (freshCorrector { s' with points := some [] }).catenariesClipped = .throws := by
  obtain ⟨a, b, -, -, c, h⟩ := exTwo_succeeds
  set s := exCorrector 100 100 6000 [⟨0, 0, 0⟩, ⟨100, 0, 0⟩, ⟨200, 0, 0⟩] with hs
  have hr : s.Reachable := exCorrector_reachable _ _ _ _
  unfold SagCorrector.catenariesClipped SagCorrector.ask at h
  have he : s.ensure = s.update := if_neg (show ¬ false = true by decide)
  rw [he] at h
  have hv := exLevelSpan_valid (l := 100) (w := 100) (h := 6000) (by norm_num) (by norm_num) (by norm_num)
  match e : s.update with
  | .ub => rw [e] at h; cases h
  | .throws _ => rw [e] at h; cases h
  | .ok _ false => rw [e] at h; cases h
  | .ok s' true =>
    rw [e] at h
    have hcl : s'.clipped = [c, c] := by
      simp only [resultOf, Res.val.injEq, Option.some.injEq] at h
      exact h
    obtain ⟨k1, k2, k3⟩ := update_keeps (s := s) (s' := s') (by rw [e]; rfl)
    have hf : s'.isUpdated = true := by
      rcases k3 with ⟨b', e', f⟩ | ⟨e', -⟩
      · rw [e] at e'; cases e'; exact f
      · rw [e] at e'; cases e'
    have hup : ∀ x : SagCorrector, x.lineCable = some (exLevel 100 100 6000) → x.points = some [] →
        x.update = .throws { x with clipped := [], lengthClipped := -999999 } := by
      intro x h1 h2
      unfold SagCorrector.update SagCorrector.updateClipped
      simp only
      rw [h1]
      simp only
      rw [exLevel_ruling]
      simp only
      rw [if_neg (by rw [hv]; decide), h2]
    refine ⟨s, s', { s' with points := some [], clipped := [], lengthClipped := -999999 }, [c, c], hr, ?_, rfl, ?_, ?_, ?_⟩
    · unfold SagCorrector.catenariesClipped SagCorrector.ask
      rw [he, e]
      simp only [hcl]
    · intro heap
      unfold SagCorrector.validate
      simp only
      have : SagCorrector.validateLineCable heap s'.lineCable = .val (true, ["Not enough connections"]) := by
        rw [k1]
        exact exLevel_validate heap (by norm_num) (by norm_num) (by norm_num)
      rw [this]
      simp only
      rw [hup { s' with points := some [] } k1 rfl]
    · unfold SagCorrector.catenariesClipped SagCorrector.ask SagCorrector.ensure
      rw [if_pos (show _ = true from hf)]
    · unfold SagCorrector.catenariesClipped SagCorrector.ask
      have : (freshCorrector { s' with points := some [] }).ensure =
        (freshCorrector { s' with points := some [] }).update := if_neg (show ¬ false = true by decide)
      rw [this, hup (freshCorrector { s' with points := some [] }) k1 rfl]
      rfl

/-! ## Classes whose `Validate` trusts the flag -/

/-- **C133** for the reloading of a catenary: once it has succeeded, edits of the catenary, the elongation models and the
weight are not noticed.  The queries and, if it accepts the edited inputs, `Validate` answer as before. -/
theorem C133_reloader_ignores (r : CatenaryReloader) (hu : r.isUpdated = true) (k : Option Catenary3d)
    (m n : Option ElongationModel) (w : Option V3) :
    let e := { r with catenary := k, modelReference := m, modelReloaded := n, weight := w }
    e.catenaryQ = .ok e r.catenaryReloaded ∧ e.tensionHorizontal = .ok e r.catenaryReloaded.tensionHorizontal ∧
    (validCatenary k = true → validModel m = .val true → validModel n = .val true → validWeight w = true →
      e.validate = .ok e true) := by
  intro e
  have he : e.update = .ok e true := if_pos hu
  refine ⟨by unfold CatenaryReloader.catenaryQ; rw [he], by unfold CatenaryReloader.tensionHorizontal; rw [he], ?_⟩
  intro h1 h2 h3 h4
  unfold CatenaryReloader.validate
  show (match validModel m with | .val a => _ | .throws => _ | .ub => _) = _
  rw [h2]
  show (match validModel n with | .val a => _ | .throws => _ | .ub => _) = _
  rw [h3]
  show (if (validCatenary k && true && true && validWeight w) = true then _ else _) = _
  rw [h1, h4]
  exact he

/-- A cable model for the example. -/
noncomputable def editModel : ElongationModel :=
  modelOf (hookeCable 1000000) ⟨60, .loadStrain⟩ ⟨0, .loadStrain, 0⟩

/-- With a very light load the search stops before its first step. -/
theorem light_update {v : ℝ} (h0 : 0 < v) (h1 : v ≤ 0.0001) :
    ∃ r, (CatenaryReloader.given (levelSpan 100 0.1 100) editModel editModel ⟨0, 0, v⟩).update = .ok r true ∧
      r.catenaryReloaded.tensionHorizontal = 100 * v ∧ r.isUpdated = true ∧
      r.catenary = some (levelSpan 100 0.1 100) ∧ r.modelReference = some editModel ∧
      r.modelReloaded = some editModel := by
  set r := CatenaryReloader.given (levelSpan 100 0.1 100) editModel editModel ⟨0, 0, v⟩ with hr
  have hm := level_magnitudes (s := 100) (v := v) (by norm_num) h0 0.1 100
  have ht : tensionLeast (levelSpan 100 0.1 100) ⟨0, 0, v⟩ = 50 * v := by
    have : tensionLeast (levelSpan 100 0.1 100) ⟨0, 0, v⟩ =
      (levelSpan 100 0.1 100).spacing.magnitude / 2 * (V3.mk 0 0 v).magnitude := rfl
    rw [this, hm]; norm_num
  have hl : HookeLike 1000000 (some editModel) := hung_like (by decide) rfl
  have g : ∀ x, 50 * v ≤ x → x ≤ 100 * v → gap (levelSpan 100 0.1 100) (some editModel) (some editModel) ⟨0, 0, v⟩ x =
      .val (levelGap 1000000 100 0.1 100 v x) := fun x a b =>
    level_gap_like hl hl (by norm_num) (by norm_num) (by norm_num) h0 (by linarith) (by norm_num)
      (by norm_num at h1 ⊢; linarith)
  have hf : r.found (levelSpan 100 0.1 100) ⟨0, 0, v⟩ = .ok (100 * v) true := by
    unfold CatenaryReloader.found searchOn
    rw [ht]
    show (match gap (levelSpan 100 0.1 100) (some editModel) (some editModel) ⟨0, 0, v⟩ (50 * v) with
      | .val yl => _ | .throws => _ | .ub => _) = _
    rw [g _ (le_refl _) (by linarith)]
    show (match gap (levelSpan 100 0.1 100) (some editModel) (some editModel) ⟨0, 0, v⟩ (2 * (50 * v)) with
      | .val yl => _ | .throws => _ | .ub => _) = _
    rw [show (2:ℝ) * (50 * v) = 100 * v by ring, g _ (by linarith) (le_refl _)]
    simp only
    rw [loopOn, if_neg (by
      rw [abs_of_neg (by linarith)]
      norm_num at h1 ⊢
      linarith)]
    norm_num
  refine ⟨{ r.trying (levelSpan 100 0.1 100) ⟨0, 0, v⟩ (100 * v) with isUpdated := true }, ?_, rfl, rfl, rfl, rfl, rfl⟩
  unfold CatenaryReloader.update
  rw [if_neg (show ¬ r.isUpdated = true from Bool.false_ne_true), solve_eq (k := levelSpan 100 0.1 100) (w := ⟨0, 0, v⟩) rfl rfl,
    hf]
  rfl

/-- **C133** fails for the reloading of a catenary: the weight is halved in place after a query.  `Validate` accepts the
reloader, and the tension reported is still 0.01, while a new reloader with the halved weight reports 0.005. -/
theorem C133_reloader_fails : ∃ (k : Catenary3d) (m : ElongationModel) (w w' : V3) (s : CatenaryReloader),
    CatenaryReloader.run .new [.setCatenary (some k), .setModelReference (some m), .setModelReloaded (some m),
      .setWeight (some w), .tensionHorizontal] = some s ∧
    ({ s with weight := some w' } : CatenaryReloader).validate = .ok { s with weight := some w' } true ∧
    resultOf ({ s with weight := some w' } : CatenaryReloader).tensionHorizontal = .val 0.01 ∧
    resultOf (CatenaryReloader.given k m m w').validate = .val true ∧
    resultOf (CatenaryReloader.given k m m w').tensionHorizontal = .val 0.005 := by
  obtain ⟨r, a1, a2, a3, a4, a5, a6⟩ := light_update (v := 0.0001) (by norm_num) (by norm_num)
  obtain ⟨q, b1, b2, -⟩ := light_update (v := 0.00005) (by norm_num) (by norm_num)
  have v1 : validCatenary (some (levelSpan 100 0.1 100)) = true :=
    level_valid (by norm_num) (by norm_num) (by norm_num)
  have v2 : validWeight (some ⟨0, 0, 0.00005⟩) = true := by unfold validWeight; norm_num
  have v3 : validModel (some editModel) = .val true := hung_valid (by decide) (calm_state (by decide)) rfl
  have hI := C133_reloader_ignores r a3 r.catenary r.modelReference r.modelReloaded (some ⟨0, 0, 0.00005⟩)
  simp only at hI
  rw [a2] at hI
  refine ⟨levelSpan 100 0.1 100, editModel, ⟨0, 0, 0.0001⟩, ⟨0, 0, 0.00005⟩, r, ?_, ?_, ?_, ?_, ?_⟩
  · show ((CatenaryReloader.given (levelSpan 100 0.1 100) editModel editModel ⟨0, 0, 0.0001⟩).tensionHorizontal.state?.bind
      fun x => some x) = _
    unfold CatenaryReloader.tensionHorizontal
    rw [a1]
    rfl
  · exact hI.2.2 (by rw [a4]; exact v1) (by rw [a5]; exact v3) (by rw [a6]; exact v3) v2
  · rw [hI.2.1]
    show Res.val _ = Res.val _
    norm_num
  · unfold CatenaryReloader.validate
    show resultOf (match validModel (some editModel) with | .val a => _ | .throws => _ | .ub => _) = _
    rw [v3]
    show resultOf (match validModel (some editModel) with | .val a => _ | .throws => _ | .ub => _) = _
    rw [v3]
    show resultOf (if (validCatenary (some (levelSpan 100 0.1 100)) && true && true &&
      validWeight (some ⟨0, 0, 0.00005⟩)) = true then _ else _) = _
    rw [v1, v2]
    simp only [Bool.and_self, if_true]
    rw [b1]
    rfl
  · unfold CatenaryReloader.tensionHorizontal
    rw [b1]
    show Res.val q.catenaryReloaded.tensionHorizontal = _
    rw [b2]
    norm_num

/-- **C133** for the reloading of a line cable: once it has succeeded, edits of the line cable and of the weather case are
not noticed by any query, and not by `Validate` unless it rejects the edited objects. -/
theorem C133_line_ignores (s : LineReloader) (hu : s.isUpdated = true) (c : Option SectionCable)
    (w : Option WeatherLoadCase) :
    let e := { s with base := { s.base with lineCable := c }, weather := w }
    e.catenaryReloaded = .ok e s.catenary ∧ e.tensionHorizontal = .ok e s.catenary.tensionHorizontal ∧
    e.stateReloaded = .ok e s.model.state ∧ e.stretchCreep = .ok e s.base.stretchCreep ∧
    e.stretchLoad = .ok e s.base.stretchLoad ∧
    ∀ heap, (∃ b, e.validate heap = .ok e b) ∨ e.base.validMembers heap = .throws ∨ e.base.validMembers heap = .ub := by
  intro e
  have he : e.isUpdated = true := hu
  have hup : e.update = .ok e true := LineReloader.update_updated he
  have q : ∀ {A : Type} (d : A) (f : LineReloader → Res A), e.ask d f = .ofRes e (f e) := by
    intro A d f
    unfold LineReloader.ask
    rw [if_pos he]
    rfl
  refine ⟨q _ _, q _ _, q _ _, q _ _, q _ _, fun heap => ?_⟩
  unfold LineReloader.validate LineReloader.validateBase
  cases hv : e.base.validMembers heap with
  | throws => exact Or.inr (Or.inl rfl)
  | ub => exact Or.inr (Or.inr rfl)
  | val b =>
    refine Or.inl ?_
    cases b with
    | false => exact ⟨false, rfl⟩
    | true =>
      simp only [Run.ofRes, Run.bind, if_true, hup]
      split_ifs
      · exact ⟨true, rfl⟩
      · exact ⟨false, rfl⟩

/-- **C133** fails for the reloading of a line cable: after a query the limit of the constraint is lowered in place from
70 to 10, too little for the span.  `Validate` reports the error, and the reloader goes on reporting the tension for the
limit 70; a new reloader reports failure. -/
theorem C133_line_fails : ∃ (c c' : SectionCable) (s : LineReloader) (x : ℝ),
    LineReloader.run .new [.setLineCable (some c), .setCondition .initial, .setWeather (some exCalm), .query] = some s ∧
    let e : LineReloader := { s with base := { s.base with lineCable := some c' } }
    (∀ heap, e.validate heap = .ok e false) ∧ e.tensionHorizontal = .ok e x ∧ |x - 70| ≤ 0.01 ∧
    (reloaderOf c' (some exCalm) .initial).tensionHorizontal.result = some (.val (-999999)) := by
  obtain ⟨s, h1, h2, h3, h4, h5, h6, -, x, hx, h8⟩ := hung_reloads
  obtain ⟨-, k2⟩ := LineReloader.update_sound (LineReloader.fresh_sound
    (((LineReloader.new.setLineCable (some exHung)).setCondition .initial).setWeather (some exCalm)))
  have hu : s.isUpdated = true := k2 s h1
  let c' : SectionCable := { exHung with constraint := { exHung.constraint with limit := 10 } }
  have hr : c'.catenaryRulingSpan = .val (levelSpan 100 1 10) := by
    unfold SectionCable.catenaryRulingSpan
    have : c'.loadUnit = .val ⟨0, 0, 1⟩ := exHung_load
    rw [this]
    rfl
  have hk : (levelSpan 100 1 10).validate.1 = false := by
    rw [← Bool.not_eq_true, (C54_validate_3d (levelSpan_reachable 100 1 10)).1]
    rintro ⟨-, -, -, -, -, -, -, h⟩
    have : (V3.mk 100 0 0).magnitude / 2 ≤ 10 / (V3.mk 0 0 1).magnitude := h
    rw [magnitude_x (by norm_num), magnitude_z (by norm_num)] at this
    norm_num at this
  have hI := C133_line_ignores s hu (some c') s.weather
  simp only at hI
  refine ⟨exHung, c', s, x, ?_, ?_, ?_, h8, ?_⟩
  · show (exReloader.ask Catenary3d.new (fun s => .val s.catenary)).state?.bind (fun s => some s) = _
    unfold LineReloader.ask
    rw [if_neg (by decide), h1]
    rfl
  · intro heap
    have hv : ∃ m, c'.validate heap = .val (false, m) := by
      unfold SectionCable.validate
      simp only
      split_ifs with hm
      · exact ⟨c'.validateMembers.2, by rw [← hm]⟩
      · rw [hr]
        simp only [hk]
        have : SectionCable.validateConnections heap c'.connections = .val (false, ["Not enough connections"]) := rfl
        rw [this]
        exact ⟨_, rfl⟩
    obtain ⟨m, hm⟩ := hv
    have hb : LineLoader.validMembers heap { s.base with lineCable := some c' } = .val false := by
      unfold LineLoader.validMembers
      simp only [hm, Bool.and_false]
    unfold LineReloader.validate LineReloader.validateBase
    rw [hb]
    rfl
  · rw [hI.2.1, hx]
    rfl
  · have hb : ∀ b : LineLoader, b.lineCable = some c' → b.update = .ok { b with updatedCatenary := false } false := by
      intro b hb
      unfold LineLoader.update LineLoader.updateCatenary
      rw [hb]
      simp only
      rw [hr]
      simp only [hk]
      rw [if_neg (by decide)]
      simp only [Run.bind, if_true]
      rw [hb]
    unfold LineReloader.tensionHorizontal LineReloader.ask
    rw [if_neg (by decide)]
    unfold LineReloader.update LineReloader.updateBase
    rw [if_neg (by decide)]
    simp only
    rw [hb _ rfl]
    rfl

/-- **C133** for the unloading of a line cable: edits of the line cable are not noticed. -/
theorem C133_unloader_ignores (s : LineUnloader) (hu : s.isUpdated = true) (c : Option SectionCable) :
    let e := { s with base := { s.base with lineCable := c } }
    e.lengthUnloaded = .ok e s.length ∧ e.stretchCreep = .ok e s.base.stretchCreep ∧
    e.stretchLoad = .ok e s.base.stretchLoad ∧
    ∀ heap, (∃ b, e.validate heap = .ok e b) ∨ e.base.validMembers heap = .throws ∨ e.base.validMembers heap = .ub := by
  intro e
  have he : e.isUpdated = true := hu
  have hup : e.update = .ok e true := LineUnloader.update_updated he
  have q : ∀ {A : Type} (d : A) (f : LineUnloader → Res A), e.ask d f = .ofRes e (f e) := by
    intro A d f
    unfold LineUnloader.ask
    rw [if_pos he]
    rfl
  refine ⟨q _ _, q _ _, q _ _, fun heap => ?_⟩
  unfold LineUnloader.validate LineUnloader.validateBase
  cases hv : e.base.validMembers heap with
  | throws => exact Or.inr (Or.inl rfl)
  | ub => exact Or.inr (Or.inr rfl)
  | val b =>
    refine Or.inl ?_
    cases b with
    | false => exact ⟨false, rfl⟩
    | true =>
      simp only [Run.ofRes, Run.bind, if_true, hup]
      split_ifs
      · exact ⟨true, rfl⟩
      · exact ⟨false, rfl⟩

/-- **C133** fails for sagging: all design constraints are removed in place after a query.  `Validate` accepts the sagger,
and the second of no constraints is still reported as the controlling one; asking a new sagger throws. -/
theorem C133_sagger_fails (heap : Heap ℝ) : ∃ (q q' : CableConstraint) (c c' : SectionCable) (s : Sagger),
    Sagger.run .new [.setConstraints (some [q, q']), .setLineCable (some c), .query heap] = some s ∧
    s.lineCable = some c' ∧
    ({ s with constraints := some [] } : Sagger).validate heap = .ok { s with constraints := some [] } true ∧
    ({ s with constraints := some [] } : Sagger).indexControlling heap = .ok { s with constraints := some [] } 1 ∧
    (((Sagger.new.setConstraints (some [])).setLineCable (some c')).indexControlling heap).result = some .throws := by
  obtain ⟨v, h, h', x, k, v1, v2, h1, h2, h3, h4, hx, hk, hu⟩ := icy_sags heap
  refine ⟨icyLimit v h, icyLimit v h', icyLine v 1 70, icyLine v 1 x,
    ⟨some [icyLimit v h, icyLimit v h'], some (icyLine v 1 x), [k, k], 1, true⟩, ?_, rfl, ?_, ?_, ?_⟩
  · show (((icySagger v h h').update heap).state?.bind fun s => some s) = _
    rw [hu]
    rfl
  · obtain ⟨m, hm⟩ := icy_valid (v := v) (w := 1) (h := x) v1.le (le_refl _) (by
      have := (abs_le.1 hx).1; norm_num at this ⊢; linarith) heap
    unfold Sagger.validate Sagger.validMembers
    simp only [hm]
    rfl
  · rfl
  · rfl

end Verif.Props
