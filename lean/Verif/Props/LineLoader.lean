import Verif.LineLoaderFacts
import Verif.Props.RulingSpan
import Verif.Props.CableReloader

/-!
# Properties of the reloading and unloading of a line cable

C116: the answers do not depend on the calls made before.
-/

set_option linter.unusedSectionVars false

namespace Verif.Props
open Verif Verif.CatenaryReloader Verif.ElongationModel

/-! ## A line cable for examples -/

theorem hooke_component {e : ℝ} (he : 0 < e) {s : CableState} (hs : s.type ≠ .null) (hv : s.validate.1 = true)
    {ss : CableStretchState} (hl : ss.load = 0) {m : ComponentModel}
    (h : Has (exComponent e e) 0 s ss m) : ∃ m', m.validate false = .ok m' true := by
  obtain ⟨C, h1, h2, h3, h4⟩ := h (hooke_enabled he)
  have hr := hooke_read he hs hl
  unfold compRead at hr
  rw [if_pos (hooke_enabled he)] at hr
  have hc : (exComponent e e).validate.1 = true := by
    unfold CableComponent.validate exComponent; norm_num
  have hss : ss.validate.1 = true := by
    unfold CableStretchState.validate; rw [hl]; norm_num
  unfold ComponentModel.validate
  rw [h1, h2, h3, h4]
  simp only
  rw [if_pos ⟨hc, hv, hss, by norm_num⟩]
  rcases C.update h1 h2 h3 h4 with ⟨l, th, r, m1, a, b1, -⟩ | ⟨m1, a, b1, -⟩ | ⟨m1, a, b1, -⟩ | ⟨a, b1⟩
  · rw [b1]
    exact ⟨m1, by simp [exComponent]⟩
  · rw [a] at hr; cases hr
  · rw [a] at hr; cases hr
  · rw [a] at hr; cases hr

theorem hooke_accepts {e : ℝ} (he : 0 < e) {m : ElongationModel} (hk : m.cable = some (hookeCable e))
    (hG : Good (hookeCable e) m) (hs : m.state.type ≠ .null) (hv : m.state.validate.1 = true)
    (hl : m.stretch.load = 0) : CatenaryReloader.validModel (some m) = .val true := by
  have hss : m.stretch.validate.1 = true := by
    unfold CableStretchState.validate; rw [hl]; norm_num
  have hlo : loadsOf (hookeCable e) m.stretch = .val (0, 0) := by unfold loadsOf; rw [if_pos hl]
  suffices h : ∃ m', m.validate false = .ok m' true by
    obtain ⟨m', h⟩ := h
    unfold CatenaryReloader.validModel
    simp only
    rw [h]
  unfold ElongationModel.validate ElongationModel.updated
  rw [hk]
  simp only
  rw [if_pos ⟨hooke_valid.1, hv, hss⟩]
  rcases hG.update hk with ⟨l, o, m1, a, b, c, G1, e1, e2, e3, f1, f2, g, r⟩ | ⟨a, b⟩
  · rw [c]
    simp only [e1]
    cases hlo.symm.trans a
    obtain ⟨c', v1⟩ := hooke_component he hs hv (ss := { m.stretch with load := 0 }) rfl g.1
    obtain ⟨d', v2⟩ := hooke_component he hs hv (ss := { m.stretch with load := 0 }) rfl g.2
    have q : (hookeCable e).core.Enabled := hooke_enabled he
    have q' : (hookeCable e).shell.Enabled := hooke_enabled he
    unfold ElongationModel.validateComponents
    rw [if_neg (not_not.2 (Or.inl q)), if_pos q, v1]
    simp only
    rw [if_pos q', v2]
    exact ⟨_, rfl⟩
  · cases (hooke_known he hs hl).symm.trans a

/-- A line cable strung with a horizontal tension of 70 in still air over a 100 ft ruling span. -/
noncomputable def exHung : SectionCable :=
  ⟨some (hookeCable 1000000), [], ⟨some exCalm, .initial, 70, .horizontalTension⟩, ⟨100, 0, 0⟩, some exCalm,
    some exCalm⟩

theorem exHung_load : exHung.unitLoad (some exCalm) = .val ⟨0, 0, 1⟩ := by
  show Res.val (⟨0, ((1:ℝ) + 2 * 0) * 1 * 0, 1 + (Cylinder.volume ⟨1 + 2 * 0, 1⟩ - Cylinder.volume ⟨1, 1⟩) * 0⟩ : V3) = _
  norm_num

theorem exHung_ruling : exHung.catenaryRulingSpan = .val (levelSpan 100 1 70) := by
  unfold SectionCable.catenaryRulingSpan
  have : exHung.loadUnit = .val ⟨0, 0, 1⟩ := exHung_load
  rw [this]
  rfl

theorem hung_good (s : CableState) (t : CableStretchState) :
    Good (hookeCable 1000000) (modelOf (hookeCable 1000000) s t) :=
  good_flags_false (attach_att (hookeCable 1000000) ElongationModel.new (hookeCable 1000000) rfl) rfl rfl

theorem hung_like {s : CableState} {t : CableStretchState} (hs : s.type ≠ .null) (hl : t.load = 0) :
    HookeLike 1000000 (some (modelOf (hookeCable 1000000) s t)) := fun _ h0 h1 =>
  hooke_answer (by norm_num) rfl (hung_good s t) hs hl h0 h1

theorem hung_valid {s : CableState} {t : CableStretchState} (hs : s.type ≠ .null) (hv : s.validate.1 = true)
    (hl : t.load = 0) : validModel (some (modelOf (hookeCable 1000000) s t)) = .val true :=
  hooke_accepts (by norm_num) rfl (hung_good s t) hs hv hl

theorem calm_state {t : PolynomialType} (ht : t ≠ .null) : (⟨60, t⟩ : CableState).validate.1 = true := by
  unfold CableState.validate; norm_num; exact ht

/-- A reload of the example is accepted. -/
theorem hung_reload {t t' : PolynomialType} (ht : t ≠ .null) (ht' : t' ≠ .null) (a b : CableStretchState)
    (ha : a.load = 0) (hb : b.load = 0) :
    ∃ r, (CatenaryReloader.given (levelSpan 100 1 70) (modelOf (hookeCable 1000000) ⟨60, t⟩ a)
      (modelOf (hookeCable 1000000) ⟨60, t'⟩ b) ⟨0, 0, 1⟩).validate = .ok r true ∧
      ∃ x, r.catenaryReloaded = levelSpan 100 1 x ∧ |x - 70| ≤ 0.01 := by
  obtain ⟨r, h1, h2⟩ := level_reloads (r := CatenaryReloader.given (levelSpan 100 1 70)
    (modelOf (hookeCable 1000000) ⟨60, t⟩ a) (modelOf (hookeCable 1000000) ⟨60, t'⟩ b) ⟨0, 0, 1⟩) rfl rfl rfl
    (hung_like ht ha) (hung_like ht' hb)
  obtain ⟨x, -, h3, -⟩ := update_found (r := CatenaryReloader.given (levelSpan 100 1 70)
    (modelOf (hookeCable 1000000) ⟨60, t⟩ a) (modelOf (hookeCable 1000000) ⟨60, t'⟩ b) ⟨0, 0, 1⟩) rfl rfl rfl h1
  rw [level_trial] at h3
  refine ⟨r, ?_, x, h3, by rw [h3] at h2; exact h2⟩
  unfold CatenaryReloader.validate
  have e1 : (CatenaryReloader.given (levelSpan 100 1 70) (modelOf (hookeCable 1000000) ⟨60, t⟩ a)
      (modelOf (hookeCable 1000000) ⟨60, t'⟩ b) ⟨0, 0, 1⟩).modelReference = some (modelOf (hookeCable 1000000) ⟨60, t⟩ a) := rfl
  have e2 : (CatenaryReloader.given (levelSpan 100 1 70) (modelOf (hookeCable 1000000) ⟨60, t⟩ a)
      (modelOf (hookeCable 1000000) ⟨60, t'⟩ b) ⟨0, 0, 1⟩).modelReloaded = some (modelOf (hookeCable 1000000) ⟨60, t'⟩ b) := rfl
  have e3 : (CatenaryReloader.given (levelSpan 100 1 70) (modelOf (hookeCable 1000000) ⟨60, t⟩ a)
      (modelOf (hookeCable 1000000) ⟨60, t'⟩ b) ⟨0, 0, 1⟩).catenary = some (levelSpan 100 1 70) := rfl
  have e4 : (CatenaryReloader.given (levelSpan 100 1 70) (modelOf (hookeCable 1000000) ⟨60, t⟩ a)
      (modelOf (hookeCable 1000000) ⟨60, t'⟩ b) ⟨0, 0, 1⟩).weight = some ⟨0, 0, 1⟩ := rfl
  have v1 : validCatenary (some (levelSpan 100 1 70)) = true :=
    level_valid (by norm_num) (by norm_num) (by norm_num)
  have v2 : validWeight (some ⟨0, 0, 1⟩) = true := by unfold validWeight; norm_num
  rw [e1, e2, e3, e4, hung_valid ht (calm_state ht) ha, hung_valid ht' (calm_state ht') hb, v1, v2]
  exact h1

/-- Loading the example gives the stretch caused by its creep and load weather cases. -/
theorem hung_base {s : LineLoader} (hc : s.lineCable = some exHung) : ∃ s', s.update = .ok s' true ∧
    s'.lineCable = some exHung ∧ s'.catenary = levelSpan 100 1 70 ∧
    s'.modelConstraint = modelOf (hookeCable 1000000) ⟨60, .loadStrain⟩ ⟨0, .loadStrain, 0⟩ ∧
    s'.updatedCatenary = true ∧ s'.updatedStretch = true ∧ ∃ z, s'.stretchCreep = ⟨60, .creep, z⟩ := by
  obtain ⟨r1, h1, -⟩ := hung_reload (t := .loadStrain) (t' := .creep) (by decide) (by decide) ⟨0, .loadStrain, 0⟩
    ⟨60, .creep, 0⟩ rfl rfl
  obtain ⟨r2, h2, -⟩ := hung_reload (t := .loadStrain) (t' := .loadStrain) (by decide) (by decide) ⟨0, .loadStrain, 0⟩
    ⟨60, .loadStrain, 0⟩ rfl rfl
  have hv : (levelSpan 100 1 70).validate.1 = true := level_valid (by norm_num) (by norm_num) (by norm_num)
  have a1 : s.updateCatenary exHung = .ok { s with catenary := levelSpan 100 1 70 } true := by
    unfold LineLoader.updateCatenary
    rw [exHung_ruling]
    simp only
    rw [if_pos hv]
  have a3 : ∀ x : LineLoader, x.catenary = levelSpan 100 1 70 →
      x.modelConstraint = modelOf (hookeCable 1000000) ⟨60, .loadStrain⟩ ⟨0, .loadStrain, 0⟩ →
      x.modelCreep = modelOf (hookeCable 1000000) ⟨60, .creep⟩ ⟨60, .creep, 0⟩ →
      x.modelLoad = modelOf (hookeCable 1000000) ⟨60, .loadStrain⟩ ⟨60, .loadStrain, 0⟩ →
      x.updateLoadStretch exHung = .ok { x with
        stretchCreep := ⟨60, .creep, r1.catenaryReloaded.tensionAverage⟩
        stretchLoad := ⟨60, .loadStrain, r2.catenaryReloaded.tensionAverage⟩ } true := by
    intro x e1 e2 e3 e4
    have b1 : x.updateStretchCreep exHung =
        .ok { x with stretchCreep := ⟨60, .creep, r1.catenaryReloaded.tensionAverage⟩ } true := by
      have q : x.solveStretch exHung x.modelCreep exHung.weatherCreep =
          .val (some ⟨60, .creep, r1.catenaryReloaded.tensionAverage⟩) := by
        unfold LineLoader.solveStretch
        have : exHung.unitLoad exHung.weatherCreep = .val ⟨0, 0, 1⟩ := exHung_load
        rw [this, e1, e2, e3]
        simp only
        rw [h1]
        rfl
      unfold LineLoader.updateStretchCreep
      rw [if_neg (by decide), q]
    have b2 : ∀ y : LineLoader, y.catenary = levelSpan 100 1 70 →
      y.modelConstraint = modelOf (hookeCable 1000000) ⟨60, .loadStrain⟩ ⟨0, .loadStrain, 0⟩ →
      y.modelLoad = modelOf (hookeCable 1000000) ⟨60, .loadStrain⟩ ⟨60, .loadStrain, 0⟩ →
      y.updateStretchLoad exHung =
        .ok { y with stretchLoad := ⟨60, .loadStrain, r2.catenaryReloaded.tensionAverage⟩ } true := by
      intro y e1 e2 e4
      have q : y.solveStretch exHung y.modelLoad exHung.weatherLoad =
          .val (some ⟨60, .loadStrain, r2.catenaryReloaded.tensionAverage⟩) := by
        unfold LineLoader.solveStretch
        have : exHung.unitLoad exHung.weatherLoad = .val ⟨0, 0, 1⟩ := exHung_load
        rw [this, e1, e2, e4]
        simp only
        rw [h2]
        rfl
      unfold LineLoader.updateStretchLoad
      rw [if_neg (by decide), q]
    unfold LineLoader.updateLoadStretch
    rw [b1]
    simp only [Run.bind]
    rw [if_pos trivial]
    exact b2 _ e1 e2 e4
  have a2 : ∀ x : LineLoader, x.initModels exHung = .ok { x with
      modelConstraint := modelOf (hookeCable 1000000) ⟨60, .loadStrain⟩ ⟨0, .loadStrain, 0⟩
      modelCreep := modelOf (hookeCable 1000000) ⟨60, .creep⟩ ⟨60, .creep, 0⟩
      modelLoad := modelOf (hookeCable 1000000) ⟨60, .loadStrain⟩ ⟨60, .loadStrain, 0⟩ } true := fun x => rfl
  have a4 : ∀ x : LineLoader, x.updateConstraintModel exHung = .ok x true := fun x => rfl
  unfold LineLoader.update
  rw [hc]
  simp only
  rw [a1]
  simp only [Run.bind]
  rw [if_neg (by decide), a2]
  simp only
  rw [a4]
  simp only
  rw [if_neg (by decide)]
  erw [a3 _ rfl rfl rfl rfl]
  exact ⟨_, rfl, hc, rfl, rfl, rfl, rfl, _, rfl⟩

/-- A reloader for the example. -/
noncomputable def exReloader : LineReloader :=
  ((LineReloader.new.setLineCable (some exHung)).setCondition .initial).setWeather (some exCalm)

/-- Reloading the example without change of weather succeeds, and keeps the tension within the tolerance of the
search. -/
theorem hung_reloads : ∃ s, exReloader.update = .ok s true ∧ s.base.catenary = levelSpan 100 1 70 ∧
    s.base.lineCable = some exHung ∧ s.condition = .initial ∧ s.weather = some exCalm ∧
    s.model = modelOf (hookeCable 1000000) ⟨60, .loadStrain⟩ ⟨0, .loadStrain, 0⟩ ∧
    (∃ z, s.base.stretchCreep = ⟨60, .creep, z⟩) ∧
    ∃ x, s.catenary = levelSpan 100 1 x ∧ |x - 70| ≤ 0.01 := by
  obtain ⟨b, h1, h2, h3, h4, h5, h6, h7⟩ := hung_base (s := exReloader.base) rfl
  obtain ⟨r, k1, k2⟩ := hung_reload (t := .loadStrain) (t' := .loadStrain) (by decide) (by decide) ⟨0, .loadStrain, 0⟩
    ⟨0, .loadStrain, 0⟩ rfl rfl
  have u1 : exReloader.updateBase = .ok { exReloader with base := b } true := by
    have : exReloader.updateBase = exReloader.base.update.mapState fun b => { exReloader with base := b } := rfl
    rw [this, h1]
    rfl
  have u2 : ({ exReloader with base := b } : LineReloader).updateModel = .ok { exReloader with
      base := b
      model := modelOf (hookeCable 1000000) ⟨60, .loadStrain⟩ ⟨0, .loadStrain, 0⟩
      updatedModel := true } true := by
    have : ({ exReloader with base := b } : LineReloader).modelValue =
        .val (some (modelOf (hookeCable 1000000) ⟨60, .loadStrain⟩ ⟨0, .loadStrain, 0⟩)) := by
      unfold LineReloader.modelValue
      have e : ({ exReloader with base := b } : LineReloader).base.lineCable = some exHung := h2
      rw [e]
      rfl
    unfold LineReloader.updateModel
    rw [this]
  have u3 : ∀ x : LineReloader, x.base = b → x.weather = some exCalm →
      x.model = modelOf (hookeCable 1000000) ⟨60, .loadStrain⟩ ⟨0, .loadStrain, 0⟩ →
      x.updateReloaded = .ok { x with catenary := r.catenaryReloaded, updatedCatenary := true } true := by
    intro x e1 e2 e3
    have : x.catenaryValue = .val (some r.catenaryReloaded) := by
      unfold LineReloader.catenaryValue
      rw [e1, h2, e2, e3]
      simp only
      rw [exHung_load]
      simp only
      rw [h3, h4, k1]
    unfold LineReloader.updateReloaded
    rw [this]
  unfold LineReloader.update
  rw [u1]
  simp only [Run.bind]
  rw [if_neg (by decide), if_neg (by show ¬ false = true; decide), u2]
  simp only
  rw [if_neg (by decide), if_neg (by show ¬ false = true; decide), u3 _ rfl rfl rfl]
  exact ⟨_, rfl, h3, h2, rfl, rfl, rfl, h7, k2⟩

/-! ## C116 -/

/-- **C116**, reloading.  Whatever calls of setters, queries and `Validate` led to a line cable reloader, its answers
are those of a new reloader with the same line cable, condition and weather case: the same values, the same failures,
exceptions and undefined behaviours. -/
theorem C116_reloader {ks : List LineReloader.Call} {s : LineReloader} (h : LineReloader.run .new ks = some s) :
    let n := ((LineReloader.new.setLineCable s.base.lineCable).setCondition s.condition).setWeather s.weather
    s.catenaryReloaded.result = n.catenaryReloaded.result ∧
    s.stateReloaded.result = n.stateReloaded.result ∧
    s.tensionHorizontal.result = n.tensionHorizontal.result ∧
    (∀ t, (s.tensionAverageComponent t).result = (n.tensionAverageComponent t).result) ∧
    (∀ t, (s.tensionHorizontalComponent t).result = (n.tensionHorizontalComponent t).result) ∧
    s.stretchCreep.result = n.stretchCreep.result ∧
    s.stretchLoad.result = n.stretchLoad.result ∧
    ∀ heap, (s.validate heap).result = (n.validate heap).result := by
  intro n
  have hs : s.Sound := LineReloader.run_sound (LineReloader.fresh_sound .new) ks h
  have hn : n.Sound := LineReloader.fresh_sound s
  have q : ∀ {A : Type} (d : A) (f : LineReloader → Res A), (s.ask d f).result = (n.ask d f).result := fun d f =>
    (LineReloader.ask_rel hs hn rfl rfl rfl d f).result
  exact ⟨q _ _, q _ _, q _ _, fun t => q _ _, fun t => q _ _, q _ _, q _ _, fun heap =>
    (LineReloader.validate_rel heap hs hn rfl rfl rfl).result⟩

/-- A reloader with a history of other settings, a failed query and a validation answers as the new one: a tension
of 70, within the tolerance. -/
example : ∃ s, LineReloader.run .new [.setLineCable (some exSection), .setLineCable (some exHung), .setCondition .load,
      .setWeather (some exCalm), .setCondition .initial, .query] = some s ∧
    ∃ x, s.tensionHorizontal.result = some (.val x) ∧ |x - 70| ≤ 0.01 := by
  obtain ⟨s, h1, -, q1, q2, q3, -, -, x, hx, h2⟩ := hung_reloads
  have e : exReloader.ask Catenary3d.new (fun s => .val s.catenary) = .ok s s.catenary := by
    unfold LineReloader.ask
    rw [if_neg (by decide), h1]
    rfl
  have hr : LineReloader.run .new [.setLineCable (some exSection), .setLineCable (some exHung), .setCondition .load,
      .setWeather (some exCalm), .setCondition .initial, .query] = some s := by
    have : LineReloader.run .new [.setLineCable (some exSection), .setLineCable (some exHung), .setCondition .load,
      .setWeather (some exCalm), .setCondition .initial, .query] =
      (exReloader.ask Catenary3d.new (fun s => .val s.catenary)).state?.bind fun s => some s := rfl
    rw [this, e]
    rfl
  refine ⟨s, hr, x, ?_, h2⟩
  have n := (C116_reloader hr).2.2.1
  rw [n, q1, q2, q3]
  show (exReloader.ask _ _).result = _
  unfold LineReloader.ask
  rw [if_neg (by decide), h1]
  show some (Res.val s.catenary.tensionHorizontal) = _
  rw [hx]
  rfl

/-- **C116**, unloading. -/
theorem C116_unloader {ks : List LineUnloader.Call} {s : LineUnloader} (h : LineUnloader.run .new ks = some s) :
    let n := (((LineUnloader.new.setLineCable s.base.lineCable).setCondition s.condition).setSpacing
      s.spacing).setTemperature s.temperature
    s.lengthUnloaded.result = n.lengthUnloaded.result ∧
    s.stretchCreep.result = n.stretchCreep.result ∧
    s.stretchLoad.result = n.stretchLoad.result ∧
    ∀ heap, (s.validate heap).result = (n.validate heap).result := by
  intro n
  have hs : s.Sound := LineUnloader.run_sound (LineUnloader.fresh_sound .new) ks h
  have hn : n.Sound := LineUnloader.fresh_sound s
  have q : ∀ {A : Type} (d : A) (f : LineUnloader → Res A), (s.ask d f).result = (n.ask d f).result := fun d f =>
    (LineUnloader.ask_rel hs hn rfl rfl rfl rfl d f).result
  exact ⟨q _ _, q _ _, q _ _, fun heap => (LineUnloader.validate_rel heap hs hn rfl rfl rfl rfl).result⟩

/-! ## C117 -/

/-- After a query that does not give its failure value the object is up to date, and the answer is read from it. -/
theorem asked_updated {A : Type} {s : LineReloader} (hs : s.Sound) {d z : A} {f : LineReloader → Res A}
    (h : (s.ask d f).result = some (.val z)) (hz : z ≠ d) :
    ∃ t, s.update = .ok t true ∧ t.isUpdated = true ∧ LineReloader.Keeps s t ∧ f t = .val z := by
  rw [LineReloader.ask_eq] at h
  obtain ⟨k1, k2⟩ := LineReloader.update_sound hs
  generalize hu : s.update = o at h k1 k2
  match o with
  | .ok t true =>
    refine ⟨t, rfl, k2 t rfl, k1 t rfl, ?_⟩
    have h : (Run.ofRes t (f t)).result = some (.val z) := h
    generalize f t = r at h
    match r with
    | .val a => cases h; rfl
    | .throws => cases h
    | .ub => cases h
  | .ok t false => cases h; exact absurd rfl hz
  | .throws t => cases h
  | .ub => cases h
  | .nan => cases h

theorem updated_ask {A : Type} {s t : LineReloader} (h : s.update = .ok t true) (d : A) (f : LineReloader → Res A) :
    (s.ask d f).result = (Run.ofRes t (f t)).result := by
  rw [LineReloader.ask_eq, h]
  rfl

/-- A validated reload has been updated. -/
theorem validate_update {r r' : CatenaryReloader} (h : r.validate = .ok r' true) : r.update = .ok r' true := by
  unfold CatenaryReloader.validate at h
  split at h
  · split at h
    · split_ifs at h with hc
      · exact h
      · cases h
    · cases h
    · cases h
  · cases h
  · cases h

/-- The stretch a cable has in a condition, given the stretch of the creep and of the load weather case. -/
noncomputable def conditionStretch (d : CableCondition) (creep load : CableStretchState) : CableStretchState :=
  match d with
  | .creep => creep
  | .load => load
  | _ => ⟨0, .loadStrain, 0⟩

/-- `z` is the stretch the cable of `c` gets in the weather case `a`: the average tension when the constraint's
catenary, with the cable in the constraint's condition, is reloaded in that weather.  A reload that fails is accepted
when the weather case belongs to the constraint's own condition. -/
def CausedBy (c : SectionCable) (k : Cable) (K : Catenary3d) (ref : ElongationModel) (own : Prop) (a : WeatherLoadCase)
    (ty : PolynomialType) (z : CableStretchState) : Prop :=
  z.temperature = a.temperatureCable ∧ z.type = ty ∧ ∃ v, c.unitLoad (some a) = .val v ∧
    ((own ∧ ∃ r, (CatenaryReloader.given K ref (modelOf k ⟨a.temperatureCable, ty⟩ ⟨a.temperatureCable, ty, 0⟩) v).update =
        .ok r false) ∨
      ∃ r, (CatenaryReloader.given K ref (modelOf k ⟨a.temperatureCable, ty⟩ ⟨a.temperatureCable, ty, 0⟩) v).update =
        .ok r true ∧ |r.catenaryReloaded.tensionAverage - z.load| ≤ 0.01 ∧
          (¬ own → z.load = r.catenaryReloaded.tensionAverage))

/-- **C117**. The stretch states reported by a line cable reloader, after any history, are a solution of their defining
equations within 0.01: when the constraint's ruling span, with the cable in the condition of the constraint (and so
with one of the reported stretches, if the condition is creep or load), is reloaded in the creep or load weather, the
average tension is the reported stretch load.

Not covered: when the condition of the constraint is creep or load, the search for the stretch takes a failing reload
for its end, and what it reports then need not satisfy the equation. -/
theorem C117_stretch_partial {ks : List LineReloader.Call} {s : LineReloader} (h : LineReloader.run .new ks = some s)
    {zc zl : CableStretchState} (hc : s.stretchCreep.result = some (.val zc)) (h0 : zc ≠ .new)
    (hl : s.stretchLoad.result = some (.val zl)) :
    ∃ c k w a b K, s.base.lineCable = some c ∧ c.cable = some k ∧ c.constraint.caseWeather = some w ∧
      c.weatherCreep = some a ∧ c.weatherLoad = some b ∧ c.catenaryRulingSpan = .val K ∧
      let ref := modelOf k ⟨w.temperatureCable, .loadStrain⟩ (conditionStretch c.constraint.condition zc zl)
      CausedBy c k K ref (c.constraint.condition = .creep) a .creep zc ∧
      CausedBy c k K ref (c.constraint.condition = .load) b .loadStrain zl := by
  have hs : s.Sound := LineReloader.run_sound (LineReloader.fresh_sound .new) ks h
  obtain ⟨t, hu, ht, hk, e⟩ := asked_updated hs hc h0
  have e : t.base.stretchCreep = zc := by cases e; rfl
  have e' : t.base.stretchLoad = zl := by
    have := updated_ask hu CableStretchState.new fun s => .val s.base.stretchLoad
    have hl : (s.ask CableStretchState.new fun s => .val s.base.stretchLoad).result = some (.val zl) := hl
    rw [this] at hl
    cases hl; rfl
  have hb : t.base.updatedStretch = true := by
    unfold LineReloader.isUpdated LineLoader.isUpdated at ht
    simp only [Bool.and_eq_true] at ht
    exact ht.1.1.2
  obtain ⟨c, k, w, a, b, f1, f2, f3, f4, f5, f6, f7, f8, f9, f10, f11⟩ :=
    LineLoader.update_facts (hk.1.base hb).2
  have f1 : t.base.lineCable = some c := f1
  rw [e] at f9
  rw [e'] at f10
  -- the model of the constraint
  have hm : t.base.modelConstraint =
      modelOf k ⟨w.temperatureCable, .loadStrain⟩ (conditionStretch c.constraint.condition zc zl) := by
    cases hd : c.constraint.condition with
    | null => exact absurd hd f6
    | initial => exact f11 hd
    | creep =>
      rw [if_pos hd] at f9
      obtain ⟨v, x, _, _, g, _⟩ := f9
      exact g
    | load =>
      rw [if_pos hd] at f10
      obtain ⟨v, x, _, _, g, _⟩ := f10
      exact g
  have bal : ∀ {own : Prop} {ty : PolynomialType} {a' : WeatherLoadCase} {z : CableStretchState}, own →
      LineLoader.Balances t.base c k ⟨w.temperatureCable, .loadStrain⟩ ⟨a'.temperatureCable, ty⟩ (some a') z →
      CausedBy c k t.base.catenary t.base.modelConstraint own a' ty z := by
    rintro own ty a' z ho ⟨v, x, g1, rfl, g3, g4⟩
    refine ⟨rfl, rfl, v, g1, ?_⟩
    unfold averageReloaded at g4
    simp only at g4
    generalize (CatenaryReloader.given t.base.catenary t.base.modelConstraint
      (modelOf k ⟨a'.temperatureCable, ty⟩ ⟨a'.temperatureCable, ty, 0⟩) v).update = o at g4 ⊢
    match o, g4 with
    | .ok r true, g4 =>
      rcases g4 with g4 | ⟨y, g4, g5⟩
      · cases g4
      · cases g4; exact Or.inr ⟨r, rfl, g5, fun hn => absurd ho hn⟩
    | .ok r false, _ => exact Or.inl ⟨ho, r, rfl⟩
    | .throws _, g4 => rcases g4 with g4 | ⟨y, g4, g5⟩ <;> cases g4
    | .ub, g4 => rcases g4 with g4 | ⟨y, g4, g5⟩ <;> cases g4
  have str : ∀ {own : Prop} {ty : PolynomialType} {a' : WeatherLoadCase} {z : CableStretchState},
      LineLoader.Stretches t.base c (modelOf k ⟨a'.temperatureCable, ty⟩ ⟨a'.temperatureCable, ty, 0⟩) (some a') z →
      CausedBy c k t.base.catenary t.base.modelConstraint own a' ty z := by
    rintro own ty a' z ⟨v, r, g1, g2, rfl⟩
    refine ⟨rfl, rfl, v, g1, Or.inr ⟨r, validate_update g2, ?_, fun _ => rfl⟩⟩
    simp
    norm_num
  refine ⟨c, k, w, a, b, t.base.catenary, by rw [← hk.2.1]; exact f1, f2, f3, f4, f5, f7, ?_⟩
  rw [← hm]
  constructor
  · by_cases hd : c.constraint.condition = .creep
    · rw [if_pos hd] at f9; exact bal hd f9
    · rw [if_neg hd] at f9; exact str f9
  · by_cases hd : c.constraint.condition = .load
    · rw [if_pos hd] at f10; exact bal hd f10
    · rw [if_neg hd] at f10; exact str f10

theorem exReloader_run : LineReloader.run .new
    [.setLineCable (some exHung), .setCondition .initial, .setWeather (some exCalm)] = some exReloader := rfl

/-- The theorem applies to the example. -/
example : ∃ zc zl, exReloader.stretchCreep.result = some (.val zc) ∧ zc ≠ .new ∧
    exReloader.stretchLoad.result = some (.val zl) := by
  obtain ⟨s, h1, -, -, -, -, -, ⟨z, hz⟩, -⟩ := hung_reloads
  refine ⟨_, _, updated_ask h1 _ _, ?_, updated_ask h1 _ _⟩
  rw [hz]
  intro e
  have := congrArg CableStretchState.type e
  cases this

/-! ## C118 -/

/-- The loads of the parts at the strain of the whole cable. -/
theorem part_loads {t : LineReloader} {k : Cable} {st : CableState} {z : CableStretchState}
    (hm : t.model = modelOf k st z) {a : ℝ} (ha : t.partLoad .combined = .val a) :
    ∃ b c, t.partLoad .core = .val b ∧ t.partLoad .shell = .val c ∧ a = b + c ∧
      ∀ x m, t.model.strain .combined t.catenary.tensionAverage = .ok m x → x ≠ -999999 →
        |a - t.catenary.tensionAverage| ≤ 0.01 ∨ t.catenary.tensionAverage ≤ a := by
  have G : Good k t.model := by
    rw [hm]
    exact good_flags_false (attach_att k ElongationModel.new k rfl) rfl rfl
  have hk : t.model.cable = some k := by rw [hm]; rfl
  unfold LineReloader.partLoad at ha ⊢
  rcases G.strain hk .combined t.catenary.tensionAverage with ⟨o, x, m, h1, h2, h3, G', S⟩ | ⟨-, h3⟩ | ⟨-, h3⟩
  · rw [h3] at ha ⊢
    simp only at ha ⊢
    have hk' : m.cable = some k := S.1.trans hk
    have ans : ∀ p, ∃ m', m.load p x = .ok m' (partOf CableComponent.load k t.model.state o x p) := by
      intro p
      rcases G'.ask hk' CableComponent.load p x with ⟨o', m', e1, e2, -⟩ | ⟨e1, e2⟩
      · rw [S.2.1, S.2.2, h1] at e1
        cases e1
        rw [S.2.1] at e2
        exact ⟨m', e2⟩
      · rw [S.2.1, S.2.2, h1] at e1
        cases e1
    obtain ⟨m1, e1⟩ := ans .combined
    obtain ⟨m2, e2⟩ := ans .core
    obtain ⟨m3, e3⟩ := ans .shell
    rw [e1] at ha
    cases ha
    refine ⟨partOf CableComponent.load k t.model.state o x .core, partOf CableComponent.load k t.model.state o x .shell,
      by rw [e2], by rw [e3], rfl, ?_⟩
    intro x' m' he hx
    cases he
    have h3' : (((ElongationModel.new.setCable (some k)).setStretch z).setState st).strain .combined
        t.catenary.tensionAverage = .ok m x := by
      rw [← h3, hm]; rfl
    obtain ⟨y, g1, g2⟩ := C89_strain_first h3' hx
    rw [e1] at g1
    cases g1
    exact g2
  · rw [h3] at ha; cases ha
  · rw [h3] at ha; cases ha

theorem updated_model {t : LineReloader} (hs : t.Sound) (ht : t.isUpdated = true) :
    ∃ k w, t.base.lineCable.bind (·.cable) = some k ∧ t.weather = some w ∧ t.model = modelOf k
      ⟨w.temperatureCable, .loadStrain⟩ (conditionStretch t.condition t.base.stretchCreep t.base.stretchLoad) := by
  unfold LineReloader.isUpdated at ht
  simp only [Bool.and_eq_true] at ht
  have := hs.model ht.1.1 ht.1.2
  unfold LineReloader.modelValue at this
  split at this
  · cases this
  · rename_i w hw
    split at this
    · cases this
    · rename_i z hz
      split at this
      · cases this
      · rename_i k hk
        refine ⟨k, w, hk, hw, ?_⟩
        have e : z = conditionStretch t.condition t.base.stretchCreep t.base.stretchLoad := by
          unfold LineLoader.stretchOf at hz
          unfold conditionStretch
          split at hz <;> cases hz <;> simp_all
        rw [← e]
        simpa using this.symm

/-- **C118**. The average tensions reported for the core and the shell after a reload, with any history, add up to the
one reported for the whole cable, and so do the horizontal tensions. -/
theorem C118_sum {ks : List LineReloader.Call} {s : LineReloader} (h : LineReloader.run .new ks = some s) {a : ℝ}
    (ha : (s.tensionAverageComponent .combined).result = some (.val a)) (h0 : a ≠ -999999) :
    (∃ b c, (s.tensionAverageComponent .core).result = some (.val b) ∧
      (s.tensionAverageComponent .shell).result = some (.val c) ∧ a = b + c) ∧
    ∃ a' b' c', (s.tensionHorizontalComponent .combined).result = some (.val a') ∧
      (s.tensionHorizontalComponent .core).result = some (.val b') ∧
      (s.tensionHorizontalComponent .shell).result = some (.val c') ∧ a' = b' + c' := by
  have hs : s.Sound := LineReloader.run_sound (LineReloader.fresh_sound .new) ks h
  obtain ⟨t, hu, ht, hk, e⟩ := asked_updated hs ha h0
  obtain ⟨k, w, -, -, hm⟩ := updated_model hk.1 ht
  obtain ⟨b, c, e1, e2, e3, -⟩ := part_loads hm e
  have avg : ∀ p y, t.partLoad p = .val y → (s.tensionAverageComponent p).result = some (.val y) := by
    intro p y hy
    have := updated_ask hu (-999999) fun s => s.partLoad p
    rw [hy] at this
    exact this
  have hor : ∀ p y, t.partLoad p = .val y → (s.tensionHorizontalComponent p).result =
      some (.val (y * (t.catenary.tensionHorizontal / t.catenary.tensionAverage))) := by
    intro p y hy
    have := updated_ask hu (-999999) fun s =>
      match s.partLoad p with
      | .val y => .val (y * (s.catenary.tensionHorizontal / s.catenary.tensionAverage))
      | .throws => .throws
      | .ub => .ub
    rw [hy] at this
    exact this
  refine ⟨⟨b, c, avg _ _ e1, avg _ _ e2, e3⟩, _, _, _, hor _ _ e, hor _ _ e1, hor _ _ e2, ?_⟩
  rw [e3]; ring

/-- **C118**. The average tension reported for the whole cable is that of the reloaded catenary within 0.01.

Not covered: a search for the strain that has failed (a strain of -999999), and average tensions below the smallest
load the elongation model considers, where the reported value is larger. -/
theorem C118_average_partial {ks : List LineReloader.Call} {s : LineReloader} (h : LineReloader.run .new ks = some s)
    {a : ℝ} (ha : (s.tensionAverageComponent .combined).result = some (.val a)) (h0 : a ≠ -999999) :
    ∃ K st zc zl k, s.catenaryReloaded.result = some (.val K) ∧ s.stateReloaded.result = some (.val st) ∧
      s.stretchCreep.result = some (.val zc) ∧ s.stretchLoad.result = some (.val zl) ∧
      (s.base.lineCable.bind (·.cable)) = some k ∧
      ∀ x m, (modelOf k st (conditionStretch s.condition zc zl)).strain .combined K.tensionAverage = .ok m x →
        x ≠ -999999 → |a - K.tensionAverage| ≤ 0.01 ∨ K.tensionAverage ≤ a := by
  have hs : s.Sound := LineReloader.run_sound (LineReloader.fresh_sound .new) ks h
  obtain ⟨t, hu, ht, hk, e⟩ := asked_updated hs ha h0
  obtain ⟨k, w, hc, -, hm⟩ := updated_model hk.1 ht
  obtain ⟨b, c, e1, e2, e3, e4⟩ := part_loads hm e
  refine ⟨t.catenary, t.model.state, t.base.stretchCreep, t.base.stretchLoad, k, updated_ask hu _ _, updated_ask hu _ _,
    updated_ask hu _ _, updated_ask hu _ _, by rw [← hk.2.1]; exact hc, ?_⟩
  have : modelOf k t.model.state (conditionStretch s.condition t.base.stretchCreep t.base.stretchLoad) = t.model := by
    rw [← hk.2.2.1, hm]
    rfl
  rw [this]
  exact e4

/-- The tensions of the example: the reported average tension is that of the reloaded catenary. -/
theorem hung_parts : ∃ K a, exReloader.catenaryReloaded.result = some (.val K) ∧
    (exReloader.tensionAverageComponent .combined).result = some (.val a) ∧ a = K.tensionAverage ∧ 0 < a := by
  obtain ⟨s, h1, -, -, -, -, hm, -, x, hx, hd⟩ := hung_reloads
  obtain ⟨d1, d2⟩ := abs_le.1 hd
  obtain ⟨t1, t2⟩ := levelSpan_tension (s := 100) (w := 1) (h := x) (by norm_num) (by norm_num)
    (by norm_num at d1 d2 ⊢; linarith)
  have t3 : (levelSpan 100 1 x).tensionAverage < 200 := by norm_num at d1 d2 t2; linarith
  have t4 : 0 < (levelSpan 100 1 x).tensionAverage := by norm_num at d1 d2; linarith
  have hp : s.partLoad .combined = .val s.catenary.tensionAverage := by
    have G := hung_good ⟨60, .loadStrain⟩ ⟨0, .loadStrain, 0⟩
    have hs := hung_like (s := ⟨60, .loadStrain⟩) (t := ⟨0, .loadStrain, 0⟩) (by decide) rfl _ t4.le t3
    unfold strainThrough at hs
    simp only at hs
    unfold LineReloader.partLoad
    rw [hm, hx]
    rcases G.strain rfl .combined (levelSpan 100 1 x).tensionAverage with ⟨o, y, m, g1, g2, g3, G', S⟩ | ⟨-, g3⟩ | ⟨-, g3⟩
    · rw [g3] at hs ⊢
      simp only at hs ⊢
      cases hs
      have g1 := (hooke_known (e := 1000000) (s := ⟨60, .loadStrain⟩) (ss := ⟨0, .loadStrain, 0⟩) (by norm_num) (by decide)
        rfl)
      rcases G'.ask (S.1.trans rfl) CableComponent.load .combined
        ((levelSpan 100 1 x).tensionAverage / (2 * 1000000)) with ⟨o', m', e1, e2, -⟩ | ⟨e1, e2⟩
      · rw [S.2.1, S.2.2] at e1
        cases g1.symm.trans e1
        rw [S.2.1] at e2
        have e2 : m.load .combined ((levelSpan 100 1 x).tensionAverage / (2 * 1000000)) = .ok m'
          (bothOf CableComponent.load (hookeCable 1000000) ⟨60, .loadStrain⟩ _ _) := e2
        rw [hooke_both (by norm_num) (by decide) (by positivity) (by norm_num; linarith)] at e2
        rw [e2]
        simp only
        congr 1
        ring
      · rw [S.2.1, S.2.2] at e1
        cases g1.symm.trans e1
    · rw [g3] at hs; cases hs
    · rw [g3] at hs; cases hs
  refine ⟨s.catenary, s.catenary.tensionAverage, updated_ask h1 _ _, ?_, rfl, by rw [hx]; exact t4⟩
  have := updated_ask h1 (-999999) fun s => s.partLoad .combined
  rw [hp] at this
  exact this

/-- The theorems C118 apply to the example. -/
example : ∃ a b c, (exReloader.tensionAverageComponent .combined).result = some (.val a) ∧
    (exReloader.tensionAverageComponent .core).result = some (.val b) ∧
    (exReloader.tensionAverageComponent .shell).result = some (.val c) ∧ a = b + c ∧ 0 < a := by
  obtain ⟨K, a, h1, h2, h3, h4⟩ := hung_parts
  obtain ⟨⟨b, c, e1, e2, e3⟩, -⟩ := C118_sum exReloader_run h2 (by linarith)
  exact ⟨a, b, c, h2, e1, e2, e3, h4⟩

end Verif.Props
