import Verif.Props.LineSagger
import Verif.Props.StretchUndefined

/-! # Parts that are valid but do not go together give no figures (C168) -/

set_option linter.unusedSectionVars false

namespace Verif.Props

open Verif

/-! ## A line cable that cannot be loaded -/

/-- A line cable strung with a tension of 75 is accepted. -/
theorem taut_accepted (heap : Heap ℝ) :
    (exTaut .initial).validate heap = .val (true, ["Not enough connections"]) := by
  have hv : (levelSpan 100 1 75).validate.1 = true := level_valid (by norm_num) (by norm_num) (by norm_num)
  unfold SectionCable.validate
  rw [taut_members (by decide)]
  simp only [Bool.true_eq_false, if_false]
  rw [taut_ruling]
  simp [SectionCable.validateConnections, exTaut, hv, (honest_catenary3d _).mp hv]

/-- The stretch of its creep weather case is not found. -/
theorem taut_fails {s : LineLoader} (hc : s.lineCable = some (exTaut .initial)) : ∃ s', s.update = .ok s' false := by
  have hv : (levelSpan 100 1 75).validate.1 = true := level_valid (by norm_num) (by norm_num) (by norm_num)
  obtain ⟨r, hr⟩ := level_stuck (hung_like (s := ⟨60, .loadStrain⟩) (t := ⟨0, .loadStrain, 0⟩) (by decide) rfl)
    (hung_like (s := ⟨60, .creep⟩) (t := ⟨60, .creep, 0⟩) (by decide) rfl)
  have h1 : (CatenaryReloader.given (levelSpan 100 1 75) (modelOf (hookeCable 1000000) ⟨60, .loadStrain⟩
      ⟨0, .loadStrain, 0⟩) (modelOf (hookeCable 1000000) ⟨60, .creep⟩ ⟨60, .creep, 0⟩) ⟨0, 0, 1⟩).validate =
      .ok r false := by
    unfold CatenaryReloader.validate
    generalize hg : CatenaryReloader.given (levelSpan 100 1 75) (modelOf (hookeCable 1000000) ⟨60, .loadStrain⟩
      ⟨0, .loadStrain, 0⟩) (modelOf (hookeCable 1000000) ⟨60, .creep⟩ ⟨60, .creep, 0⟩) ⟨0, 0, 1⟩ = g at hr
    have e1 : g.modelReference = some (modelOf (hookeCable 1000000) ⟨60, .loadStrain⟩ ⟨0, .loadStrain, 0⟩) := by
      rw [← hg]; rfl
    have e2 : g.modelReloaded = some (modelOf (hookeCable 1000000) ⟨60, .creep⟩ ⟨60, .creep, 0⟩) := by rw [← hg]; rfl
    have e3 : g.catenary = some (levelSpan 100 1 75) := by rw [← hg]; rfl
    have e4 : g.weight = some ⟨0, 0, 1⟩ := by rw [← hg]; rfl
    have v2 : CatenaryReloader.validWeight (some ⟨0, 0, 1⟩) = true := by unfold CatenaryReloader.validWeight; norm_num
    have v1 : CatenaryReloader.validCatenary (some (levelSpan 100 1 75)) = true := hv
    rw [e1, e2, e3, e4, hung_valid (by decide) (calm_state (by decide)) rfl,
      hung_valid (by decide) (calm_state (by decide)) rfl, v1, v2]
    exact hr
  have a1 : s.updateCatenary (exTaut .initial) = .ok { s with catenary := levelSpan 100 1 75 } true := by
    unfold LineLoader.updateCatenary
    rw [taut_ruling]
    simp only
    rw [if_pos hv]
  have a3 : ∀ x : LineLoader, x.catenary = levelSpan 100 1 75 →
      x.modelConstraint = modelOf (hookeCable 1000000) ⟨60, .loadStrain⟩ ⟨0, .loadStrain, 0⟩ →
      x.modelCreep = modelOf (hookeCable 1000000) ⟨60, .creep⟩ ⟨60, .creep, 0⟩ →
      x.updateLoadStretch (exTaut .initial) = .ok x false := by
    intro x e1 e2 e3
    have b1 : x.updateStretchCreep (exTaut .initial) = .ok x false := by
      have q : x.solveStretch (exTaut .initial) x.modelCreep (exTaut .initial).weatherCreep = .val none := by
        unfold LineLoader.solveStretch
        have : (exTaut .initial).unitLoad (exTaut .initial).weatherCreep = .val ⟨0, 0, 1⟩ := taut_load .initial
        rw [this, e1, e2, e3]
        simp only
        rw [h1]
      unfold LineLoader.updateStretchCreep
      rw [if_neg (by decide), q]
    unfold LineLoader.updateLoadStretch
    rw [b1]
    rfl
  have a2 : ∀ x : LineLoader, x.initModels (exTaut .initial) = .ok { x with
      modelConstraint := modelOf (hookeCable 1000000) ⟨60, .loadStrain⟩ ⟨0, .loadStrain, 0⟩
      modelCreep := modelOf (hookeCable 1000000) ⟨60, .creep⟩ ⟨60, .creep, 0⟩
      modelLoad := modelOf (hookeCable 1000000) ⟨60, .loadStrain⟩ ⟨60, .loadStrain, 0⟩ } true := fun x => rfl
  have a4 : ∀ x : LineLoader, x.updateConstraintModel (exTaut .initial) = .ok x true := fun x => rfl
  unfold LineLoader.update
  rw [hc]
  simp only
  rw [a1]
  simp only [Run.bind]
  rw [if_neg (by decide), a2]
  simp only
  rw [a4]
  simp only
  rw [if_neg (by decide)]
  erw [a3 _ rfl rfl rfl]
  exact ⟨_, rfl⟩

theorem taut_parts (heap : Heap ℝ) {s : LineLoader} (hc : s.lineCable = some (exTaut .initial)) :
    s.validMembers heap = .val true := by
  unfold LineLoader.validMembers
  rw [hc]
  simp only
  rw [taut_accepted]
  have : (exTaut .initial).cable = some (hookeCable 1000000) := rfl
  rw [this]
  simp only
  rw [hooke_valid.1]
  rfl

/-- A reloader for it. -/
noncomputable def exTautReloader : LineReloader :=
  ((LineReloader.new.setLineCable (some (exTaut .initial))).setCondition .initial).setWeather (some exCalm)

theorem taut_rejected (heap : Heap ℝ) : ∃ t, exTautReloader.validate heap = .ok t false := by
  obtain ⟨b, hb⟩ := taut_fails (s := exTautReloader.base) rfl
  have u1 : exTautReloader.updateBase = .ok { exTautReloader with base := b } false := by
    have : exTautReloader.updateBase = exTautReloader.base.update.mapState fun b => { exTautReloader with base := b } :=
      rfl
    rw [this, hb]
    rfl
  have u2 : exTautReloader.update = .ok { exTautReloader with base := b } false := by
    unfold LineReloader.update
    rw [u1]
    rfl
  unfold LineReloader.validate LineReloader.validateBase
  rw [taut_parts heap (s := exTautReloader.base) rfl]
  have : (Run.ofRes exTautReloader (.val true)).bind (fun s b => if b = true then s.update else .ok s false) =
    exTautReloader.update := rfl
  rw [this, u2]
  exact ⟨_, rfl⟩

/-! ## Reloader -/

/-- A call that sets nothing. -/
def LineReloaderAsks : LineReloader.Call → Prop
  | .query => True
  | .validate _ => True
  | _ => False

theorem reloader_asks_keeps {s u : LineReloader} (h : s.Sound) (ks : List LineReloader.Call)
    (hk : ∀ k ∈ ks, LineReloaderAsks k) (hr : LineReloader.run s ks = some u) : LineReloader.Keeps s u := by
  induction ks generalizing s with
  | nil => cases hr; exact LineReloader.Keeps.rfl h
  | cons k ks ih =>
    unfold LineReloader.run at hr
    rw [Option.bind_eq_some_iff] at hr
    obtain ⟨v, h1, h2⟩ := hr
    have hv : LineReloader.Keeps s v := by
      have := hk k (by simp)
      cases k with
      | query => exact LineReloader.ask_sound h _ _ v h1
      | validate heap => exact LineReloader.validate_sound heap h v h1
      | setLineCable c => exact absurd this (by simp [LineReloaderAsks])
      | setCondition c => exact absurd this (by simp [LineReloaderAsks])
      | setWeather c => exact absurd this (by simp [LineReloaderAsks])
    exact hv.trans (ih hv.1 (fun k hk' => hk k (by simp [hk'])) h2)

/-- A rejection of a reloader whose parts are valid means that the update failed. -/
theorem reloader_rejected {s t : LineReloader} (h : s.Sound) {heap : Heap ℝ} (hv : s.validate heap = .ok t false)
    (hm : s.base.validMembers heap = .val true) (hi : s.validInputs = true) : ∃ t, s.update = .ok t false := by
  unfold LineReloader.validate LineReloader.validateBase at hv
  rw [hm] at hv
  have hv : (s.update).bind (fun s b => if (b && s.validInputs) = true then s.update else .ok s false) = .ok t false := hv
  obtain ⟨t1, b, e1, e2⟩ := Run.bind_ok hv
  cases b with
  | false => exact ⟨t1, e1⟩
  | true =>
    exfalso
    have hk : LineReloader.Keeps s t1 := (LineReloader.update_sound h).1 t1 (by rw [e1]; rfl)
    have hi' : t1.validInputs = true := by
      unfold LineReloader.validInputs at hi ⊢
      rw [hk.2.2.1, hk.2.2.2]
      exact hi
    rw [hi', if_pos (by rfl), LineReloader.update_updated ((LineReloader.update_sound h).2 t1 e1)] at e2
    cases e2

theorem reloader_silent {A : Type} {s t u : LineReloader} (h : s.Sound) (hs : s.update = .ok t false)
    (hk : LineReloader.Keeps s u) (d : A) (f : LineReloader → Res A) : (u.ask d f).result = some (.val d) := by
  have hr := LineReloader.update_rel h hk.1 hk.2.1.symm hk.2.2.1.symm hk.2.2.2.symm
  rw [hs] at hr
  rw [LineReloader.ask_eq]
  generalize u.update = o at hr ⊢
  match o with
  | .ok v b =>
    have : b = false := hr.1.symm
    subst this
    rfl
  | .throws _ => exact absurd hr (by intro h; exact h)
  | .ub => exact absurd hr (by intro h; exact h)
  | .nan => exact absurd hr (by intro h; exact h)

/-- **C168**. A line cable reloader, with any history, whose line cable, condition and weather case are valid but which is
rejected by `Validate` gives no figures: as long as nothing is set, whatever is asked, every query reports its failure
value. -/
theorem C168_reloader {calls : List LineReloader.Call} {s t u : LineReloader} (h : LineReloader.run .new calls = some s)
    {heap : Heap ℝ} (hv : s.validate heap = .ok t false) (hm : s.base.validMembers heap = .val true)
    (hi : s.validInputs = true) {ks : List LineReloader.Call} (hk : ∀ k ∈ ks, LineReloaderAsks k)
    (hr : LineReloader.run s ks = some u) :
    u.tensionHorizontal.result = some (.val (-999999)) ∧ u.catenaryReloaded.result = some (.val .new) ∧
    u.stateReloaded.result = some (.val .new) ∧ u.stretchCreep.result = some (.val .new) ∧
    u.stretchLoad.result = some (.val .new) ∧
    (∀ p, (u.tensionAverageComponent p).result = some (.val (-999999))) ∧
    (∀ p, (u.tensionHorizontalComponent p).result = some (.val (-999999))) := by
  have hs : s.Sound := LineReloader.run_sound (LineReloader.fresh_sound LineReloader.new) calls h
  obtain ⟨t1, e⟩ := reloader_rejected hs hv hm hi
  have hk := reloader_asks_keeps hs ks hk hr
  exact ⟨reloader_silent hs e hk _ _, reloader_silent hs e hk _ _, reloader_silent hs e hk _ _,
    reloader_silent hs e hk _ _, reloader_silent hs e hk _ _, fun p => reloader_silent hs e hk _ _,
    fun p => reloader_silent hs e hk _ _⟩

/-- A reloader of a line cable strung with a tension of 75 is rejected though its parts are valid; asked again and
again, it reports no tension. -/
example (heap : Heap ℝ) : ∃ s t u, LineReloader.run .new [.setLineCable (some (exTaut .initial)), .setCondition .initial,
      .setWeather (some exCalm)] = some s ∧ s.validate heap = .ok t false ∧
    LineReloader.run s [.query, .query, .query] = some u ∧ u.tensionHorizontal.result = some (.val (-999999)) := by
  obtain ⟨t, ht⟩ := taut_rejected heap
  have hi : exTautReloader.validInputs = true := by
    show ((if CableCondition.initial = .null then false else true) && exCalm.validate.1) = true
    simp [exCalm, WeatherLoadCase.validate]
    norm_num
  have hm : exTautReloader.base.validMembers heap = .val true := taut_parts heap rfl
  have hs : LineReloader.run .new [.setLineCable (some (exTaut .initial)), .setCondition .initial,
      .setWeather (some exCalm)] = some exTautReloader := rfl
  have hsound : exTautReloader.Sound := LineReloader.run_sound (LineReloader.fresh_sound LineReloader.new) _ hs
  obtain ⟨t1, e⟩ := reloader_rejected hsound ht hm hi
  have step : ∀ {x : LineReloader}, LineReloader.Keeps exTautReloader x → ∃ y,
      LineReloader.Call.next .query x = some y ∧ LineReloader.Keeps exTautReloader y := by
    intro x hx
    have h1 := reloader_silent hsound e hx Catenary3d.new (fun s => .val s.catenary)
    have h2 := LineReloader.ask_sound hx.1 Catenary3d.new (fun s => .val s.catenary)
    change ∃ y, (x.ask Catenary3d.new (fun s => .val s.catenary)).state? = some y ∧ _
    generalize x.ask Catenary3d.new (fun s => .val s.catenary) = o at h1 h2
    match o with
    | .ok y b => exact ⟨y, rfl, hx.trans (h2 y rfl)⟩
    | .throws _ => cases h1
    | .ub => cases h1
    | .nan => cases h1
  obtain ⟨y1, n1, k1⟩ := step (LineReloader.Keeps.rfl hsound)
  obtain ⟨y2, n2, k2⟩ := step k1
  obtain ⟨y3, n3, k3⟩ := step k2
  have hr : LineReloader.run exTautReloader [.query, .query, .query] = some y3 := by
    simp [LineReloader.run, n1, n2, n3]
  exact ⟨_, t, y3, hs, ht, hr, (C168_reloader hs ht hm hi (by simp [LineReloaderAsks]) hr).1⟩

/-! ## Unloader -/

/-- A call that sets nothing. -/
def LineUnloaderAsks : LineUnloader.Call → Prop
  | .query => True
  | .validate _ => True
  | _ => False

theorem unloader_asks_keeps {s u : LineUnloader} (h : s.Sound) (ks : List LineUnloader.Call)
    (hk : ∀ k ∈ ks, LineUnloaderAsks k) (hr : LineUnloader.run s ks = some u) : LineUnloader.Keeps s u := by
  induction ks generalizing s with
  | nil => cases hr; exact LineUnloader.Keeps.rfl h
  | cons k ks ih =>
    unfold LineUnloader.run at hr
    rw [Option.bind_eq_some_iff] at hr
    obtain ⟨v, h1, h2⟩ := hr
    have hv : LineUnloader.Keeps s v := by
      have := hk k (by simp)
      cases k with
      | query => exact LineUnloader.ask_sound h _ _ v h1
      | validate heap => exact LineUnloader.validate_sound heap h v h1
      | setLineCable c => exact absurd this (by simp [LineUnloaderAsks])
      | setCondition c => exact absurd this (by simp [LineUnloaderAsks])
      | setSpacing c => exact absurd this (by simp [LineUnloaderAsks])
      | setTemperature c => exact absurd this (by simp [LineUnloaderAsks])
    exact hv.trans (ih hv.1 (fun k hk' => hk k (by simp [hk'])) h2)

/-- A rejection of an unloader whose parts are valid means that the update failed. -/
theorem unloader_rejected {s t : LineUnloader} (h : s.Sound) {heap : Heap ℝ} (hv : s.validate heap = .ok t false)
    (hm : s.base.validMembers heap = .val true) (hi : s.validInputs = true) : ∃ t, s.update = .ok t false := by
  unfold LineUnloader.validate LineUnloader.validateBase at hv
  rw [hm] at hv
  have hv : (s.update).bind (fun s b => if (b && s.validInputs) = true then s.update else .ok s false) = .ok t false := hv
  obtain ⟨t1, b, e1, e2⟩ := Run.bind_ok hv
  cases b with
  | false => exact ⟨t1, e1⟩
  | true =>
    exfalso
    have hk : LineUnloader.Keeps s t1 := (LineUnloader.update_sound h).1 t1 (by rw [e1]; rfl)
    have hi' : t1.validInputs = true := by
      unfold LineUnloader.validInputs at hi ⊢
      rw [hk.2.2.1, hk.2.2.2.1, hk.2.2.2.2]
      exact hi
    rw [hi', if_pos (by rfl), LineUnloader.update_updated ((LineUnloader.update_sound h).2 t1 e1)] at e2
    cases e2

theorem unloader_silent {A : Type} {s t u : LineUnloader} (h : s.Sound) (hs : s.update = .ok t false)
    (hk : LineUnloader.Keeps s u) (d : A) (f : LineUnloader → Res A) : (u.ask d f).result = some (.val d) := by
  have hr := LineUnloader.update_rel h hk.1 hk.2.1.symm hk.2.2.1.symm hk.2.2.2.1.symm hk.2.2.2.2.symm
  rw [hs] at hr
  rw [LineUnloader.ask_eq]
  generalize u.update = o at hr ⊢
  match o with
  | .ok v b =>
    have : b = false := hr.1.symm
    subst this
    rfl
  | .throws _ => exact absurd hr (by intro h; exact h)
  | .ub => exact absurd hr (by intro h; exact h)
  | .nan => exact absurd hr (by intro h; exact h)

/-- **C168**. The same for a line cable unloader. -/
theorem C168_unloader {calls : List LineUnloader.Call} {s t u : LineUnloader} (h : LineUnloader.run .new calls = some s)
    {heap : Heap ℝ} (hv : s.validate heap = .ok t false) (hm : s.base.validMembers heap = .val true)
    (hi : s.validInputs = true) {ks : List LineUnloader.Call} (hk : ∀ k ∈ ks, LineUnloaderAsks k)
    (hr : LineUnloader.run s ks = some u) :
    u.lengthUnloaded.result = some (.val (-999999)) ∧ u.stretchCreep.result = some (.val .new) ∧
    u.stretchLoad.result = some (.val .new) := by
  have hs : s.Sound := LineUnloader.run_sound (LineUnloader.fresh_sound LineUnloader.new) calls h
  obtain ⟨t1, e⟩ := unloader_rejected hs hv hm hi
  have hk := unloader_asks_keeps hs ks hk hr
  exact ⟨unloader_silent hs e hk _ _, unloader_silent hs e hk _ _, unloader_silent hs e hk _ _⟩

/-- The unloader of that line cable reports no length. -/
example (heap : Heap ℝ) : ∃ s t, LineUnloader.run .new [.setLineCable (some (exTaut .initial)), .setCondition .initial,
      .setSpacing ⟨100, 0, 0⟩, .setTemperature 60] = some s ∧ s.validate heap = .ok t false ∧
    s.lengthUnloaded.result = some (.val (-999999)) ∧ t.lengthUnloaded.result = some (.val (-999999)) := by
  set s : LineUnloader := (((LineUnloader.new.setLineCable (some (exTaut .initial))).setCondition .initial).setSpacing
    ⟨100, 0, 0⟩).setTemperature 60 with hs
  have hr : LineUnloader.run .new [.setLineCable (some (exTaut .initial)), .setCondition .initial,
      .setSpacing ⟨100, 0, 0⟩, .setTemperature 60] = some s := rfl
  obtain ⟨b, hb⟩ := taut_fails (s := s.base) rfl
  have u1 : s.updateBase = .ok { s with base := b } false := by
    have : s.updateBase = s.base.update.mapState fun b => { s with base := b } := rfl
    rw [this, hb]
    rfl
  have u2 : s.update = .ok { s with base := b } false := by
    unfold LineUnloader.update
    rw [u1]
    rfl
  have hm : s.base.validMembers heap = .val true := taut_parts heap rfl
  have hv : s.validate heap = .ok { s with base := b } false := by
    unfold LineUnloader.validate LineUnloader.validateBase
    rw [hm]
    have : (Run.ofRes s (.val true)).bind (fun s b => if b = true then s.update else .ok s false) = s.update := rfl
    rw [this, u2]
    rfl
  have hi : s.validInputs = true := by
    unfold LineUnloader.validInputs
    refine decide_eq_true ⟨by show ¬ CableCondition.initial = .null; decide, ?_⟩
    show ¬ (100:ℝ) ≤ 0 ∧ ¬ (0:ℝ) ≠ 0 ∧ ¬ (2000:ℝ) < |0| ∧ ¬ (60:ℝ) < -50
    norm_num
  have ht : LineUnloader.run s [.validate heap] = some { s with base := b } := by
    have : LineUnloader.run s [.validate heap] = (s.validate heap).state?.bind fun s => some s := rfl
    rw [this, hv]
    rfl
  exact ⟨s, _, hr, hv, (C168_unloader hr hv hm hi (ks := []) (by simp) rfl).1,
    (C168_unloader hr hv hm hi (ks := [.validate heap]) (by simp [LineUnloaderAsks]) ht).1⟩

/-! ## Sagger -/

/-- The index depends on the constraints and the line cable without its limit. -/
theorem index_congr {s u : Sagger} {i : ℤ} {b : Bool} {t : Sagger} (h : s.updateIndex = .ok t b)
    (hq : u.constraints = s.constraints)
    (hc : s.lineCable = u.lineCable ∨ ∃ c c', s.lineCable = some c ∧ u.lineCable = some c' ∧ Sagger.Kin c c')
    (hi : t.index = i) : t = { s with index := i } ∧ u.updateIndex = .ok { u with index := i } b := by
  unfold Sagger.updateIndex at h ⊢
  rw [hq]
  cases hqs : s.constraints with
  | none => rw [hqs] at h; cases h
  | some qs =>
    rw [hqs] at h
    simp only at h ⊢
    by_cases hl : qs.length = 1
    · rw [if_pos hl] at h ⊢
      cases h
      subst hi
      exact ⟨rfl, rfl⟩
    · rw [if_neg hl] at h ⊢
      cases hsc : s.lineCable with
      | none => rw [hsc] at h; cases h
      | some c =>
        obtain ⟨c', hc', ht⟩ : ∃ c', u.lineCable = some c' ∧ Sagger.tensionOf c' = Sagger.tensionOf c := by
          rcases hc with hc | ⟨a, a', h1, h2, h3⟩
          · exact ⟨c, by rw [← hc, hsc], rfl⟩
          · cases hsc.symm.trans h1
            exact ⟨a', h2, h3.tension⟩
        rw [hsc] at h
        rw [hc']
        simp only at h ⊢
        rw [ht]
        generalize Sagger.controlLoop (Sagger.tensionOf c) qs 0 999999 (-9999) = o at h
        match o with
        | .ok j b' =>
          cases h
          subst hi
          exact ⟨rfl, rfl⟩
        | .throws _ => cases h
        | .ub => cases h
        | .nan => cases h

/-- A sagger that finds no limit keeps its line cable, and another one with the same settings finds none either. -/
theorem limit_false {s t : Sagger} {heap : Heap ℝ} (h : s.updateLimit heap = .ok t false) :
    ∃ i, t = { s with index := i } ∧ ∀ u : Sagger, u.constraints = s.constraints → u.lineCable = s.lineCable →
      u.updateLimit heap = .ok { u with index := i } false := by
  unfold Sagger.updateLimit at h
  obtain ⟨x, b, h1, h2⟩ := Run.bind_ok h
  obtain ⟨e, -⟩ := index_congr h1 rfl (Or.inl rfl) rfl
  refine ⟨x.index, ?_, fun u hq hc => ?_⟩
  · cases b with
    | false => rw [if_pos rfl] at h2; cases h2; exact e
    | true =>
      rw [if_neg (by decide)] at h2
      split at h2
      swap
      · cases h2
      split_ifs at h2
      split at h2
      swap
      · cases h2
      split at h2
      · cases h2
      · cases h2; exact e
      all_goals cases h2
  · have g := (index_congr (u := u) h1 hq (Or.inl hc.symm) rfl).2
    unfold Sagger.updateLimit
    rw [g]
    simp only [Run.bind]
    cases b with
    | false => rw [if_pos rfl]
    | true =>
      rw [if_neg (by decide)] at h2 ⊢
      have e3 : x.constraints = s.constraints := by rw [e]
      have e4 : x.lineCable = s.lineCable := by rw [e]
      rw [e3, e4] at h2
      rw [hq, hc]
      split at h2
      swap
      · cases h2
      rename_i qs c a1 a2
      rw [a1, a2]
      split_ifs at h2 with hv
      rw [if_pos hv]
      split at h2
      swap
      · cases h2
      rename_i q hq'
      split at h2
      · cases h2
      · rfl
      all_goals cases h2

/-- A sagger whose update fails fails again. -/
theorem sagger_fails_again {s t : Sagger} {heap : Heap ℝ} (h : s.update heap = .ok t false) :
    t.update heap = .ok t false := by
  unfold Sagger.update at h
  by_cases hu : s.isUpdated = true
  · rw [if_pos hu] at h; cases h
  rw [if_neg hu] at h
  obtain ⟨t1, b1, e1, h⟩ := Run.bind_ok h
  cases b1 with
  | false =>
    rw [if_pos rfl] at h
    cases h
    obtain ⟨i, rfl, g⟩ := limit_false e1
    unfold Sagger.update
    rw [if_neg (by show ¬ false = true; decide), g { s with index := i, isUpdated := false } rfl rfl]
    rfl
  | true =>
    rw [if_neg (by decide)] at h
    obtain ⟨qs, c, i, q, k, g1, g2, g3, g4, g5, g6, g7, rfl⟩ := Sagger.updateLimit_true e1
    obtain ⟨t2, b2, e2, h⟩ := Run.bind_ok h
    have hb2 : b2 = false := by cases h; rfl
    subst hb2
    unfold Sagger.updateActual at e2
    rw [g1] at e2
    simp only at e2
    generalize ha : Sagger.actualLoop (fun q => Sagger.reloadChecked heap
      (reloaderOf (Sagger.resag c k) q.caseWeather q.condition)) qs [] = o at e2
    match o with
    | .ok ks b =>
      cases e2
      cases h
      generalize hv : (⟨some qs, some (Sagger.resag c k), ks, i, false⟩ : Sagger) = v
      have h1 : v.constraints = some qs := by rw [← hv]
      have h2 : v.lineCable = some (Sagger.resag c k) := by rw [← hv]
      have h3 : v.index = i := by rw [← hv]
      have h4 : v.catenaries = ks := by rw [← hv]
      have h5 : v.isUpdated = false := by rw [← hv]
      have a1 : v.updateIndex = .ok v true := by
        have := (index_congr (u := v) g3 (h1.trans g1.symm) (Or.inr ⟨c, _, g2, h2, Sagger.resag_kin c k⟩) rfl).2
        rw [this, ← hv]
      have a2 : v.updateLimit heap = .ok v true := by
        unfold Sagger.updateLimit
        rw [a1]
        simp only [Run.bind]
        rw [if_neg (by decide), h1, h2, h3]
        simp only
        rw [if_pos g6, g5]
        simp only
        have : reloaderOf { Sagger.resag c k with constraint := q } (Sagger.resag c k).constraint.caseWeather
          (Sagger.resag c k).constraint.condition =
          reloaderOf { c with constraint := q } c.constraint.caseWeather c.constraint.condition := rfl
        rw [this, g7]
        simp only
        rw [Sagger.resag_resag, h4, h5, ← hv]
      unfold Sagger.update
      rw [if_neg (by rw [h5]; decide), a2]
      simp only [Run.bind]
      rw [if_neg (by decide)]
      unfold Sagger.updateActual
      simp only
      rw [h1, h2]
      simp only
      rw [ha]
      simp only [Run.mapState]
      rw [h3, ← hv]
    | .throws _ => cases e2
    | .ub => cases e2
    | .nan => cases e2

/-- A call that sets nothing, made while the cables outside are as they are. -/
def SaggerAsks (heap : Heap ℝ) : Sagger.Call → Prop
  | .query h => h = heap
  | .validate h => h = heap
  | _ => False

theorem sagger_asks_stays {s u : Sagger} {heap : Heap ℝ} (h : s.update heap = .ok s false) (ks : List Sagger.Call)
    (hk : ∀ k ∈ ks, SaggerAsks heap k) (hr : Sagger.run s ks = some u) : u = s := by
  induction ks with
  | nil => cases hr; rfl
  | cons k ks ih =>
    unfold Sagger.run at hr
    rw [Option.bind_eq_some_iff] at hr
    obtain ⟨v, h1, h2⟩ := hr
    have hv : v = s := by
      have := hk k (by simp)
      cases k with
      | query heap' =>
        have : heap' = heap := this
        subst this
        have h1 : (s.update heap').state? = some v := h1
        rw [h] at h1
        cases h1
        rfl
      | validate heap' =>
        have : heap' = heap := this
        subst this
        have h1 : (s.validate heap').state? = some v := h1
        unfold Sagger.validate at h1
        generalize s.validMembers heap' = o at h1
        match o with
        | .val true =>
          have h1 : (s.update heap').state? = some v := h1
          rw [h] at h1
          cases h1
          rfl
        | .val false => cases h1; rfl
        | .throws => cases h1; rfl
        | .ub => cases h1
      | setConstraints qs => exact absurd this (by simp [SaggerAsks])
      | setLineCable c => exact absurd this (by simp [SaggerAsks])
    subst hv
    exact ih (fun k hk' => hk k (by simp [hk'])) h2

theorem sagger_silent {A : Type} {s : Sagger} {heap : Heap ℝ} (h : s.update heap = .ok s false) (d : A)
    (f : Sagger → Run Sagger A) : (s.ask heap d f).result = some (.val d) := by
  unfold Sagger.ask
  rw [h]
  rfl

/-- **C168**. A line cable sagger, with any history, whose design constraints and line cable are valid but which is
rejected by `Validate` gives no figures: as long as nothing is set, whatever is asked, every query reports its failure
value. -/
theorem C168_sagger {calls : List Sagger.Call} {s t u : Sagger} (_h : Sagger.run .new calls = some s)
    {heap : Heap ℝ} (hv : s.validate heap = .ok t false) (hm : s.validMembers heap = .val true)
    {ks : List Sagger.Call} (hk : ∀ k ∈ ks, SaggerAsks heap k) (hr : Sagger.run t ks = some u) :
    (u.indexControlling heap).result = some (.val (-9999)) ∧
    (u.limitSagged heap).result = some (.val (-999999)) ∧
    (∀ i, (u.constantActual heap i).result = some (.val (-999999))) ∧
    (∀ i, (u.tensionHorizontalActual heap i).result = some (.val (-999999))) ∧
    (∀ i, (u.tensionSupportActual heap i).result = some (.val (-999999))) ∧
    (∀ i, (u.capacityAllowable heap i).result = some (.val (-999999))) := by
  unfold Sagger.validate at hv
  rw [hm] at hv
  have hv : s.update heap = .ok t false := hv
  have ht := sagger_fails_again hv
  obtain rfl := sagger_asks_stays ht ks hk hr
  exact ⟨sagger_silent ht _ _, sagger_silent ht _ _, fun i => sagger_silent ht _ _, fun i => sagger_silent ht _ _,
    fun i => sagger_silent ht _ _, fun i => sagger_silent ht _ _⟩

/-- A sagger that is to string the example to its own constraint is rejected though its parts are valid, and it reports
no figures. -/
example (heap : Heap ℝ) : ∃ s t, Sagger.run .new [.setConstraints (some [(exTaut .initial).constraint]),
      .setLineCable (some (exTaut .initial))] = some s ∧ s.validate heap = .ok t false ∧
    (t.limitSagged heap).result = some (.val (-999999)) := by
  set s : Sagger := (Sagger.new.setConstraints (some [(exTaut .initial).constraint])).setLineCable
    (some (exTaut .initial)) with hs
  have hr : Sagger.run .new [.setConstraints (some [(exTaut .initial).constraint]),
      .setLineCable (some (exTaut .initial))] = some s := rfl
  have hq : (exTaut .initial).constraint.validate.1 = true := by
    simp [exTaut, CableConstraint.validate, validateWeather, exCalm, WeatherLoadCase.validate]
    norm_num
  have hm : s.validMembers heap = .val true := by
    have h1 : s.constraints = some [(exTaut .initial).constraint] := rfl
    have h2 : s.lineCable = some (exTaut .initial) := rfl
    unfold Sagger.validMembers
    rw [h1, h2]
    simp only
    rw [taut_accepted]
    simp only [List.all_cons, List.all_nil, hq, Bool.and_true]
  obtain ⟨x, hx⟩ := taut_rejected heap
  have hc : Sagger.reloadChecked heap (reloaderOf { exTaut .initial with constraint := (exTaut .initial).constraint }
      (exTaut .initial).constraint.caseWeather (exTaut .initial).constraint.condition) = some (.val none) := by
    have : reloaderOf { exTaut .initial with constraint := (exTaut .initial).constraint }
      (exTaut .initial).constraint.caseWeather (exTaut .initial).constraint.condition = exTautReloader := rfl
    rw [this]
    unfold Sagger.reloadChecked
    rw [hx]
  have hl : s.updateLimit heap = .ok { s with index := 0 } false := by
    have h1 : s.updateIndex = .ok { s with index := 0 } true := rfl
    unfold Sagger.updateLimit
    rw [h1]
    show (match Sagger.reloadChecked heap (reloaderOf { exTaut .initial with constraint := (exTaut .initial).constraint }
      (exTaut .initial).constraint.caseWeather (exTaut .initial).constraint.condition) with
      | some (.val (some k)) => Run.ok { s with index := 0, lineCable := some (Sagger.resag (exTaut .initial) k) } true
      | some (.val none) => .ok { s with index := 0 } false
      | some .throws => .throws { s with index := 0 }
      | some .ub => .ub
      | none => .nan) = _
    rw [hc]
  have hu : s.update heap = .ok { s with index := 0, isUpdated := false } false := by
    unfold Sagger.update
    rw [if_neg (by show ¬ false = true; decide), hl]
    rfl
  have hv : s.validate heap = .ok { s with index := 0, isUpdated := false } false := by
    unfold Sagger.validate
    rw [hm]
    exact hu
  exact ⟨s, _, hr, hv, (C168_sagger hr hv hm (ks := []) (by simp) rfl).2.1⟩

end Verif.Props
