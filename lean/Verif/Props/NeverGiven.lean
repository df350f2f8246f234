import Verif.Props.Strainer
import Verif.Props.TemperatureHistory
import Verif.Props.Solar
import Verif.Props.Sagging

/-!
# Inputs that were never given

C142: an object that Validate accepts has been given each of its inputs.
-/

set_option linter.unusedSectionVars false

namespace Verif.Props
open Verif Verif.Units

/-- A member that only some calls change has its first value unless one of them is made. -/
theorem member_changed {S C V : Type} (next : S → C → S) (f : S → V) (P : C → Prop)
    (h : ∀ s c, ¬ P c → f (next s c) = f s) (s : S) (calls : List C) (hf : f (calls.foldl next s) ≠ f s) :
    ∃ c ∈ calls, P c := by
  by_contra hn
  push Not at hn
  apply hf
  clear hf
  induction calls generalizing s with
  | nil => rfl
  | cons c cs ih =>
    rw [List.foldl_cons, ih _ fun d hd => hn d (List.mem_cons_of_mem _ hd)]
    exact h s c (hn c (List.mem_cons_self ..))

/-- The same for calls that may not return. -/
theorem member_changed' {S C V : Type} (next : C → S → Option S) (f : S → V) (P : C → Prop)
    (h : ∀ s c s', ¬ P c → next c s = some s' → f s' = f s) (run : S → List C → Option S)
    (r0 : ∀ s, run s [] = some s) (r1 : ∀ s c cs, run s (c :: cs) = (next c s).bind fun s' => run s' cs)
    (s s' : S) (calls : List C) (hr : run s calls = some s') (hf : f s' ≠ f s) : ∃ c ∈ calls, P c := by
  by_contra hn
  push Not at hn
  apply hf
  clear hf
  induction calls generalizing s with
  | nil => rw [r0] at hr; cases hr; rfl
  | cons c cs ih =>
    rw [r1] at hr
    obtain ⟨s1, e1, e2⟩ := Option.bind_eq_some_iff.1 hr
    rw [ih s1 e2 fun d hd => hn d (List.mem_cons_of_mem _ hd)]
    exact h s c s1 (hn c (List.mem_cons_self ..)) e1

/-! ## Thermal rating -/

theorem current_frame (s : CurrentSolver) (c : CurrentCall) :
    ((∀ x, c ≠ .setCable x) → (c.next s).cable = s.cable) ∧
    ((∀ x, c ≠ .setTemperature x) → (c.next s).temperature = s.temperature) ∧
    ((∀ x, c ≠ .setUnits x) → (c.next s).units = s.units) ∧
    ((∀ x, c ≠ .setWeather x) → (c.next s).weather = s.weather) := by
  have hu : s.update.1.cable = s.cable ∧ s.update.1.temperature = s.temperature ∧ s.update.1.units = s.units ∧
      s.update.1.weather = s.weather := by
    unfold CurrentSolver.update
    split_ifs
    · split <;> exact ⟨rfl, rfl, rfl, rfl⟩
    · exact ⟨rfl, rfl, rfl, rfl⟩
  have hr : s.refresh.1.cable = s.cable ∧ s.refresh.1.temperature = s.temperature ∧ s.refresh.1.units = s.units ∧
      s.refresh.1.weather = s.weather := by
    unfold CurrentSolver.refresh
    split_ifs
    · exact ⟨rfl, rfl, rfl, rfl⟩
    · exact hu
  cases c with
  | setCable x => exact ⟨fun h => absurd rfl (h x), fun _ => rfl, fun _ => rfl, fun _ => rfl⟩
  | setTemperature x => exact ⟨fun _ => rfl, fun h => absurd rfl (h x), fun _ => rfl, fun _ => rfl⟩
  | setUnits x => exact ⟨fun _ => rfl, fun _ => rfl, fun h => absurd rfl (h x), fun _ => rfl⟩
  | setWeather x => exact ⟨fun _ => rfl, fun _ => rfl, fun _ => rfl, fun h => absurd rfl (h x)⟩
  | current =>
    rw [CurrentCall.next, askCurrent_fst]
    exact ⟨fun _ => hr.1, fun _ => hr.2.1, fun _ => hr.2.2.1, fun _ => hr.2.2.2⟩
  | state =>
    rw [CurrentCall.next, askState_fst]
    exact ⟨fun _ => hr.1, fun _ => hr.2.1, fun _ => hr.2.2.1, fun _ => hr.2.2.2⟩
  | validate => exact ⟨fun _ => hu.1, fun _ => hu.2.1, fun _ => hu.2.2.1, fun _ => hu.2.2.2⟩

/-- A steady current solver that Validate accepts, after any calls on a new one, has been given a cable, a cable
temperature, units and weather. -/
theorem C142_current {calls : List CurrentCall} (h : (currentAfter calls).validate.2 = true) :
    (∃ x, .setCable x ∈ calls) ∧ (∃ x, .setTemperature x ∈ calls) ∧ (∃ x, .setUnits x ∈ calls) ∧
      ∃ x, .setWeather x ∈ calls := by
  unfold CurrentSolver.validate at h
  simp only [Bool.and_eq_true, decide_eq_true_eq] at h
  obtain ⟨⟨⟨⟨h1, h2⟩, h3⟩, h4⟩, -⟩ := h
  refine ⟨?_, ?_, ?_, ?_⟩
  · obtain ⟨c, hc, x, rfl⟩ := member_changed CurrentCall.next CurrentSolver.cable (fun c => ∃ x, c = .setCable x)
      (fun s c hn => (current_frame s c).1 (by push Not at hn; exact hn)) CurrentSolver.new calls (fun e => by
        have : (currentAfter calls).cable = none := e
        rw [this] at h1; cases h1)
    exact ⟨x, hc⟩
  · obtain ⟨c, hc, x, rfl⟩ := member_changed CurrentCall.next CurrentSolver.temperature
      (fun c => ∃ x, c = .setTemperature x)
      (fun s c hn => (current_frame s c).2.1 (by push Not at hn; exact hn)) CurrentSolver.new calls (fun e => by
        have : (currentAfter calls).temperature = some (-999999) := e
        rw [this] at h2; norm_num at h2)
    exact ⟨x, hc⟩
  · obtain ⟨c, hc, x, rfl⟩ := member_changed CurrentCall.next CurrentSolver.units (fun c => ∃ x, c = .setUnits x)
      (fun s c hn => (current_frame s c).2.2.1 (by push Not at hn; exact hn)) CurrentSolver.new calls (fun e => h3 e)
    exact ⟨x, hc⟩
  · obtain ⟨c, hc, x, rfl⟩ := member_changed CurrentCall.next CurrentSolver.weather (fun c => ∃ x, c = .setWeather x)
      (fun s c hn => (current_frame s c).2.2.2 (by push Not at hn; exact hn)) CurrentSolver.new calls (fun e => by
        have : (currentAfter calls).weather = none := e
        rw [this] at h4; cases h4)
    exact ⟨x, hc⟩

theorem transient_frame (s : TransientSolver) (c : TransientCall) :
    ((∀ x, c ≠ .setCable x) → (c.next s).cable = s.cable) ∧
    ((∀ x, c ≠ .setCurrentSteady x) → (c.next s).currentSteady = s.currentSteady) ∧
    ((∀ x, c ≠ .setCurrentStep x) → (c.next s).currentStep = s.currentStep) ∧
    ((∀ x, c ≠ .setDuration x) → (c.next s).duration = s.duration) ∧
    ((∀ x, c ≠ .setUnits x) → (c.next s).units = s.units) ∧
    ((∀ x, c ≠ .setWeather x) → (c.next s).weather = s.weather) := by
  have hu : s.update.1.cable = s.cable ∧ s.update.1.currentSteady = s.currentSteady ∧
      s.update.1.currentStep = s.currentStep ∧ s.update.1.duration = s.duration ∧ s.update.1.units = s.units ∧
      s.update.1.weather = s.weather := by
    unfold TransientSolver.update
    split_ifs
    · split <;> exact ⟨rfl, rfl, rfl, rfl, rfl, rfl⟩
    · exact ⟨rfl, rfl, rfl, rfl, rfl, rfl⟩
  cases c with
  | setCable x => exact ⟨fun h => absurd rfl (h x), fun _ => rfl, fun _ => rfl, fun _ => rfl, fun _ => rfl, fun _ => rfl⟩
  | setCurrentSteady x =>
    exact ⟨fun _ => rfl, fun h => absurd rfl (h x), fun _ => rfl, fun _ => rfl, fun _ => rfl, fun _ => rfl⟩
  | setCurrentStep x =>
    exact ⟨fun _ => rfl, fun _ => rfl, fun h => absurd rfl (h x), fun _ => rfl, fun _ => rfl, fun _ => rfl⟩
  | setDuration x =>
    exact ⟨fun _ => rfl, fun _ => rfl, fun _ => rfl, fun h => absurd rfl (h x), fun _ => rfl, fun _ => rfl⟩
  | setUnits x => exact ⟨fun _ => rfl, fun _ => rfl, fun _ => rfl, fun _ => rfl, fun h => absurd rfl (h x), fun _ => rfl⟩
  | setWeather x =>
    exact ⟨fun _ => rfl, fun _ => rfl, fun _ => rfl, fun _ => rfl, fun _ => rfl, fun h => absurd rfl (h x)⟩
  | points =>
    unfold TransientCall.next TransientSolver.askPoints
    split_ifs
    · exact ⟨fun _ => rfl, fun _ => rfl, fun _ => rfl, fun _ => rfl, fun _ => rfl, fun _ => rfl⟩
    all_goals
      exact ⟨fun _ => hu.1, fun _ => hu.2.1, fun _ => hu.2.2.1, fun _ => hu.2.2.2.1, fun _ => hu.2.2.2.2.1,
        fun _ => hu.2.2.2.2.2⟩
  | validate =>
    exact ⟨fun _ => hu.1, fun _ => hu.2.1, fun _ => hu.2.2.1, fun _ => hu.2.2.2.1, fun _ => hu.2.2.2.2.1,
      fun _ => hu.2.2.2.2.2⟩

/-- A transient temperature solver that Validate accepts has been given a cable, both currents, a duration, units and
weather. -/
theorem C142_transient {calls : List TransientCall} (h : (transientAfter calls).validate.2 = true) :
    (∃ x, .setCable x ∈ calls) ∧ (∃ x, .setCurrentSteady x ∈ calls) ∧ (∃ x, .setCurrentStep x ∈ calls) ∧
      (∃ x, .setDuration x ∈ calls) ∧ (∃ x, .setUnits x ∈ calls) ∧ ∃ x, .setWeather x ∈ calls := by
  unfold TransientSolver.validate at h
  simp only [Bool.and_eq_true, decide_eq_true_eq, not_lt] at h
  obtain ⟨⟨⟨⟨⟨h1, h2⟩, h3⟩, h4⟩, h5⟩, h6⟩ := h
  refine ⟨?_, ?_, ?_, ?_, ?_, ?_⟩
  · obtain ⟨c, hc, x, rfl⟩ := member_changed TransientCall.next TransientSolver.cable (fun c => ∃ x, c = .setCable x)
      (fun s c hn => (transient_frame s c).1 (by push Not at hn; exact hn)) TransientSolver.new calls (fun e => by
        have : (transientAfter calls).cable = none := e
        simp [TransientSolver.update, heatValid, this] at h6)
    exact ⟨x, hc⟩
  · obtain ⟨c, hc, x, rfl⟩ := member_changed TransientCall.next TransientSolver.currentSteady
      (fun c => ∃ x, c = .setCurrentSteady x)
      (fun s c hn => (transient_frame s c).2.1 (by push Not at hn; exact hn)) TransientSolver.new calls (fun e => by
        have : (transientAfter calls).currentSteady = -999999 := e
        rw [this] at h1; norm_num at h1)
    exact ⟨x, hc⟩
  · obtain ⟨c, hc, x, rfl⟩ := member_changed TransientCall.next TransientSolver.currentStep
      (fun c => ∃ x, c = .setCurrentStep x)
      (fun s c hn => (transient_frame s c).2.2.1 (by push Not at hn; exact hn)) TransientSolver.new calls (fun e => by
        have : (transientAfter calls).currentStep = -999999 := e
        rw [this] at h2; norm_num at h2)
    exact ⟨x, hc⟩
  · obtain ⟨c, hc, x, rfl⟩ := member_changed TransientCall.next TransientSolver.duration
      (fun c => ∃ x, c = .setDuration x)
      (fun s c hn => (transient_frame s c).2.2.2.1 (by push Not at hn; exact hn)) TransientSolver.new calls (fun e => by
        have : (transientAfter calls).duration = -9999 := e
        rw [this] at h3; norm_num at h3)
    exact ⟨x, hc⟩
  · obtain ⟨c, hc, x, rfl⟩ := member_changed TransientCall.next TransientSolver.units (fun c => ∃ x, c = .setUnits x)
      (fun s c hn => (transient_frame s c).2.2.2.2.1 (by push Not at hn; exact hn)) TransientSolver.new calls
      (fun e => h4 e)
    exact ⟨x, hc⟩
  · obtain ⟨c, hc, x, rfl⟩ := member_changed TransientCall.next TransientSolver.weather
      (fun c => ∃ x, c = .setWeather x)
      (fun s c hn => (transient_frame s c).2.2.2.2.2 (by push Not at hn; exact hn)) TransientSolver.new calls
      (fun e => by
        have : (transientAfter calls).weather = none := e
        rw [this] at h5; cases h5)
    exact ⟨x, hc⟩

theorem temperature_frame {s s' : TemperatureSolver} {c : TemperatureCall} (hn : c.next s = some s') :
    ((∀ x, c ≠ .setCable x) → s'.cable = s.cable) ∧ ((∀ x, c ≠ .setCurrent x) → s'.current = s.current) ∧
    ((∀ x, c ≠ .setUnits x) → s'.units = s.units) ∧ ((∀ x, c ≠ .setWeather x) → s'.weather = s.weather) := by
  have hu : ∀ t b, s.update = .ok t b → t.cable = s.cable ∧ t.current = s.current ∧ t.units = s.units ∧
      t.weather = s.weather := by
    intro t b h
    unfold TemperatureSolver.update at h
    cases hw : s.weather with
    | none => rw [hw] at h; cases h
    | some w =>
      rw [hw] at h
      simp only at h
      split_ifs at h <;> cases h <;> exact ⟨rfl, rfl, rfl, rfl⟩
  have hr : ∀ t b, s.refresh = .ok t b → t.cable = s.cable ∧ t.current = s.current ∧ t.units = s.units ∧
      t.weather = s.weather := by
    intro t b h
    unfold TemperatureSolver.refresh at h
    split_ifs at h
    · cases h; exact ⟨rfl, rfl, rfl, rfl⟩
    · exact hu t b h
  have nt : ∀ t, s.update ≠ .throws t := by
    intro t h
    rcases temperatureUpdate_cases s with e | ⟨x, e, -⟩ | ⟨x, e, -⟩ <;> rw [e] at h <;> cases h
  have nr : ∀ t, s.refresh ≠ .throws t := by
    intro t h
    unfold TemperatureSolver.refresh at h
    split_ifs at h
    exact nt t h
  have all : ∀ {t : TemperatureSolver}, t.cable = s.cable ∧ t.current = s.current ∧ t.units = s.units ∧
      t.weather = s.weather → ((∀ x, c ≠ .setCable x) → t.cable = s.cable) ∧
      ((∀ x, c ≠ .setCurrent x) → t.current = s.current) ∧ ((∀ x, c ≠ .setUnits x) → t.units = s.units) ∧
      ((∀ x, c ≠ .setWeather x) → t.weather = s.weather) :=
    fun h => ⟨fun _ => h.1, fun _ => h.2.1, fun _ => h.2.2.1, fun _ => h.2.2.2⟩
  cases c with
  | setCable x => cases hn; exact ⟨fun h => absurd rfl (h x), fun _ => rfl, fun _ => rfl, fun _ => rfl⟩
  | setCurrent x => cases hn; exact ⟨fun _ => rfl, fun h => absurd rfl (h x), fun _ => rfl, fun _ => rfl⟩
  | setUnits x => cases hn; exact ⟨fun _ => rfl, fun _ => rfl, fun h => absurd rfl (h x), fun _ => rfl⟩
  | setWeather x => cases hn; exact ⟨fun _ => rfl, fun _ => rfl, fun _ => rfl, fun h => absurd rfl (h x)⟩
  | temperature =>
    apply all
    simp only [TemperatureCall.next, TemperatureSolver.askTemperature] at hn
    cases e : s.refresh with
    | ok t b => rw [e] at hn; cases b <;> cases hn <;> exact hr _ _ e
    | throws t => exact absurd e (nr t)
    | ub => rw [e] at hn; cases hn
  | state =>
    apply all
    simp only [TemperatureCall.next, TemperatureSolver.askState] at hn
    cases e : s.refresh with
    | ok t b => rw [e] at hn; cases b <;> cases hn <;> exact hr _ _ e
    | throws t => exact absurd e (nr t)
    | ub => rw [e] at hn; cases hn
  | validate =>
    apply all
    simp only [TemperatureCall.next, TemperatureSolver.validate] at hn
    cases e : s.update with
    | ok t b => rw [e] at hn; cases hn; exact hu _ _ e
    | throws t => exact absurd e (nt t)
    | ub => rw [e] at hn; cases hn

/-- A steady temperature solver that Validate accepts has been given a cable, a current, units and weather. -/
theorem C142_temperature {calls : List TemperatureCall} {s s' : TemperatureSolver}
    (hr : temperatureCalls TemperatureSolver.new calls = some s) (h : s.validate = .ok s' true) :
    (∃ x, .setCable x ∈ calls) ∧ (∃ x, .setCurrent x ∈ calls) ∧ (∃ x, .setUnits x ∈ calls) ∧
      ∃ x, .setWeather x ∈ calls := by
  have key := fun {V : Type} (f : TemperatureSolver → V) (P : TemperatureCall → Prop) hh hf =>
    member_changed' (fun c s => TemperatureCall.next s c) f P hh temperatureCalls (fun _ => rfl) (fun _ _ _ => rfl)
      TemperatureSolver.new s calls hr hf
  unfold TemperatureSolver.validate at h
  cases hu : s.update with
  | throws t => rw [hu] at h; cases h
  | ub => rw [hu] at h; cases h
  | ok t b =>
    rw [hu] at h
    simp only [Outcome.ok.injEq, Bool.and_eq_true, decide_eq_true_eq, not_lt] at h
    obtain ⟨-, ⟨⟨⟨h1, h2⟩, h3⟩, h4⟩, -⟩ := h
    refine ⟨?_, ?_, ?_, ?_⟩
    · obtain ⟨c, hc, x, rfl⟩ := key TemperatureSolver.cable (fun c => ∃ x, c = .setCable x)
        (fun s c s' hn e => (temperature_frame e).1 (by push Not at hn; exact hn)) (fun e => by
          have : s.cable = none := e
          rw [this] at h1; cases h1)
      exact ⟨x, hc⟩
    · obtain ⟨c, hc, x, rfl⟩ := key TemperatureSolver.current (fun c => ∃ x, c = .setCurrent x)
        (fun s c s' hn e => (temperature_frame e).2.1 (by push Not at hn; exact hn)) (fun e => by
          have : s.current = -999999 := e
          rw [this] at h2; norm_num at h2)
      exact ⟨x, hc⟩
    · obtain ⟨c, hc, x, rfl⟩ := key TemperatureSolver.units (fun c => ∃ x, c = .setUnits x)
        (fun s c s' hn e => (temperature_frame e).2.2.1 (by push Not at hn; exact hn)) (fun e => h3 e)
      exact ⟨x, hc⟩
    · obtain ⟨c, hc, x, rfl⟩ := key TemperatureSolver.weather (fun c => ∃ x, c = .setWeather x)
        (fun s c s' hn e => (temperature_frame e).2.2.2 (by push Not at hn; exact hn)) (fun e => by
          have : s.weather = none := e
          rw [this] at h4; cases h4)
      exact ⟨x, hc⟩

theorem solar_frame (s : SolarSolver) (c : SolarSolver.Call) :
    ((∀ x, c ≠ .setAzimuthCable x) → (c.next s).azimuthCable = s.azimuthCable) ∧
    ((∀ x, c ≠ .setDay x) → (c.next s).day = s.day) ∧ ((∀ x, c ≠ .setElevation x) → (c.next s).elevation = s.elevation) ∧
    ((∀ x, c ≠ .setHour x) → (c.next s).hour = s.hour) ∧ ((∀ x, c ≠ .setLatitude x) → (c.next s).latitude = s.latitude) ∧
    ((∀ x, c ≠ .setQuality x) → (c.next s).quality = s.quality) ∧
    ((∀ x, c ≠ .setUnits x) → (c.next s).units = s.units) := by
  have hu : s.update.1.azimuthCable = s.azimuthCable ∧ s.update.1.day = s.day ∧ s.update.1.elevation = s.elevation ∧
      s.update.1.hour = s.hour ∧ s.update.1.latitude = s.latitude ∧ s.update.1.quality = s.quality ∧
      s.update.1.units = s.units := by
    unfold SolarSolver.update
    split_ifs
    · split <;> exact ⟨rfl, rfl, rfl, rfl, rfl, rfl, rfl⟩
    · exact ⟨rfl, rfl, rfl, rfl, rfl, rfl, rfl⟩
  have all : ∀ {t : SolarSolver}, t.azimuthCable = s.azimuthCable ∧ t.day = s.day ∧ t.elevation = s.elevation ∧
      t.hour = s.hour ∧ t.latitude = s.latitude ∧ t.quality = s.quality ∧ t.units = s.units →
      ((∀ x, c ≠ .setAzimuthCable x) → t.azimuthCable = s.azimuthCable) ∧
      ((∀ x, c ≠ .setDay x) → t.day = s.day) ∧ ((∀ x, c ≠ .setElevation x) → t.elevation = s.elevation) ∧
      ((∀ x, c ≠ .setHour x) → t.hour = s.hour) ∧ ((∀ x, c ≠ .setLatitude x) → t.latitude = s.latitude) ∧
      ((∀ x, c ≠ .setQuality x) → t.quality = s.quality) ∧ ((∀ x, c ≠ .setUnits x) → t.units = s.units) :=
    fun h => ⟨fun _ => h.1, fun _ => h.2.1, fun _ => h.2.2.1, fun _ => h.2.2.2.1, fun _ => h.2.2.2.2.1,
      fun _ => h.2.2.2.2.2.1, fun _ => h.2.2.2.2.2.2⟩
  have ha : ∀ f, (SolarSolver.ask f s).1 = s.update.1 := by
    intro f; unfold SolarSolver.ask; split_ifs <;> rfl
  cases c with
  | altitude => exact all (by rw [SolarSolver.Call.next, SolarSolver.askAltitude, ha]; exact hu)
  | azimuth => exact all (by rw [SolarSolver.Call.next, SolarSolver.askAzimuth, ha]; exact hu)
  | radiation => exact all (by rw [SolarSolver.Call.next, SolarSolver.askRadiation, ha]; exact hu)
  | validate =>
    apply all
    unfold SolarSolver.Call.next SolarSolver.validate
    split_ifs
    · exact hu
    · exact ⟨rfl, rfl, rfl, rfl, rfl, rfl, rfl⟩
  | _ =>
    refine ⟨fun h => ?_, fun h => ?_, fun h => ?_, fun h => ?_, fun h => ?_, fun h => ?_, fun h => ?_⟩ <;>
      first | rfl | exact absurd rfl (h _)

/-- A solar radiation solver that Validate accepts has been given all seven inputs. -/
theorem C142_solar {calls : List SolarSolver.Call}
    (h : (calls.foldl SolarSolver.Call.next SolarSolver.new).validate.2 = true) :
    (∃ x, .setAzimuthCable x ∈ calls) ∧ (∃ x, .setDay x ∈ calls) ∧ (∃ x, .setElevation x ∈ calls) ∧
      (∃ x, .setHour x ∈ calls) ∧ (∃ x, .setLatitude x ∈ calls) ∧ (∃ x, .setQuality x ∈ calls) ∧
      ∃ x, .setUnits x ∈ calls := by
  set s := calls.foldl SolarSolver.Call.next SolarSolver.new with hs
  unfold SolarSolver.validate at h
  split_ifs at h with hv
  obtain ⟨h1, h2, h3, h4, h5, h6, h7⟩ := hv
  refine ⟨?_, ?_, ?_, ?_, ?_, ?_, ?_⟩
  · obtain ⟨c, hc, x, rfl⟩ := member_changed SolarSolver.Call.next SolarSolver.azimuthCable
      (fun c => ∃ x, c = .setAzimuthCable x)
      (fun s c hn => (solar_frame s c).1 (by push Not at hn; exact hn)) SolarSolver.new calls (fun e => h1 (by
        have : s.azimuthCable = -999999 := e
        rw [this]; norm_num))
    exact ⟨x, hc⟩
  · obtain ⟨c, hc, x, rfl⟩ := member_changed SolarSolver.Call.next SolarSolver.day (fun c => ∃ x, c = .setDay x)
      (fun s c hn => (solar_frame s c).2.1 (by push Not at hn; exact hn)) SolarSolver.new calls (fun e => h2 (by
        have : s.day = -9999 := e
        rw [this]; norm_num))
    exact ⟨x, hc⟩
  · obtain ⟨c, hc, x, rfl⟩ := member_changed SolarSolver.Call.next SolarSolver.elevation
      (fun c => ∃ x, c = .setElevation x)
      (fun s c hn => (solar_frame s c).2.2.1 (by push Not at hn; exact hn)) SolarSolver.new calls (fun e => h3 (by
        have : s.elevation = -999999 := e
        rw [this]; norm_num))
    exact ⟨x, hc⟩
  · obtain ⟨c, hc, x, rfl⟩ := member_changed SolarSolver.Call.next SolarSolver.hour (fun c => ∃ x, c = .setHour x)
      (fun s c hn => (solar_frame s c).2.2.2.1 (by push Not at hn; exact hn)) SolarSolver.new calls (fun e => h4 (by
        have : s.hour = -9999 := e
        rw [this]; norm_num))
    exact ⟨x, hc⟩
  · obtain ⟨c, hc, x, rfl⟩ := member_changed SolarSolver.Call.next SolarSolver.latitude
      (fun c => ∃ x, c = .setLatitude x)
      (fun s c hn => (solar_frame s c).2.2.2.2.1 (by push Not at hn; exact hn)) SolarSolver.new calls (fun e => h5 (by
        have : s.latitude = -999999 := e
        rw [this]; norm_num))
    exact ⟨x, hc⟩
  · obtain ⟨c, hc, x, rfl⟩ := member_changed SolarSolver.Call.next SolarSolver.quality (fun c => ∃ x, c = .setQuality x)
      (fun s c hn => (solar_frame s c).2.2.2.2.2.1 (by push Not at hn; exact hn)) SolarSolver.new calls (fun e => h6 e)
    exact ⟨x, hc⟩
  · obtain ⟨c, hc, x, rfl⟩ := member_changed SolarSolver.Call.next SolarSolver.units (fun c => ∃ x, c = .setUnits x)
      (fun s c hn => (solar_frame s c).2.2.2.2.2.2 (by push Not at hn; exact hn)) SolarSolver.new calls (fun e => h7 e)
    exact ⟨x, hc⟩

/-! ## Catenaries -/

theorem catenary2d_frame (k : Catenary2d) (c : Catenary2d.Event) :
    ((∀ x, c ≠ .setSpacing x) → (c.next k).spacing = k.spacing) ∧
    ((∀ x, c ≠ .setTension x) → (c.next k).tensionHorizontal = k.tensionHorizontal) ∧
    ((∀ x, c ≠ .setWeight x) → (c.next k).weightUnit = k.weightUnit) := by
  cases c with
  | query =>
    obtain ⟨h1, h2, h3⟩ := Catenary2d.refresh_params k
    exact ⟨fun _ => h3, fun _ => h1, fun _ => h2⟩
  | _ => refine ⟨fun h => ?_, fun h => ?_, fun h => ?_⟩ <;> first | rfl | exact absurd rfl (h _)

theorem catenary2d_positive {k : Catenary2d} (h : k.validate.1 = true) :
    0 < k.tensionHorizontal ∧ 0 < k.weightUnit ∧ 0 < k.spacing.x := by
  unfold Catenary2d.validate at h
  simp only at h
  split_ifs at h with h1 h2 h3 h4 <;> simp_all

/-- A 2D catenary that Validate accepts has been given the spacing, the tension and the unit weight. -/
theorem C142_catenary2d {es : List Catenary2d.Event} (h : (es.foldl Catenary2d.Event.next Catenary2d.new).validate.1 = true) :
    (∃ x, .setSpacing x ∈ es) ∧ (∃ x, .setTension x ∈ es) ∧ ∃ x, .setWeight x ∈ es := by
  set k := es.foldl Catenary2d.Event.next Catenary2d.new with hk
  obtain ⟨v1, v2, v3⟩ := catenary2d_positive h
  refine ⟨?_, ?_, ?_⟩
  · obtain ⟨c, hc, x, rfl⟩ := member_changed Catenary2d.Event.next Catenary2d.spacing (fun c => ∃ x, c = .setSpacing x)
      (fun s c hn => (catenary2d_frame s c).1 (by push Not at hn; exact hn)) Catenary2d.new es (fun e => by
        have : k.spacing = ⟨-999999, -999999⟩ := e
        rw [this] at v3; norm_num at v3)
    exact ⟨x, hc⟩
  · obtain ⟨c, hc, x, rfl⟩ := member_changed Catenary2d.Event.next Catenary2d.tensionHorizontal
      (fun c => ∃ x, c = .setTension x)
      (fun s c hn => (catenary2d_frame s c).2.1 (by push Not at hn; exact hn)) Catenary2d.new es (fun e => by
        have : k.tensionHorizontal = -999999 := e
        rw [this] at v1; norm_num at v1)
    exact ⟨x, hc⟩
  · obtain ⟨c, hc, x, rfl⟩ := member_changed Catenary2d.Event.next Catenary2d.weightUnit
      (fun c => ∃ x, c = .setWeight x)
      (fun s c hn => (catenary2d_frame s c).2.2 (by push Not at hn; exact hn)) Catenary2d.new es (fun e => by
        have : k.weightUnit = -999999 := e
        rw [this] at v2; norm_num at v2)
    exact ⟨x, hc⟩

theorem catenary3d_frame (k : Catenary3d) (c : Catenary3d.Event) :
    ((∀ x, c ≠ .setSpacing x) → (c.next k).spacing = k.spacing) ∧
    ((∀ x, c ≠ .setTension x) → (c.next k).tensionHorizontal = k.tensionHorizontal) ∧
    ((∀ x, c ≠ .setWeight x) → (c.next k).weightUnit = k.weightUnit) := by
  obtain ⟨-, h1, h2, h3⟩ := Catenary3d.refresh_params k
  cases c with
  | query =>
    refine ⟨fun _ => h1, fun _ => ?_, fun _ => h2⟩
    exact (Catenary2d.refresh_params k.refresh.catenary2d).1.trans h3
  | touch => exact ⟨fun _ => h1, fun _ => h3, fun _ => h2⟩
  | _ => refine ⟨fun h => ?_, fun h => ?_, fun h => ?_⟩ <;> first | rfl | exact absurd rfl (h _)

/-- A 3D catenary that Validate accepts has been given the spacing, the tension and the unit weight; the direction has
a default. -/
theorem C142_catenary3d {es : List Catenary3d.Event} (h : (es.foldl Catenary3d.Event.next Catenary3d.new).validate.1 = true) :
    (∃ x, .setSpacing x ∈ es) ∧ (∃ x, .setTension x ∈ es) ∧ ∃ x, .setWeight x ∈ es := by
  set k := es.foldl Catenary3d.Event.next Catenary3d.new with hk
  have P := C54_validate_physical ⟨es, hk⟩ h
  refine ⟨?_, ?_, ?_⟩
  · obtain ⟨c, hc, x, rfl⟩ := member_changed Catenary3d.Event.next Catenary3d.spacing (fun c => ∃ x, c = .setSpacing x)
      (fun s c hn => (catenary3d_frame s c).1 (by push Not at hn; exact hn)) Catenary3d.new es (fun e => by
        have : k.spacing = ⟨-999999, -999999, -999999⟩ := e
        have v := P.sx
        rw [this] at v; norm_num at v)
    exact ⟨x, hc⟩
  · obtain ⟨c, hc, x, rfl⟩ := member_changed Catenary3d.Event.next Catenary3d.tensionHorizontal
      (fun c => ∃ x, c = .setTension x)
      (fun s c hn => (catenary3d_frame s c).2.1 (by push Not at hn; exact hn)) Catenary3d.new es (fun e => by
        have e1 : k.tensionHorizontal = -999999 := e
        have e2 := P.h
        rw [e1] at e2; norm_num at e2)
    exact ⟨x, hc⟩
  · obtain ⟨c, hc, x, rfl⟩ := member_changed Catenary3d.Event.next Catenary3d.weightUnit
      (fun c => ∃ x, c = .setWeight x)
      (fun s c hn => (catenary3d_frame s c).2.2 (by push Not at hn; exact hn)) Catenary3d.new es (fun e => by
        have : k.weightUnit = ⟨-999999, -999999, -999999⟩ := e
        have v := P.wz
        rw [this] at v; norm_num at v)
    exact ⟨x, hc⟩

open CatenarySolver in
theorem solver_update_frame (s : CatenarySolver) : s.update.2.catenary.spacing = s.catenary.spacing ∧
    s.update.2.catenary.weightUnit = s.catenary.weightUnit ∧ s.update.2.typeTarget = s.typeTarget ∧
    s.update.2.valueTarget = s.valueTarget := by
  have hk : ∀ {s' : CatenarySolver} {b : Bool}, s.solve = some (b, s') →
      (s'.catenary.spacing = s.catenary.spacing ∧ s'.catenary.weightUnit = s.catenary.weightUnit) ∧
      s'.typeTarget = s.typeTarget ∧ s'.valueTarget = s.valueTarget := by
    intro s' b h
    have := solve_kept (I := fun k => k.spacing = s.catenary.spacing ∧ k.weightUnit = s.catenary.weightUnit)
      ⟨fun _ _ h => h, fun k h => ⟨(Catenary3d.refresh_params k).2.1.trans h.1,
        (Catenary3d.refresh_params k).2.2.1.trans h.2⟩⟩ h ⟨rfl, rfl⟩
    exact ⟨this.1, this.2.2.1, this.2.2.2.1⟩
  unfold update
  match hs : s.solve with
  | none => exact ⟨rfl, rfl, rfl, rfl⟩
  | some (false, s') => exact ⟨(hk hs).1.1, (hk hs).1.2, (hk hs).2⟩
  | some (true, s') =>
    exact ⟨(Catenary3d.refresh_params s'.catenary).2.1.trans (hk hs).1.1,
      (Catenary3d.refresh_params s'.catenary).2.2.1.trans (hk hs).1.2, (hk hs).2⟩

open CatenarySolver in
theorem solver_frame (s : CatenarySolver) (c : CatenarySolver.Event) :
    ((∀ x, c ≠ .setSpacing x) → (c.next s).catenary.spacing = s.catenary.spacing) ∧
    ((∀ x, c ≠ .setWeight x) → (c.next s).catenary.weightUnit = s.catenary.weightUnit) ∧
    ((∀ x, c ≠ .setTypeTarget x) → (c.next s).typeTarget = s.typeTarget) ∧
    ((∀ x, c ≠ .setValueTarget x) → (c.next s).valueTarget = s.valueTarget) := by
  have hu := solver_update_frame s
  have hs : s.catenary.spacing = s.catenary.spacing ∧ s.catenary.weightUnit = s.catenary.weightUnit ∧
    s.typeTarget = s.typeTarget ∧ s.valueTarget = s.valueTarget := ⟨rfl, rfl, rfl, rfl⟩
  have all : ∀ {t : CatenarySolver}, t.catenary.spacing = s.catenary.spacing ∧
      t.catenary.weightUnit = s.catenary.weightUnit ∧ t.typeTarget = s.typeTarget ∧ t.valueTarget = s.valueTarget →
      ((∀ x, c ≠ .setSpacing x) → t.catenary.spacing = s.catenary.spacing) ∧
      ((∀ x, c ≠ .setWeight x) → t.catenary.weightUnit = s.catenary.weightUnit) ∧
      ((∀ x, c ≠ .setTypeTarget x) → t.typeTarget = s.typeTarget) ∧
      ((∀ x, c ≠ .setValueTarget x) → t.valueTarget = s.valueTarget) :=
    fun h => ⟨fun _ => h.1, fun _ => h.2.1, fun _ => h.2.2.1, fun _ => h.2.2.2⟩
  cases c with
  | tensionHorizontal =>
    apply all
    unfold Event.next CatenarySolver.tensionHorizontal
    simp only
    split_ifs
    · exact hs
    · exact hu
    · exact hu
  | catenary =>
    apply all
    unfold Event.next catenaryQ
    simp only
    split_ifs
    · exact hs
    · exact hu
    · exact hu
  | validate =>
    apply all
    unfold Event.next CatenarySolver.validate
    simp only
    split_ifs
    · exact hu
    · exact hs
  | _ =>
    refine ⟨fun h => ?_, fun h => ?_, fun h => ?_, fun h => ?_⟩ <;> first | rfl | exact absurd rfl (h _)

/-- A catenary solver that Validate accepts has been given the spacing, the unit weight, the type of the target and
its value; the position of the target has a default. -/
theorem C142_solver {es : List CatenarySolver.Event}
    (h : (es.foldl CatenarySolver.Event.next CatenarySolver.new).validate.1 = true) :
    (∃ x, .setSpacing x ∈ es) ∧ (∃ x, .setWeight x ∈ es) ∧ (∃ x, .setTypeTarget x ∈ es) ∧
      ∃ x, .setValueTarget x ∈ es := by
  set s := es.foldl CatenarySolver.Event.next CatenarySolver.new with hs
  unfold CatenarySolver.validate at h
  split_ifs at h with hv
  obtain ⟨-, h1, -, -, h2, h3, -, -, h4⟩ := hv
  refine ⟨?_, ?_, ?_, ?_⟩
  · obtain ⟨c, hc, x, rfl⟩ := member_changed CatenarySolver.Event.next (fun s => s.catenary.spacing)
      (fun c => ∃ x, c = .setSpacing x)
      (fun s c hn => (solver_frame s c).1 (by push Not at hn; exact hn)) CatenarySolver.new es (fun e => h1 (by
        have : s.catenary.spacing = ⟨-999999, -999999, -999999⟩ := e
        rw [this]; norm_num))
    exact ⟨x, hc⟩
  · obtain ⟨c, hc, x, rfl⟩ := member_changed CatenarySolver.Event.next (fun s => s.catenary.weightUnit)
      (fun c => ∃ x, c = .setWeight x)
      (fun s c hn => (solver_frame s c).2.1 (by push Not at hn; exact hn)) CatenarySolver.new es (fun e => h4 (by
        have : s.catenary.weightUnit = ⟨-999999, -999999, -999999⟩ := e
        rw [this]; norm_num))
    exact ⟨x, hc⟩
  · obtain ⟨c, hc, x, rfl⟩ := member_changed CatenarySolver.Event.next CatenarySolver.typeTarget
      (fun c => ∃ x, c = .setTypeTarget x)
      (fun s c hn => (solver_frame s c).2.2.1 (by push Not at hn; exact hn)) CatenarySolver.new es (fun e => h2 e)
    exact ⟨x, hc⟩
  · obtain ⟨c, hc, x, rfl⟩ := member_changed CatenarySolver.Event.next CatenarySolver.valueTarget
      (fun c => ∃ x, c = .setValueTarget x)
      (fun s c hn => (solver_frame s c).2.2.2 (by push Not at hn; exact hn)) CatenarySolver.new es (fun e => h3 (by
        have : s.valueTarget = -999999 := e
        rw [this]; norm_num))
    exact ⟨x, hc⟩

/-! ## Saggers -/

theorem transit_frame {s s' : TransitSagger} {c : TransitSagger.Call} (hn : c.next s = some s') :
    ((∀ x, c ≠ .setCatenary x) → s'.catenary = s.catenary) ∧
    ((∀ x, c ≠ .setPoint x) → s'.pointTransit = s.pointTransit) := by
  obtain ⟨t, b, hu, h1, h2, -⟩ := Transit.update_ok s
  cases c with
  | setCatenary x => cases hn; exact ⟨fun h => absurd rfl (h x), fun _ => rfl⟩
  | setPoint x => cases hn; exact ⟨fun _ => rfl, fun h => absurd rfl (h x)⟩
  | query =>
    unfold TransitSagger.Call.next TransitSagger.refresh at hn
    simp only at hn
    split_ifs at hn
    · cases hn; exact ⟨fun _ => rfl, fun _ => rfl⟩
    · rw [hu] at hn; cases hn; exact ⟨fun _ => h1, fun _ => h2⟩
  | validate =>
    unfold TransitSagger.Call.next TransitSagger.validate at hn
    simp only at hn
    split_ifs at hn
    · cases hn; exact ⟨fun _ => rfl, fun _ => rfl⟩
    · rw [hu] at hn; cases hn; exact ⟨fun _ => h1, fun _ => h2⟩

/-- A transit sagger that Validate accepts has been given a catenary and the place of the transit. -/
theorem C142_transit {calls : List TransitSagger.Call} {s s' : TransitSagger}
    (hr : calls.foldlM (fun s c => TransitSagger.Call.next s c) TransitSagger.new = some s)
    (h : s.validate = some (.ok s' true)) : (∃ x, .setCatenary x ∈ calls) ∧ ∃ x, .setPoint x ∈ calls := by
  have key := fun {V : Type} (f : TransitSagger → V) (P : TransitSagger.Call → Prop) hh hf =>
    member_changed' (fun c s => TransitSagger.Call.next s c) f P hh
      (fun s cs => cs.foldlM (fun s c => TransitSagger.Call.next s c) s) (fun _ => rfl)
      (fun _ _ _ => rfl) TransitSagger.new s calls hr hf
  unfold TransitSagger.validate at h
  split_ifs at h with he
  · cases h
  · push Not at he
    unfold TransitSagger.errors at he
    simp only [List.append_eq_nil_iff, ite_eq_right_iff, List.cons_ne_nil, imp_false] at he
    obtain ⟨⟨⟨h1, h2⟩, h3⟩, h4⟩ := he
    refine ⟨?_, ?_⟩
    · obtain ⟨c, hc, x, rfl⟩ := key TransitSagger.catenary (fun c => ∃ x, c = .setCatenary x)
        (fun s c s' hn e => (transit_frame e).1 (by push Not at hn; exact hn)) (fun e => h1 (by
          have : s.catenary = Catenary3d.new := e
          rw [this]; norm_num [Catenary3d.validate, Catenary3d.new]))
      exact ⟨x, hc⟩
    · obtain ⟨c, hc, x, rfl⟩ := key TransitSagger.pointTransit (fun c => ∃ x, c = .setPoint x)
        (fun s c s' hn e => (transit_frame e).2 (by push Not at hn; exact hn)) (fun e => h2 (by
          have : s.pointTransit = TransitSagger.nullPoint := e
          rw [this]; rfl))
      exact ⟨x, hc⟩

/-- The claim is false for the stopwatch sagger: one that was never given units is accepted. -/
theorem C142_stopwatch_fails : ∃ calls : List StopwatchSagger.Call, ∃ s,
    calls.foldlM (fun s c => StopwatchSagger.Call.next s c) StopwatchSagger.new = some s ∧ s.validate = true ∧
      ∀ x, .setUnits x ∉ calls :=
  ⟨[.setCatenary exSpan], StopwatchSagger.new.setCatenary exSpan, rfl, exSpan_valid, by simp⟩

theorem stopwatch_frame {s s' : StopwatchSagger} {c : StopwatchSagger.Call} (hn : c.next s = some s')
    (h : ∀ x, c ≠ .setCatenary x) : s'.catenary = s.catenary := by
  have hu : s.update.1.catenary = s.catenary := by
    unfold StopwatchSagger.update
    split <;> rfl
  have hr : s.refresh.1.catenary = s.catenary := by
    unfold StopwatchSagger.refresh
    split_ifs
    · rfl
    · exact hu
  cases c with
  | setCatenary x => exact absurd rfl (h x)
  | setUnits x => cases hn; rfl
  | timeReturn n =>
    simp only [StopwatchSagger.Call.next, StopwatchSagger.timeReturn] at hn
    split_ifs at hn <;> first | (cases hn; exact hr) | cases hn
  | velocityWave =>
    simp only [StopwatchSagger.Call.next, StopwatchSagger.velocityWave] at hn
    split_ifs at hn <;> (cases hn; exact hr)

/-- The stopwatch sagger, what holds: one that Validate accepts has been given a catenary.  Missing: the units. -/
theorem C142_stopwatch_partial {calls : List StopwatchSagger.Call} {s : StopwatchSagger}
    (hr : calls.foldlM (fun s c => StopwatchSagger.Call.next s c) StopwatchSagger.new = some s)
    (h : s.validate = true) : ∃ x, .setCatenary x ∈ calls := by
  obtain ⟨c, hc, x, rfl⟩ := member_changed' (fun c s => StopwatchSagger.Call.next s c) StopwatchSagger.catenary
    (fun c => ∃ x, c = .setCatenary x) (fun s c s' hn e => stopwatch_frame e (by push Not at hn; exact hn))
    (fun s cs => cs.foldlM (fun s c => StopwatchSagger.Call.next s c) s) (fun _ => rfl) (fun _ _ _ => rfl)
    StopwatchSagger.new s calls hr (fun e => by
      unfold StopwatchSagger.validate at h
      have : s.catenary = Catenary3d.new := e
      rw [this] at h; norm_num [Catenary3d.validate, Catenary3d.new] at h)
  exact ⟨x, hc⟩

/-! ## Strainer -/

/-- The setters of a strainer. -/
inductive StrainerCall where
  | lengthStart (x : ℝ)
  | loadFinish (x : ℝ)
  | loadStart (x : ℝ)
  | modelFinish (m : Option ElongationModel)
  | modelStart (m : Option ElongationModel)

/-- The strainer after a call. -/
def StrainerCall.next (s : CableStrainer) : StrainerCall → CableStrainer
  | .lengthStart x => s.setLengthStart x
  | .loadFinish x => s.setLoadFinish x
  | .loadStart x => s.setLoadStart x
  | .modelFinish m => s.setModelFinish m
  | .modelStart m => s.setModelStart m

theorem strainer_frame (s : CableStrainer) (c : StrainerCall) :
    ((∀ x, c ≠ .lengthStart x) → (c.next s).lengthStart = s.lengthStart) ∧
    ((∀ x, c ≠ .loadFinish x) → (c.next s).loadFinish = s.loadFinish) ∧
    ((∀ x, c ≠ .loadStart x) → (c.next s).loadStart = s.loadStart) ∧
    ((∀ x, c ≠ .modelFinish x) → (c.next s).modelFinish = s.modelFinish) ∧
    ((∀ x, c ≠ .modelStart x) → (c.next s).modelStart = s.modelStart) := by
  cases c <;> refine ⟨fun h => ?_, fun h => ?_, fun h => ?_, fun h => ?_, fun h => ?_⟩ <;>
    first | rfl | exact absurd rfl (h _)

/-- A strainer that Validate accepts has been given the start length, both loads and both models. -/
theorem C142_strainer {calls : List StrainerCall} {same : Bool}
    (h : (calls.foldl StrainerCall.next CableStrainer.new).validate same = .val true) :
    (∃ x, .lengthStart x ∈ calls) ∧ (∃ x, .loadFinish x ∈ calls) ∧ (∃ x, .loadStart x ∈ calls) ∧
      (∃ x, .modelFinish x ∈ calls) ∧ ∃ x, .modelStart x ∈ calls := by
  set s := calls.foldl StrainerCall.next CableStrainer.new with hs
  obtain ⟨h1, h2, h3, -, a, b, a', b', h4, h5, -⟩ := (C141_strainer_accepts s same).1 h
  refine ⟨?_, ?_, ?_, ?_, ?_⟩
  · obtain ⟨c, hc, x, rfl⟩ := member_changed StrainerCall.next CableStrainer.lengthStart
      (fun c => ∃ x, c = .lengthStart x)
      (fun s c hn => (strainer_frame s c).1 (by push Not at hn; exact hn)) CableStrainer.new calls (fun e => by
        have : s.lengthStart = -999999 := e
        rw [this] at h1; norm_num at h1)
    exact ⟨x, hc⟩
  · obtain ⟨c, hc, x, rfl⟩ := member_changed StrainerCall.next CableStrainer.loadFinish
      (fun c => ∃ x, c = .loadFinish x)
      (fun s c hn => (strainer_frame s c).2.1 (by push Not at hn; exact hn)) CableStrainer.new calls (fun e => by
        have : s.loadFinish = -999999 := e
        rw [this] at h3; norm_num at h3)
    exact ⟨x, hc⟩
  · obtain ⟨c, hc, x, rfl⟩ := member_changed StrainerCall.next CableStrainer.loadStart
      (fun c => ∃ x, c = .loadStart x)
      (fun s c hn => (strainer_frame s c).2.2.1 (by push Not at hn; exact hn)) CableStrainer.new calls (fun e => by
        have : s.loadStart = -999999 := e
        rw [this] at h2; norm_num at h2)
    exact ⟨x, hc⟩
  · obtain ⟨c, hc, x, rfl⟩ := member_changed StrainerCall.next CableStrainer.modelFinish
      (fun c => ∃ x, c = .modelFinish x)
      (fun s c hn => (strainer_frame s c).2.2.2.1 (by push Not at hn; exact hn)) CableStrainer.new calls (fun e => by
        have : s.modelFinish = none := e
        rw [this] at h5; cases h5)
    exact ⟨x, hc⟩
  · obtain ⟨c, hc, x, rfl⟩ := member_changed StrainerCall.next CableStrainer.modelStart
      (fun c => ∃ x, c = .modelStart x)
      (fun s c hn => (strainer_frame s c).2.2.2.2 (by push Not at hn; exact hn)) CableStrainer.new calls (fun e => by
        have : s.modelStart = none := e
        rw [this] at h4; cases h4)
    exact ⟨x, hc⟩

/-! ## Accepted objects -/

/-- A current solver with everything set is accepted. -/
example : (currentAfter [.setCable (some (some exThermal)), .setTemperature 50, .setUnits .metric,
    .setWeather (some (exWeather 0))]).validate.2 = true := by
  have hv : heatValid (some (some exThermal)) .metric (some (exWeather 0)) = true :=
    (heatValid_iff _ _ _).2 ⟨_, _, rfl, rfl, exThermal_valid, by decide, exWeather_valid le_rfl⟩
  have e : currentAfter [.setCable (some (some exThermal)), .setTemperature 50, .setUnits .metric,
    .setWeather (some (exWeather 0))] = ⟨some (some exThermal), some 50, .metric, some (exWeather 0), HeatState.new,
      some (-999999), false⟩ := rfl
  rw [e]
  unfold CurrentSolver.validate CurrentSolver.update
  simp only [hv, exThermal_valid, exWeather_valid le_rfl]
  norm_num
  decide

/-- So is a strainer. -/
example : ([.lengthStart 1000, .loadFinish 0, .loadStart 50, .modelStart (some exSpring),
    .modelFinish (some exSpring)].foldl StrainerCall.next CableStrainer.new).validate true = .val true :=
  exStrainer_accepted

/-- So is the catenary of the sagging examples. -/
example : ∃ es : List Catenary3d.Event, (es.foldl Catenary3d.Event.next Catenary3d.new).validate.1 = true := by
  obtain ⟨es, h⟩ := exSpan_reachable
  exact ⟨es, h ▸ exSpan_valid⟩

end Verif.Props
