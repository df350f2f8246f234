import Verif.Props.PointeeEdits

/-!
# C67: histories of the steady temperature solver
-/

set_option linter.unusedSectionVars false

namespace Verif.Props
open Verif

/-- Calls on a `SteadyCableTemperatureSolver`. -/
inductive TemperatureCall where
  | setCable (c : CablePointer)
  | setCurrent (i : ℝ)
  | setUnits (u : UnitSystem)
  | setWeather (w : Option ThermalWeather)
  | temperature
  | state
  | validate

/-- The solver after a call; `none` is undefined behaviour. -/
noncomputable def TemperatureCall.next (s : TemperatureSolver) : TemperatureCall → Option TemperatureSolver
  | .setCable c => some (s.setCable c)
  | .setCurrent i => some (s.setCurrent i)
  | .setUnits u => some (s.setUnits u)
  | .setWeather w => some (s.setWeather w)
  | .temperature => match s.askTemperature with
    | .ok s' _ => some s'
    | .throws s' => some s'
    | .ub => none
  | .state => match s.askState with
    | .ok s' _ => some s'
    | .throws s' => some s'
    | .ub => none
  | .validate => match s.validate with
    | .ok s' _ => some s'
    | .throws s' => some s'
    | .ub => none

/-- The solver after calls. -/
noncomputable def temperatureCalls (s : TemperatureSolver) : List TemperatureCall → Option TemperatureSolver
  | [] => some s
  | c :: cs => (c.next s).bind fun s => temperatureCalls s cs

/-- Calls after which the solver computes anew. -/
def TemperatureCall.Resets : TemperatureCall → Prop
  | .setCable _ | .setCurrent _ => True
  | _ => False

/-- Calls that change a setting. -/
def TemperatureCall.Sets : TemperatureCall → Prop
  | .setCable _ | .setCurrent _ | .setUnits _ | .setWeather _ => True
  | _ => False

/-- Calls that leave units and weather alone. -/
def TemperatureCall.Keeps : TemperatureCall → Prop
  | .setUnits _ | .setWeather _ => False
  | _ => True

/-- What is cached belongs to the settings. -/
def TemperatureFresh (s : TemperatureSolver) : Prop := s.isUpdated = true → s.update = .ok s true

theorem temperatureUpdate_cases (s : TemperatureSolver) : s.update = .ub ∨
    (∃ s', s.update = .ok s' true ∧ TemperatureFresh s') ∨ ∃ s', s.update = .ok s' false ∧ TemperatureFresh s' := by
  unfold TemperatureSolver.update
  cases hw : s.weather with
  | none => exact Or.inl rfl
  | some w =>
    right
    simp only
    split_ifs with h
    · refine Or.inl ⟨_, rfl, fun _ => ?_⟩
      unfold TemperatureSolver.update
      simp only [if_pos h]
    · exact Or.inr ⟨_, rfl, fun h => by cases h⟩

theorem temperatureRefresh (s : TemperatureSolver) (h : TemperatureFresh s) : s.refresh = s.update := by
  unfold TemperatureSolver.refresh
  split_ifs with hu
  · exact (h hu).symm
  · rfl

theorem temperatureNext_fresh {s s' : TemperatureSolver} (h : TemperatureFresh s) {c : TemperatureCall}
    (hc : c.Keeps) (hn : c.next s = some s') : TemperatureFresh s' := by
  cases c with
  | setCable => cases hn; intro hu; cases hu
  | setCurrent => cases hn; intro hu; cases hu
  | setUnits => exact hc.elim
  | setWeather => exact hc.elim
  | temperature =>
    simp only [TemperatureCall.next, TemperatureSolver.askTemperature, temperatureRefresh s h] at hn
    rcases temperatureUpdate_cases s with e | ⟨t, e, f⟩ | ⟨t, e, f⟩ <;> rw [e] at hn <;> cases hn <;> exact f
  | state =>
    simp only [TemperatureCall.next, TemperatureSolver.askState, temperatureRefresh s h] at hn
    rcases temperatureUpdate_cases s with e | ⟨t, e, f⟩ | ⟨t, e, f⟩ <;> rw [e] at hn <;> cases hn <;> exact f
  | validate =>
    simp only [TemperatureCall.next, TemperatureSolver.validate] at hn
    rcases temperatureUpdate_cases s with e | ⟨t, e, f⟩ | ⟨t, e, f⟩ <;> rw [e] at hn <;> cases hn <;> exact f

theorem temperatureCalls_fresh {s s' : TemperatureSolver} (h : TemperatureFresh s) (cs : List TemperatureCall)
    (hc : ∀ c ∈ cs, c.Keeps) (hn : temperatureCalls s cs = some s') : TemperatureFresh s' := by
  induction cs generalizing s with
  | nil => cases hn; exact h
  | cons c cs ih =>
    obtain ⟨s1, h1, h2⟩ := Option.bind_eq_some_iff.1 hn
    exact ih (temperatureNext_fresh h (hc c (List.mem_cons_self ..)) h1)
      (fun c h => hc c (List.mem_cons_of_mem _ h)) h2

theorem temperatureCalls_append (s : TemperatureSolver) (a b : List TemperatureCall) :
    temperatureCalls s (a ++ b) = (temperatureCalls s a).bind fun s => temperatureCalls s b := by
  induction a generalizing s with
  | nil => rfl
  | cons c a ih =>
    simp only [List.cons_append, temperatureCalls, Option.bind_assoc]
    congr 1
    funext s
    exact ih s

theorem temperatureSets_unset {s s' : TemperatureSolver} (h : s.isUpdated = false) (cs : List TemperatureCall)
    (hc : ∀ c ∈ cs, c.Sets) (hn : temperatureCalls s cs = some s') : s'.isUpdated = false := by
  induction cs generalizing s with
  | nil => cases hn; exact h
  | cons c cs ih =>
    obtain ⟨s1, h1, h2⟩ := Option.bind_eq_some_iff.1 hn
    refine ih ?_ (fun c h => hc c (List.mem_cons_of_mem _ h)) h2
    have := hc c (List.mem_cons_self ..)
    cases c <;> first | exact this.elim | (cases h1; first | rfl | exact h)

/-- The settings as they were last set, read off the calls. -/
structure TemperatureSettings where
  cable : CablePointer
  current : ℝ
  units : UnitSystem
  weather : Option ThermalWeather

/-- The settings after a call. -/
def TemperatureCall.settings (x : TemperatureSettings) : TemperatureCall → TemperatureSettings
  | .setCable c => { x with cable := c }
  | .setCurrent i => { x with current := i }
  | .setUnits u => { x with units := u }
  | .setWeather w => { x with weather := w }
  | _ => x

/-- The settings after calls on a new solver. -/
noncomputable def temperatureSettings (cs : List TemperatureCall) : TemperatureSettings :=
  cs.foldl TemperatureCall.settings ⟨none, -999999, .null, none⟩

/-- The settings of a solver. -/
def settingsOf (s : TemperatureSolver) : TemperatureSettings := ⟨s.cable, s.current, s.units, s.weather⟩

theorem temperatureUpdate_settings {s s' : TemperatureSolver} {b : Bool} (h : s.update = .ok s' b) :
    settingsOf s' = settingsOf s := by
  unfold TemperatureSolver.update at h
  split at h
  · cases h
  · simp only at h
    split_ifs at h <;> cases h <;> rfl

theorem temperatureNext_settings {s s' : TemperatureSolver} {c : TemperatureCall} (hn : c.next s = some s') :
    settingsOf s' = c.settings (settingsOf s) := by
  have R : ∀ {t : TemperatureSolver} {b : Bool}, s.refresh = .ok t b → settingsOf t = settingsOf s := by
    intro t b h
    unfold TemperatureSolver.refresh at h
    split_ifs at h
    · cases h; rfl
    · exact temperatureUpdate_settings h
  have nothrow : ∀ t, s.refresh ≠ .throws t := by
    intro t h
    unfold TemperatureSolver.refresh at h
    split_ifs at h
    rcases temperatureUpdate_cases s with e | ⟨t, e, f⟩ | ⟨t, e, f⟩ <;> rw [e] at h <;> cases h
  cases c with
  | setCable => cases hn; rfl
  | setCurrent => cases hn; rfl
  | setUnits => cases hn; rfl
  | setWeather => cases hn; rfl
  | temperature =>
    simp only [TemperatureCall.next, TemperatureSolver.askTemperature] at hn
    rcases hr : s.refresh with ⟨t, _ | _⟩ | t <;> rw [hr] at hn <;> cases hn
    · exact R hr
    · exact R hr
    · exact absurd hr (nothrow _)
  | state =>
    simp only [TemperatureCall.next, TemperatureSolver.askState] at hn
    rcases hr : s.refresh with ⟨t, _ | _⟩ | t <;> rw [hr] at hn <;> cases hn
    · exact R hr
    · exact R hr
    · exact absurd hr (nothrow _)
  | validate =>
    simp only [TemperatureCall.next, TemperatureSolver.validate] at hn
    rcases temperatureUpdate_cases s with e | ⟨t, e, f⟩ | ⟨t, e, f⟩ <;> rw [e] at hn <;> cases hn
    · exact temperatureUpdate_settings e
    · exact temperatureUpdate_settings e

theorem temperatureCalls_settings {s s' : TemperatureSolver} (cs : List TemperatureCall)
    (hn : temperatureCalls s cs = some s') : settingsOf s' = cs.foldl TemperatureCall.settings (settingsOf s) := by
  induction cs generalizing s with
  | nil => cases hn; rfl
  | cons c cs ih =>
    obtain ⟨s1, h1, h2⟩ := Option.bind_eq_some_iff.1 hn
    rw [ih h2, temperatureNext_settings h1]
    rfl

/-- C67 (partial), the temperature solver.  Take any calls `p`, `q`, `r` on a new solver where `p` is empty or ends with
a change of cable or current, `q` changes settings only, and `r` leaves units and weather alone.  Then
`TemperatureCable()` and `StateHeatTransfer()` answer what a new solver answers that is given the cable, current, units
and weather last set.

Missing: changes of units and weather after a query, for which it is false (C67_temperature_ignores). -/
theorem C67_temperature_partial (p q r : List TemperatureCall)
    (hp : p = [] ∨ ∃ p' c, p = p' ++ [c] ∧ c.Resets) (hq : ∀ c ∈ q, c.Sets) (hr : ∀ c ∈ r, c.Keeps)
    (s : TemperatureSolver) (h : temperatureCalls .new (p ++ q ++ r) = some s) :
    let x := temperatureSettings (p ++ q ++ r)
    let n := temperatureSetup x.cable x.current x.units x.weather
    resultOf s.askTemperature = resultOf n.askTemperature ∧ resultOf s.askState = resultOf n.askState := by
  intro x n
  have hx : settingsOf s = x := temperatureCalls_settings _ h
  rw [List.append_assoc, temperatureCalls_append] at h
  obtain ⟨s1, h1, h⟩ := Option.bind_eq_some_iff.1 h
  rw [temperatureCalls_append] at h
  obtain ⟨s2, h2, h3⟩ := Option.bind_eq_some_iff.1 h
  have u1 : s1.isUpdated = false := by
    rcases hp with rfl | ⟨p', c, rfl, hc⟩
    · cases h1; rfl
    · rw [temperatureCalls_append] at h1
      obtain ⟨s0, h0, h1⟩ := Option.bind_eq_some_iff.1 h1
      cases c <;> first | exact hc.elim | (cases h1; rfl)
  have u2 := temperatureSets_unset u1 q hq h2
  have f : TemperatureFresh s := temperatureCalls_fresh (fun hu => by rw [u2] at hu; cases hu) r hr h3
  have e1 : n.weather = s.weather := by rw [show n.weather = x.weather from rfl, ← hx]; rfl
  have e2 : n.cable = s.cable := by rw [show n.cable = x.cable from rfl, ← hx]; rfl
  have e3 : n.current = s.current := by rw [show n.current = x.current from rfl, ← hx]; rfl
  have e4 : n.units = s.units := by rw [show n.units = x.units from rfl, ← hx]; rfl
  have e5 : n.refresh = n.update := rfl
  unfold TemperatureSolver.askTemperature TemperatureSolver.askState
  rw [temperatureRefresh s f, e5]
  unfold TemperatureSolver.update
  rw [e1, e2, e3, e4]
  cases s.weather with
  | none => exact ⟨rfl, rfl⟩
  | some w =>
    by_cases hi : (TemperatureSolver.search s.cable s.current s.units w).iter < 100
    · simp only [if_pos hi]
      exact ⟨trivial, trivial⟩
    · simp only [if_neg hi]
      exact ⟨trivial, trivial⟩

/-- A history with changed weather and current between queries to which it applies. -/
example (w w' : ThermalWeather) : ∃ s, temperatureCalls .new ([.setWeather (some w), .temperature, .setCurrent 20] ++
      [.setWeather (some w'), .setUnits .metric] ++ [.temperature, .state, .validate]) = some s ∧
    resultOf s.askTemperature = resultOf (temperatureSetup none 20 .metric (some w')).askTemperature := by
  have ask : ∀ s : TemperatureSolver, s.weather ≠ none → ∀ c : TemperatureCall, ∃ s', c.next s = some s' := by
    intro s hw c
    have hu : s.update ≠ .ub := by
      unfold TemperatureSolver.update
      cases h : s.weather with
      | none => exact absurd h hw
      | some w => simp only; split_ifs <;> simp
    have hr : s.refresh ≠ .ub := by
      unfold TemperatureSolver.refresh
      split_ifs
      · simp
      · exact hu
    cases c with
    | setCable => exact ⟨_, rfl⟩
    | setCurrent => exact ⟨_, rfl⟩
    | setUnits => exact ⟨_, rfl⟩
    | setWeather => exact ⟨_, rfl⟩
    | temperature =>
      simp only [TemperatureCall.next, TemperatureSolver.askTemperature]
      rcases h : s.refresh with ⟨t, _ | _⟩ | t
      · exact ⟨_, rfl⟩
      · exact ⟨_, rfl⟩
      · exact ⟨_, rfl⟩
      · exact absurd h hr
    | state =>
      simp only [TemperatureCall.next, TemperatureSolver.askState]
      rcases h : s.refresh with ⟨t, _ | _⟩ | t
      · exact ⟨_, rfl⟩
      · exact ⟨_, rfl⟩
      · exact ⟨_, rfl⟩
      · exact absurd h hr
    | validate =>
      simp only [TemperatureCall.next, TemperatureSolver.validate]
      rcases h : s.update with ⟨t, b⟩ | t
      · exact ⟨_, rfl⟩
      · exact ⟨_, rfl⟩
      · exact absurd h hu
  have keep : ∀ (cs : List TemperatureCall) (s : TemperatureSolver), s.weather ≠ none →
      (∀ c ∈ cs, ∀ v, c = .setWeather v → v ≠ none) → ∃ s', temperatureCalls s cs = some s' := by
    intro cs
    induction cs with
    | nil => exact fun s _ _ => ⟨s, rfl⟩
    | cons c cs ih =>
      intro s hw hc
      obtain ⟨s1, h1⟩ := ask s hw c
      have hs := temperatureNext_settings h1
      have hw1 : s1.weather ≠ none := by
        have e : s1.weather = (c.settings (settingsOf s)).weather := by rw [← hs]; rfl
        rw [e]
        cases c with
        | setWeather v => exact hc _ (List.mem_cons_self ..) v rfl
        | _ => exact hw
      obtain ⟨s2, h2⟩ := ih s1 hw1 fun c h => hc c (List.mem_cons_of_mem _ h)
      exact ⟨s2, by simp only [temperatureCalls, h1, Option.bind_some]; exact h2⟩
  obtain ⟨s, hs⟩ := keep ([.temperature, .setCurrent 20] ++ [.setWeather (some w'), .setUnits .metric] ++
    [.temperature, .state, .validate]) (TemperatureSolver.new.setWeather (some w)) (by simp [TemperatureSolver.setWeather])
    (by simp)
  have hs' : temperatureCalls .new ([.setWeather (some w), .temperature, .setCurrent 20] ++
      [.setWeather (some w'), .setUnits .metric] ++ [.temperature, .state, .validate]) = some s := hs
  refine ⟨s, hs', (C67_temperature_partial _ _ _ (Or.inr ⟨[.setWeather (some w), .temperature], .setCurrent 20, rfl,
    trivial⟩) ?_ ?_ s hs').1⟩
  · simp [TemperatureCall.Sets]
  · simp [TemperatureCall.Keeps]

end Verif.Props
