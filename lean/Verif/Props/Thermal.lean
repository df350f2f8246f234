import Verif.ThermalLemmas

/-!
# Thermal rating (C66–C71, C95)
-/

set_option linter.unusedSectionVars false

namespace Verif.Props

open Verif

/-! ## Example data -/

/-- A component without heat capacity limits. -/
noncomputable def exThermalPart : CableComponent := ⟨1, 0, [], [], 0, 0, 0, 0, 0, 0⟩

/-- A cable of diameter 1 with resistance 1 at all temperatures. -/
noncomputable def exThermal : Cable :=
  ⟨1, 1, exThermalPart, exThermalPart, 1, 1 / 2, [⟨1, 0⟩, ⟨1, 100⟩], 0, 0, 1⟩

/-- Weather at 0 degrees with some sun. -/
noncomputable def exWeather (sun : ℝ) : ThermalWeather := ⟨90, 0, sun, 1, 0⟩

theorem exThermal_valid : exThermal.validateThermal.1 = true := by
  rw [Cable.validateThermal_iff]
  norm_num [exThermal, exThermalPart]

theorem exWeather_valid {sun : ℝ} (h : 0 ≤ sun) : (exWeather sun).validate.1 = true := by
  rw [ThermalWeather.validate_iff]
  norm_num [exWeather, h]

theorem exThermal_resistance (t : ℝ) : exThermal.resistance t = 1 := by
  simp [Cable.resistance, exThermal, Cable.resistanceSearch, Helper.linearY]

/-! ## C68: the resistance table -/

theorem search_first {t : ℝ} {p q : ResistancePoint} (rest : List ResistancePoint) (h1 : p.temperature < t)
    (h2 : t ≠ q.temperature) : Cable.resistanceSearch t p q rest = (p, q) := by
  cases rest with
  | nil => rfl
  | cons a as =>
    rw [Cable.resistanceSearch]
    rcases lt_or_gt_of_ne h2 with h | h
    · rw [if_pos ⟨h1, h⟩]
    · rw [if_neg (fun hh => absurd hh.2 (not_lt.2 h.le)), if_pos ⟨h1, h⟩]

theorem search_last {t : ℝ} : ∀ (rest : List ResistancePoint) (p q : ResistancePoint),
    (p :: q :: rest).Pairwise (fun a b => a.temperature < b.temperature) →
    t ≤ p.temperature ∨ t = q.temperature →
    ∃ l, p :: q :: rest =
      l ++ [(Cable.resistanceSearch t p q rest).1, (Cable.resistanceSearch t p q rest).2]
  | [], p, q, _, _ => ⟨[], rfl⟩
  | a :: as, p, q, hp, h => by
    have hpq : p.temperature < q.temperature := (List.pairwise_cons.1 hp).1 q (by simp)
    have h1 : Cable.resistanceSearch t p q (a :: as) = Cable.resistanceSearch t q a as := by
      rw [Cable.resistanceSearch]
      rcases h with h | h
      · rw [if_neg (fun hh => absurd hh.1 (not_lt.2 h)), if_neg (fun hh => absurd hh.1 (not_lt.2 h))]
      · rw [if_neg (fun hh => absurd hh.2 (not_lt.2 h.ge)), if_neg (fun hh => absurd hh.2 (not_lt.2 h.le))]
    obtain ⟨l, hl⟩ := search_last as q a (List.pairwise_cons.1 hp).2 (by
      rcases h with h | h
      · left; linarith
      · left; exact h.le)
    rw [h1]
    exact ⟨p :: l, by rw [hl]; rfl⟩

/-- C68 (partial).  What `Resistance(t)` reports for a table with ascending temperatures.  Above the first
temperature (other than exactly at the second) it is on the line through the *first two* rows; at or below the first
temperature, and exactly at the second, it is on the line through the *last two* rows.  So a table of two rows is
interpolated (and extrapolated) as expected.

Missing: tables of three or more rows away from the first interval, see `C68_not_interpolated`. -/
theorem C68_resistance_partial (k : Cable) (t : ℝ)
    (ha : k.resistances.Pairwise (fun p q => p.temperature < q.temperature)) :
    (∀ p q rest, k.resistances = p :: q :: rest → p.temperature < t → t ≠ q.temperature →
      k.resistance t = p.resistance + (t - p.temperature) / (q.temperature - p.temperature) *
        (q.resistance - p.resistance)) ∧
    (∀ p q rest l p' q', k.resistances = p :: q :: rest → k.resistances = l ++ [p', q'] →
      t ≤ p.temperature ∨ t = q.temperature →
      k.resistance t = p'.resistance + (t - p'.temperature) / (q'.temperature - p'.temperature) *
        (q'.resistance - p'.resistance)) ∧
    (∀ p q, k.resistances = [p, q] →
      k.resistance t = p.resistance + (t - p.temperature) / (q.temperature - p.temperature) *
        (q.resistance - p.resistance) ∧
      (t = p.temperature → k.resistance t = p.resistance) ∧ (t = q.temperature → k.resistance t = q.resistance)) := by
  refine ⟨?_, ?_, ?_⟩
  · intro p q rest he h1 hne
    unfold Cable.resistance
    rw [he]
    simp only [search_first rest h1 hne, Helper.linearY]
    ring
  · intro p q rest l p' q' he he' h
    rw [he] at ha
    obtain ⟨l', hl'⟩ := search_last rest p q ha h
    rw [he, hl'] at he'
    have : l' = l ∧ [(Cable.resistanceSearch t p q rest).1, (Cable.resistanceSearch t p q rest).2] = [p', q'] :=
      List.append_inj' he' rfl
    obtain ⟨-, h3⟩ := this
    simp only [List.cons.injEq, and_true] at h3
    unfold Cable.resistance
    rw [he]
    simp only [h3.1, h3.2, Helper.linearY]
    ring
  · intro p q he
    have hpq : p.temperature < q.temperature := by
      rw [he] at ha
      exact (List.pairwise_cons.1 ha).1 q (by simp)
    have hr : k.resistance t = p.resistance + (t - p.temperature) / (q.temperature - p.temperature) *
        (q.resistance - p.resistance) := by
      unfold Cable.resistance
      rw [he]
      simp only [Cable.resistanceSearch, Helper.linearY]
      ring
    refine ⟨hr, fun h => ?_, fun h => ?_⟩
    · rw [hr, h]; simp
    · rw [hr, h, div_self (by linarith)]; ring

/-- The table of `exThermal` meets the hypotheses and gives 1 half way. -/
example : exThermal.resistance 50 = 1 :=
  (C68_resistance_partial exThermal 50 (by norm_num [exThermal])).2.2 ⟨1, 0⟩ ⟨1, 100⟩ rfl
    |>.1.trans (by norm_num)

/-- A valid cable with three rows. -/
noncomputable def threeRows : Cable := { exThermal with resistances := [⟨1, 0⟩, ⟨2, 100⟩, ⟨4, 200⟩] }

/-- C68 does not hold: on a valid table of three rows `Resistance` misses the first and the last tabulated value. -/
theorem C68_not_interpolated :
    threeRows.validateThermal.1 = true ∧ (⟨1, 0⟩ : ResistancePoint) ∈ threeRows.resistances ∧
    (⟨4, 200⟩ : ResistancePoint) ∈ threeRows.resistances ∧ threeRows.resistance 0 = 0 ∧
    threeRows.resistance 200 = 3 ∧ threeRows.resistance 150 = 5 / 2 := by
  refine ⟨?_, by simp [threeRows], by simp [threeRows], ?_, ?_, ?_⟩
  · rw [Cable.validateThermal_iff]
    norm_num [threeRows, exThermal, exThermalPart]
  all_goals
    norm_num [Cable.resistance, threeRows, Cable.resistanceSearch, Helper.linearY]

/-! ## C69: radiation and convection -/

/-- C69.  For a cable and weather that pass validation and a unit system: above the air temperature convection is a
number and takes heat from the cable; radiation does not add heat, and its magnitude grows strictly with the
temperature when the emissivity is not zero; at the air temperature both are zero. -/
theorem C69_cooling (k : Cable) (u : UnitSystem) (w : ThermalWeather) (hk : k.validateThermal.1 = true)
    (hu : u ≠ .null) (hw : w.validate.1 = true) :
    (∀ t, w.temperatureAir < t →
      (∃ c, Heat.convection k u w t = some c ∧ c < 0) ∧ Heat.radiation k u w t ≤ 0 ∧
      (0 < k.emissivity → Heat.radiation k u w t < 0)) ∧
    (0 < k.emissivity → ∀ s t, w.temperatureAir ≤ s → s < t →
      |Heat.radiation k u w s| < |Heat.radiation k u w t|) ∧
    Heat.convection k u w w.temperatureAir = some 0 ∧ Heat.radiation k u w w.temperatureAir = 0 := by
  rw [Cable.validateThermal_iff] at hk
  rw [ThermalWeather.validate_iff] at hw
  have hd := hk.1.2.1
  have he := hk.2.2.1.1
  have ha := hw.2.2.2.2.1
  refine ⟨fun t ht => ⟨Heat.convection_hot hu hd ha ht, Heat.radiation_nonpos hu hd he (by linarith) ht.le,
    fun he' => ?_⟩, fun he' s t hs ht => ?_, Heat.convection_air hu hd ha, Heat.radiation_air k u w⟩
  · have := Heat.radiation_lt (k := k) (u := u) w hu hd he' (by linarith) ht
    rwa [Heat.radiation_air] at this
  · have h1 := Heat.radiation_lt (k := k) (u := u) w hu hd he' (by linarith) ht
    have h2 := Heat.radiation_nonpos (k := k) (u := u) (w := w) hu hd he (by linarith) hs
    rw [abs_of_nonpos h2, abs_of_nonpos (by linarith)]
    linarith

example : |Heat.radiation exThermal .metric (exWeather 0) 10| < |Heat.radiation exThermal .metric (exWeather 0) 20| :=
  (C69_cooling exThermal .metric (exWeather 0) exThermal_valid (by decide) (exWeather_valid le_rfl)).2.1
    (by norm_num [exThermal]) 10 20 (by norm_num [exWeather]) (by norm_num)

/-! ## C66: the steady current -/

/-- Calls on a `SteadyCableCurrentSolver`. -/
inductive CurrentCall where
  | setCable (c : CablePointer)
  | setTemperature (t : ℝ)
  | setUnits (u : UnitSystem)
  | setWeather (w : Option ThermalWeather)
  | current
  | state
  | validate

/-- The solver after a call. -/
noncomputable def CurrentCall.next (s : CurrentSolver) : CurrentCall → CurrentSolver
  | .setCable c => s.setCable c
  | .setTemperature t => s.setTemperature t
  | .setUnits u => s.setUnits u
  | .setWeather w => s.setWeather w
  | .current => s.askCurrent.1
  | .state => s.askState.1
  | .validate => s.validate.1

/-- The solver after a list of calls on a new one. -/
noncomputable def currentAfter (calls : List CurrentCall) : CurrentSolver := calls.foldl CurrentCall.next CurrentSolver.new

/-- What a solver that is up to date holds. -/
def CurrentHolds (s : CurrentSolver) : Prop :=
  (∃ t, s.temperature = some t) ∧
  (s.isUpdated = true → ∃ k u w t, s.cable = some (some k) ∧ s.temperature = some t ∧
    heatValid (some (some k)) u (some w) = true ∧ s.state = Heat.steadyState k u w (some t) ∧
    s.current = Heat.steadyCurrent k u w (some t))

theorem currentHolds_update {s : CurrentSolver} (h : CurrentHolds s) :
    CurrentHolds s.update.1 ∧ s.update.1.isUpdated = s.update.2 ∧ s.update.1.cable = s.cable ∧
    s.update.1.temperature = s.temperature ∧ s.update.1.units = s.units ∧ s.update.1.weather = s.weather := by
  obtain ⟨t, ht⟩ := h.1
  unfold CurrentSolver.update
  by_cases hv : heatValid s.cable s.units s.weather = true
  · obtain ⟨k, w, hk, hw, -⟩ := (heatValid_iff _ _ _).1 hv
    rw [if_pos hv]
    simp only [hk, hw]
    refine ⟨⟨⟨t, ht⟩, fun _ => ⟨k, s.units, w, t, rfl, ht, ?_, ?_, ?_⟩⟩, trivial, trivial, trivial, trivial, trivial⟩
    · rw [← hk, ← hw]; exact hv
    · simp only [ht]
    · simp only [ht]
  · rw [if_neg hv]
    exact ⟨⟨⟨t, ht⟩, fun hh => absurd hh (by simp)⟩, rfl, rfl, rfl, rfl, rfl⟩

theorem currentHolds_refresh {s : CurrentSolver} (h : CurrentHolds s) :
    CurrentHolds s.refresh.1 ∧ s.refresh.1.isUpdated = s.refresh.2 ∧ s.refresh.1.cable = s.cable ∧
    s.refresh.1.temperature = s.temperature ∧ s.refresh.1.units = s.units ∧ s.refresh.1.weather = s.weather := by
  unfold CurrentSolver.refresh
  by_cases hu : s.isUpdated = true
  · rw [if_pos hu]; exact ⟨h, hu, rfl, rfl, rfl, rfl⟩
  · rw [if_neg hu]; exact currentHolds_update h

theorem askCurrent_fst (s : CurrentSolver) : s.askCurrent.1 = s.refresh.1 := by
  unfold CurrentSolver.askCurrent; split_ifs <;> rfl

theorem askState_fst (s : CurrentSolver) : s.askState.1 = s.refresh.1 := by
  unfold CurrentSolver.askState; split_ifs <;> rfl

theorem currentHolds_next {s : CurrentSolver} (h : CurrentHolds s) (c : CurrentCall) :
    CurrentHolds (CurrentCall.next s c) := by
  cases c with
  | setCable c => exact ⟨h.1, fun hh => absurd hh (by simp [CurrentCall.next, CurrentSolver.setCable])⟩
  | setTemperature t => exact ⟨⟨t, rfl⟩, fun hh => absurd hh (by simp [CurrentCall.next, CurrentSolver.setTemperature])⟩
  | setUnits u => exact h
  | setWeather w => exact h
  | current => rw [CurrentCall.next, askCurrent_fst]; exact (currentHolds_refresh h).1
  | state => rw [CurrentCall.next, askState_fst]; exact (currentHolds_refresh h).1
  | validate => exact (currentHolds_update h).1

theorem currentHolds_after (calls : List CurrentCall) : CurrentHolds (currentAfter calls) := by
  have : ∀ s, CurrentHolds s → CurrentHolds (calls.foldl CurrentCall.next s) := by
    induction calls with
    | nil => exact fun s h => h
    | cons c cs ih => exact fun s h => ih _ (currentHolds_next h c)
  exact this _ ⟨⟨_, rfl⟩, fun hh => absurd hh (by simp [CurrentSolver.new])⟩

/-- C66 (partial).  After any calls on a `SteadyCableCurrentSolver`, when `Current()` succeeds with a number `i`, the
heat transfer state it reports next to it has a convection, radiation, solar and resistive heat that sum to zero and no
stored heat; `i² R` at the cable's temperature is the magnitude of the resistive heat, `HeatResistance` at `i` is the
resistive heat when that is not negative, and `i` has its sign.

Missing: below the air temperature the number is a NaN, see `C66_nan_below_air`. -/
theorem C66_balance_partial (calls : List CurrentCall) (i : ℝ)
    (hs : (currentAfter calls).askCurrent.1.isUpdated = true)
    (hi : (currentAfter calls).askCurrent.2 = some i) :
    ∃ k t c r q h, (currentAfter calls).cable = some (some k) ∧ (currentAfter calls).temperature = some t ∧
      (currentAfter calls).askCurrent.1.askState.2 = ⟨some c, some r, some h, some q, some 0⟩ ∧
      c + r + q + h = 0 ∧ i ^ 2 * k.resistance t = |h| ∧ (0 ≤ h → Heat.resistance k t i = h) ∧
      (h < 0 → i < 0) ∧ (0 ≤ h → 0 ≤ i) := by
  have hold := currentHolds_after calls
  generalize currentAfter calls = s at *
  obtain ⟨h1, h2, h3, h4, -, -⟩ := currentHolds_refresh hold
  rw [askCurrent_fst] at hs ⊢
  have hf : s.refresh.2 = true := h2 ▸ hs
  have hi' : s.refresh.1.current = some i := by
    unfold CurrentSolver.askCurrent at hi
    rwa [if_pos hf] at hi
  obtain ⟨k, u, w, t, hk, ht, hv, hst, hc⟩ := h1.2 hs
  have hstate : s.refresh.1.askState.2 = s.refresh.1.state := by
    have hr : s.refresh.1.refresh = (s.refresh.1, true) := by
      conv_lhs => unfold CurrentSolver.refresh
      exact if_pos hs
    unfold CurrentSolver.askState
    rw [hr]; rfl
  rw [hc] at hi'
  unfold Heat.steadyCurrent at hi'
  rw [Option.bind_some] at hi'
  obtain ⟨h, hh, hcur⟩ := Option.bind_eq_some_iff.1 hi'
  obtain ⟨c, hconv⟩ : ∃ c, Heat.convection k u w t = some c := by
    cases hcc : Heat.convection k u w t with
    | none => simp [Heat.steadyState, hcc] at hh
    | some c => exact ⟨c, rfl⟩
  have hh' : -1 * (c + Heat.radiation k u w t + Heat.solar k w) = h := by
    simpa [Heat.steadyState, hconv] using hh
  obtain ⟨hp1, hp2, hp3, -⟩ := Heat.currentOf_spec hcur
  refine ⟨k, t, c, Heat.radiation k u w t, Heat.solar k w, h, h3 ▸ hk, h4 ▸ ht, ?_, by linarith, hp1, ?_, hp2, hp3⟩
  · rw [hstate, hst]
    simp [Heat.steadyState, hconv, ← hh']
  · intro h0
    rw [Heat.resistance, hp1, abs_of_nonneg h0]

/-- A solver set up completely. -/
noncomputable def currentSetup (k : Cable) (t : ℝ) (u : UnitSystem) (w : ThermalWeather) : List CurrentCall :=
  [.setCable (some (some k)), .setTemperature t, .setUnits u, .setWeather (some w)]

theorem currentSetup_ask {k : Cable} {u : UnitSystem} {w : ThermalWeather} (t : ℝ)
    (hv : heatValid (some (some k)) u (some w) = true) :
    (currentAfter (currentSetup k t u w)).askCurrent.2 = Heat.steadyCurrent k u w (some t) ∧
    (currentAfter (currentSetup k t u w)).askCurrent.1.isUpdated = true := by
  simp [currentAfter, currentSetup, CurrentCall.next, CurrentSolver.askCurrent, CurrentSolver.refresh,
    CurrentSolver.update, CurrentSolver.setCable, CurrentSolver.setTemperature, CurrentSolver.setUnits,
    CurrentSolver.setWeather, CurrentSolver.new, hv]

theorem heatValid_of {k : Cable} {u : UnitSystem} {w : ThermalWeather} (hk : k.validateThermal.1 = true)
    (hu : u ≠ .null) (hw : w.validate.1 = true) : heatValid (some (some k)) u (some w) = true :=
  (heatValid_iff _ _ _).2 ⟨k, w, rfl, rfl, hk, hu, hw⟩

/-- C66: at and above the air temperature, where the resistance is positive, `Current()` succeeds with a number. -/
theorem C66_defined (k : Cable) (u : UnitSystem) (w : ThermalWeather) (t : ℝ) (hk : k.validateThermal.1 = true)
    (hu : u ≠ .null) (hw : w.validate.1 = true) (ht : w.temperatureAir ≤ t) (hr : 0 < k.resistance t) :
    ∃ i, (currentAfter (currentSetup k t u w)).askCurrent.2 = some i ∧
      (currentAfter (currentSetup k t u w)).askCurrent.1.isUpdated = true := by
  obtain ⟨h1, h2⟩ := currentSetup_ask t (heatValid_of hk hu hw)
  rw [Cable.validateThermal_iff] at hk
  rw [ThermalWeather.validate_iff] at hw
  obtain ⟨c, hc⟩ : ∃ c, Heat.convection k u w t = some c := by
    rcases ht.lt_or_eq with h | h
    · obtain ⟨c, hc, -⟩ := Heat.convection_hot (k := k) hu hk.1.2.1 hw.2.2.2.2.1 h
      exact ⟨c, hc⟩
    · rw [← h]; exact ⟨0, Heat.convection_air hu hk.1.2.1 hw.2.2.2.2.1⟩
  obtain ⟨i, hi⟩ := Heat.currentOf_pos (-1 * (c + Heat.radiation k u w t + Heat.solar k w)) hr
  refine ⟨i, ?_, h2⟩
  rw [h1]
  simpa [Heat.steadyCurrent, Heat.steadyState, hc] using hi

/-- The balance applies to a lit cable at 30 degrees. -/
example : ∃ i, (currentAfter (currentSetup exThermal 30 .metric (exWeather 4))).askCurrent.2 = some i ∧
    (currentAfter (currentSetup exThermal 30 .metric (exWeather 4))).askCurrent.1.isUpdated = true :=
  C66_defined exThermal .metric (exWeather 4) 30 exThermal_valid (by decide) (exWeather_valid (by norm_num))
    (by norm_num [exWeather]) (by rw [exThermal_resistance]; norm_num)

/-- C66 does not hold below the air temperature: the fractional power of a negative temperature difference makes the
convection, the resistive heat and the current NaN, although the solver reports success. -/
theorem C66_nan_below_air (k : Cable) (u : UnitSystem) (w : ThermalWeather) (t : ℝ) (hk : k.validateThermal.1 = true)
    (hu : u ≠ .null) (hw : w.validate.1 = true) (ht : t < w.temperatureAir) (ht' : -100 ≤ t) :
    (currentAfter (currentSetup k t u w)).validate.2 = true ∧
    (currentAfter (currentSetup k t u w)).askCurrent.2 = none ∧
    (currentAfter (currentSetup k t u w)).askState.2.convection = none ∧
    (currentAfter (currentSetup k t u w)).askState.2.resistance = none := by
  have hv := heatValid_of hk hu hw
  have hc := Heat.convection_none (k := k) hu ht
  have hw' := (ThermalWeather.validate_iff w).1 hw
  refine ⟨?_, ?_, ?_, ?_⟩
  · have h1 : ¬ (t < -100 ∨ 500 < t) := by
      rintro (h | h)
      · linarith
      · linarith [hw'.2.2.2.2.2]
    simp [currentAfter, currentSetup, CurrentCall.next, CurrentSolver.validate,
      CurrentSolver.update, CurrentSolver.setCable, CurrentSolver.setTemperature, CurrentSolver.setUnits,
      CurrentSolver.setWeather, CurrentSolver.new, hv, hk, hu, hw]
    constructor <;> linarith [hw'.2.2.2.2.2]
  · rw [(currentSetup_ask t hv).1]
    simp [Heat.steadyCurrent, Heat.steadyState, hc]
  all_goals
    simp [currentAfter, currentSetup, CurrentCall.next, CurrentSolver.askState, CurrentSolver.refresh,
      CurrentSolver.update, CurrentSolver.setCable, CurrentSolver.setTemperature, CurrentSolver.setUnits,
      CurrentSolver.setWeather, CurrentSolver.new, hv, Heat.steadyState, hc]

example : (currentAfter (currentSetup exThermal (-5) .metric (exWeather 0))).askCurrent.2 = none :=
  (C66_nan_below_air exThermal .metric (exWeather 0) (-5) exThermal_valid (by decide) (exWeather_valid le_rfl)
    (by norm_num [exWeather]) (by norm_num)).2.1

end Verif.Props
