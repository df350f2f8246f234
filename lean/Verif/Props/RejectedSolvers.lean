import Verif.Props.ThermalHistory
import Verif.Props.Solar

/-!
# What rejected solvers answer (C151)
-/

set_option linter.unusedSectionVars false

namespace Verif.Props

open Verif

/-- The heat transfer state that stands for a failure. -/
noncomputable def failedState : HeatState :=
  ⟨some 999999, some 999999, some (-999999), some (-999999), some (-999999)⟩

/-! ## Steady current -/

/-- C151, the current solver (partial).  After any calls, when the set temperature of the cable is a number that
`Validate` accepts and `Validate` rejects the object, the queries that follow report the error value and the state that
stands for a failure.

Missing: a temperature outside of the range that `Validate` accepts, see `C151_current_fails`. -/
theorem C151_current_partial (s : CurrentSolver) (t : ℝ) (ht : s.temperature = some t) (h1 : -100 ≤ t) (h2 : t ≤ 500)
    (h : s.validate.2 = false) :
    s.validate.1.askCurrent.2 = some (-999999) ∧ s.validate.1.askState.2 = failedState := by
  have hv : ¬ heatValid s.cable s.units s.weather = true := by
    intro hv
    obtain ⟨k, w, hk, hw, h3, h4, h5⟩ := (heatValid_iff _ _ _).1 hv
    rw [hk, hw] at hv
    have : s.validate.2 = true := by
      simp [CurrentSolver.validate, CurrentSolver.update, hk, hw, hv, ht, h1, h2, h3, h4, h5]
    rw [h] at this
    cases this
  have hu : s.validate.1 = { s with isUpdated := false } := by
    simp [CurrentSolver.validate, CurrentSolver.update, hv]
  rw [hu]
  constructor
  · simp [CurrentSolver.askCurrent, CurrentSolver.refresh, CurrentSolver.update, hv]
  · simp [CurrentSolver.askState, CurrentSolver.refresh, CurrentSolver.update, hv, HeatState.new, failedState]

example : (currentAfter [.setCable (some (some exThermal)), .setTemperature 50, .setUnits .metric]).validate.2 = false ∧
    (currentAfter [.setCable (some (some exThermal)), .setTemperature 50, .setUnits .metric]).validate.1.askCurrent.2 =
      some (-999999) := by
  have h : (currentAfter [.setCable (some (some exThermal)), .setTemperature 50, .setUnits .metric]).validate.2 =
      false := by
    simp [currentAfter, CurrentCall.next, CurrentSolver.validate, CurrentSolver.setCable, CurrentSolver.setTemperature,
      CurrentSolver.setUnits, CurrentSolver.new]
  exact ⟨h, (C151_current_partial _ 50 rfl (by norm_num) (by norm_num) h).1⟩

/-- C151 does not hold for the current solver: at 600 degrees `Validate` rejects the object and `Current` goes on to
report a positive current. -/
theorem C151_current_fails :
    let s := currentAfter (currentSetup exThermal 600 .metric (exWeather 0))
    s.validate.2 = false ∧ ∃ i, s.validate.1.askCurrent.2 = some i ∧ 0 < i := by
  intro s
  have hv := heatValid_of (u := .metric) exThermal_valid (by decide) (exWeather_valid (sun := 0) le_rfl)
  obtain ⟨i, hi, hc⟩ := exThermal_hot (t := 600) (by norm_num)
  rw [currentAt_valid _ hv] at hc
  constructor
  · have : s.temperature = some 600 := rfl
    simp only [CurrentSolver.validate, this]
    norm_num
  · refine ⟨i, ?_, hi⟩
    rw [← hc]
    simp [s, currentAfter, currentSetup, CurrentCall.next, CurrentSolver.validate, CurrentSolver.askCurrent,
      CurrentSolver.refresh, CurrentSolver.update, CurrentSolver.setCable, CurrentSolver.setTemperature,
      CurrentSolver.setUnits, CurrentSolver.setWeather, CurrentSolver.new, hv]

/-! ## Steady temperature -/

/-- With settings that are not valid every current probed is the error value, and the search never moves. -/
theorem search_invalid {c : CablePointer} {i : ℝ} {u : UnitSystem} {w : ThermalWeather}
    (h : ¬ heatValid c u (some w) = true) : ¬ (TemperatureSolver.search c i u w).iter < 100 := by
  refine search_stuck fun x n => Or.inl ?_
  unfold TemperatureSearch.nextX TemperatureSolver.start
  simp only [Heat.currentAt_eq, if_neg h, sub_self, zero_div, if_true]

/-- C151, the temperature solver (partial).  When the current is not negative and `Validate` rejects the object, the
queries that follow report the error value and the state that stands for a failure.

Missing: negative currents, see `C151_temperature_fails`. -/
theorem C151_temperature_partial (s s' : TemperatureSolver) (hc : 0 ≤ s.current) (h : s.validate = .ok s' false) :
    (∃ t, s'.askTemperature = .ok t (some (-999999))) ∧ ∃ t, s'.askState = .ok t failedState := by
  cases hw : s.weather with
  | none => simp [TemperatureSolver.validate, TemperatureSolver.update, hw] at h
  | some w =>
    have hit : ¬ (TemperatureSolver.search s.cable s.current s.units w).iter < 100 := by
      intro hit
      by_cases hv : heatValid s.cable s.units (some w) = true
      · obtain ⟨k, w', hk, hw', h3, h4, h5⟩ := (heatValid_iff _ _ _).1 hv
        obtain rfl := Option.some.inj hw'
        have hup : s.update = .ok { s with
            state := Heat.stateAt s.cable s.units w (TemperatureSolver.search s.cable s.current s.units w).currentX
            temperature := (TemperatureSolver.search s.cable s.current s.units w).currentX, isUpdated := true } true := by
          unfold TemperatureSolver.update
          rw [hw]
          simp only [if_pos hit]
        unfold TemperatureSolver.validate at h
        rw [hup] at h
        simp only [hk, hw, h3, h5] at h
        injection h with _ hb
        simp [not_lt.2 hc] at hb
        exact h4 hb
      · exact search_invalid hv hit
    have hup : ∀ x y z, ({ s with state := x, temperature := y, isUpdated := z } : TemperatureSolver).update =
        .ok { s with state := HeatState.new, temperature := some (-999999), isUpdated := false } false := by
      intro x y z
      unfold TemperatureSolver.update
      simp only [hw, if_neg hit]
    have hs : s' = { s with state := HeatState.new, temperature := some (-999999), isUpdated := false } := by
      have := hup s.state s.temperature s.isUpdated
      unfold TemperatureSolver.validate at h
      rw [this] at h
      injection h with h1 _
      exact h1.symm
    have hr : s'.refresh = .ok s' false := by
      rw [hs]
      exact hup _ _ _
    constructor
    · exact ⟨s', by rw [TemperatureSolver.askTemperature, hr]⟩
    · exact ⟨s', by rw [TemperatureSolver.askState, hr]; rfl⟩

example : ∃ s', (temperatureSetup none 100 .metric (some (exWeather 0))).validate = .ok s' false ∧
    ∃ t, s'.askTemperature = .ok t (some (-999999)) := by
  have hv : ¬ heatValid none .metric (some (exWeather 0)) = true := by simp [heatValid]
  obtain ⟨s', hs⟩ := (temperatureSetup_fail (i := 100) (search_invalid hv)).2
  exact ⟨s', hs, (C151_temperature_partial _ s' (by norm_num [temperatureSetup, TemperatureSolver.setWeather,
    TemperatureSolver.setUnits, TemperatureSolver.setCurrent]) hs).1⟩

/-- A current slightly below zero is found in one pass when the current at the air temperature is zero. -/
theorem search_below {c : CablePointer} {u : UnitSystem} {w : ThermalWeather} {b : ℝ} (hb : 0 < b)
    (h0 : Heat.currentAt c u w (some w.temperatureAir) = some 0)
    (h10 : Heat.currentAt c u w (some (w.temperatureAir + 10)) = some b) :
    (TemperatureSolver.search c (-0.005 * b) u w).iter = 1 ∧
    (TemperatureSolver.search c (-0.005 * b) u w).currentX = some (w.temperatureAir - 0.05) := by
  have hx : TemperatureSearch.nextX (-0.005 * b) (TemperatureSolver.start c u w) = some (w.temperatureAir - 0.05) := by
    unfold TemperatureSearch.nextX TemperatureSolver.start
    simp only [h0, h10, sub_zero, add_sub_cancel_left]
    rw [if_neg (by positivity)]
    congr 1
    field_simp
    norm_num
    ring
  have hrep : TemperatureSearch.replace (-0.005 * b) (TemperatureSolver.start c u w) (some (w.temperatureAir - 0.05))
      (Heat.currentAt c u w (some (w.temperatureAir - 0.05))) =
      ⟨w.temperatureAir - 0.05, Heat.currentAt c u w (some (w.temperatureAir - 0.05)), w.temperatureAir,
        Heat.currentAt c u w (some w.temperatureAir), none, 0⟩ := by
    have h1 : w.temperatureAir - 0.05 < w.temperatureAir := by norm_num
    show (if w.temperatureAir - 0.05 < w.temperatureAir then _ else _) = _
    rw [if_pos h1]
    rfl
  have hstep : TemperatureSearch.step (Heat.currentAt c u w) (-0.005 * b) (TemperatureSolver.start c u w) =
      ⟨w.temperatureAir - 0.05, Heat.currentAt c u w (some (w.temperatureAir - 0.05)), w.temperatureAir,
        Heat.currentAt c u w (some w.temperatureAir), some (w.temperatureAir - 0.05), 1⟩ := by
    unfold TemperatureSearch.step
    simp only [hx, hrep]
    rfl
  have hw : 0.1 < |(TemperatureSolver.start c u w).leftX - (TemperatureSolver.start c u w).rightX| := by
    rw [TemperatureSolver.start, abs_sub_comm, add_sub_cancel_left]; norm_num
  have hl : TemperatureSolver.search c (-0.005 * b) u w =
      ⟨w.temperatureAir - 0.05, Heat.currentAt c u w (some (w.temperatureAir - 0.05)), w.temperatureAir,
        Heat.currentAt c u w (some w.temperatureAir), some (w.temperatureAir - 0.05), 1⟩ := by
    unfold TemperatureSolver.search
    rw [TemperatureSearch.loop, if_pos hw, hstep, TemperatureSearch.loop, if_neg]
    rw [show w.temperatureAir - 0.05 - w.temperatureAir = -0.05 by ring]
    norm_num
  rw [hl]
  exact ⟨rfl, rfl⟩

/-- C151 does not hold for the temperature solver: for some negative current `Validate` rejects the object, and
`TemperatureCable` goes on to report a temperature just below that of the air. -/
theorem C151_temperature_fails : ∃ i < 0, ∃ s' t,
    (temperatureSetup (some (some exThermal)) i .metric (some (exWeather 0))).validate = .ok s' false ∧
    s'.askTemperature = .ok t (some (-0.05)) := by
  have hv := heatValid_of (u := .metric) exThermal_valid (by decide) (exWeather_valid (sun := 0) le_rfl)
  obtain ⟨b, hb, hc⟩ := exThermal_hot (t := 10) (by norm_num)
  have h0 : Heat.currentAt (some (some exThermal)) .metric (exWeather 0) (some (exWeather 0).temperatureAir) =
      some 0 := by
    rw [currentAt_valid _ hv, current_air exThermal_valid (by decide) (exWeather_valid le_rfl) rfl, if_neg]
    rw [exThermal_resistance]; norm_num
  have h10 : Heat.currentAt (some (some exThermal)) .metric (exWeather 0)
      (some ((exWeather 0).temperatureAir + 10)) = some b := by
    rw [← hc]; norm_num [exWeather]
  obtain ⟨g1, g2⟩ := search_below hb h0 h10
  have hup := temperatureSetup_update (some (some exThermal)) (-0.005 * b) .metric (exWeather 0)
  rw [if_pos (by rw [g1]; norm_num)] at hup
  generalize hr : (⟨some (some exThermal), -0.005 * b, .metric, some (exWeather 0), _, _, true⟩ : TemperatureSolver) =
    r at hup
  have hr1 : r.isUpdated = true := by rw [← hr]
  have hr2 : r.temperature = some (-0.05) := by rw [← hr]; simp only [g2]; norm_num [exWeather]
  refine ⟨-0.005 * b, by linarith, r, r, ?_, ?_⟩
  · have hn : (temperatureSetup (some (some exThermal)) (-0.005 * b) .metric (some (exWeather 0))).current < 0 := by
      show -0.005 * b < 0
      linarith
    unfold TemperatureSolver.validate
    rw [hup]
    simp only [hn, not_true_eq_false, decide_false, Bool.and_false, Bool.false_and]
  · unfold TemperatureSolver.askTemperature TemperatureSolver.refresh
    rw [if_pos hr1]
    simp only [hr2]

/-! ## Transient temperature -/

/-- C151, the transient solver (partial).  After any calls, when the currents and the duration are not negative and
`Validate` rejects the object, `PointsTemperature` that follows reports a null pointer.

Missing: negative currents and durations, see `C151_transient_fails`. -/
theorem C151_transient_partial (s : TransientSolver) (h1 : 0 ≤ s.currentSteady) (h2 : 0 ≤ s.currentStep)
    (h3 : 0 ≤ s.duration) (h : s.validate.2 = false) :
    s.validate.1.askPoints.2 = none := by
  have hv : ¬ heatValid s.cable s.units s.weather = true := by
    intro hv
    obtain ⟨k, w, hk, hw, h4, h5, h6⟩ := (heatValid_iff _ _ _).1 hv
    rw [hk, hw] at hv
    have : s.validate.2 = true := by
      simp [TransientSolver.validate, TransientSolver.update, hk, hw, hv, h1, h2, h3, h5, h6]
    rw [h] at this
    cases this
  have hu : s.validate.1 = { s with points := [], isUpdated := false } := by
    simp [TransientSolver.validate, TransientSolver.update, hv]
  rw [hu]
  simp [TransientSolver.askPoints, TransientSolver.update, hv]

example : (transientAfter (transientCalls exThermal 0 1 5 .null (exWeather 0))).validate.1.askPoints.2 = none := by
  refine C151_transient_partial _ ?_ ?_ ?_ ?_
  · exact le_rfl
  · exact zero_le_one
  · show (0 : Int) ≤ 5
    decide
  · simp [TransientSolver.validate, transientAfter, transientCalls, TransientCall.next, TransientSolver.setCable,
      TransientSolver.setCurrentSteady, TransientSolver.setCurrentStep, TransientSolver.setDuration,
      TransientSolver.setUnits, TransientSolver.setWeather, TransientSolver.new]

/-- C151 does not hold for the transient solver, for any valid cable, unit system and weather: with a negative current
`Validate` rejects the object, and `PointsTemperature` goes on to report one point for each second. -/
theorem C151_transient_fails (k : Cable) (u : UnitSystem) (w : ThermalWeather) (i j : ℝ) (d : ℕ)
    (hk : k.validateThermal.1 = true) (hu : u ≠ .null) (hw : w.validate.1 = true) (hj : j < 0) :
    let s := transientAfter (transientCalls k i j d u w)
    s.validate.2 = false ∧ ∃ ps, s.validate.1.askPoints.2 = some ps ∧ ps.length = d + 1 := by
  intro s
  have hv := heatValid_of hk hu hw
  constructor
  · have hn : s.currentStep < 0 := hj
    simp [TransientSolver.validate, hn]
  · refine ⟨TransientSolver.series k u w j (d + 1 : Int).toNat 0
        (TransientSolver.temperatureSteady (some (some k)) u w i), ?_, ?_⟩
    · simp [s, transientAfter, transientCalls, TransientCall.next, TransientSolver.validate, TransientSolver.askPoints,
        TransientSolver.update, TransientSolver.setCable, TransientSolver.setCurrentSteady,
        TransientSolver.setCurrentStep, TransientSolver.setDuration, TransientSolver.setUnits,
        TransientSolver.setWeather, TransientSolver.new, hv]
    · have : ∀ n time t, (TransientSolver.series k u w j n time t).length = n := by
        intro n
        induction n with
        | zero => intro _ _; rfl
        | succ n ih => intro time t; simp [TransientSolver.series, ih]
      rw [this]
      omega

example : (transientAfter (transientCalls exThermal 0 (-1) 5 .metric (exWeather 0))).validate.2 = false :=
  (C151_transient_fails exThermal .metric (exWeather 0) 0 (-1) 5 exThermal_valid (by decide) (exWeather_valid le_rfl)
    (by norm_num)).1

/-! ## Sun -/

/-- C151, the solar radiation solver (partial).  After any calls, when the unit system or the atmosphere is not set,
`Validate` rejects the object and the queries that follow report the error value.

Missing: the other inputs, see `C151_solar_fails`. -/
theorem C151_solar_partial {s : SolarSolver} (hs : SunReachable s) (hn : s.units = .null ∨ s.quality = .null) :
    s.validate.2 = false ∧ s.validate.1.askAltitude.2 = some (-999999) ∧
    s.validate.1.askAzimuth.2 = some (-999999) ∧ s.validate.1.askRadiation.2 = some (-999999) := by
  have ha : Sun.atmosphere s.units s.quality = none := by
    rcases hn with h | h <;> cases h1 : s.units <;> cases h2 : s.quality <;> simp_all [Sun.atmosphere]
  have hv : ¬ s.InputsValid := fun h => hn.elim h.2.2.2.2.2.2 h.2.2.2.2.2.1
  have hf : s.isUpdated = false := by
    by_contra hf
    have hg := (sun_reachable_good hs (by simpa using hf)).2
    have : (sunFresh (sunSettings s)).update.2 = false := by
      have ha' : Sun.atmosphere (sunFresh (sunSettings s)).units (sunFresh (sunSettings s)).quality = none := ha
      unfold SolarSolver.update
      rw [if_pos (sunFresh_flag _), ha']
    rw [this] at hg
    cases hg
  have hu : s.update.2 = false := by
    simp [SolarSolver.update, hf, ha]
  simp [SolarSolver.validate, hv, SolarSolver.askAltitude, SolarSolver.askAzimuth, SolarSolver.askRadiation,
    SolarSolver.ask, hf, hu]

example : (SolarSolver.new.setHour 11).validate.1.askRadiation.2 = some (-999999) :=
  (C151_solar_partial ⟨[.setHour 11], rfl⟩ (Or.inl rfl)).2.2.2

/-- C151 does not hold for the solar radiation solver: once a unit system and an atmosphere are set, and whatever makes
`Validate` reject the object, `AltitudeSun` goes on to report an altitude between -90 and 90 degrees. -/
theorem C151_solar_fails {s : SolarSolver} (hs : SunReachable s) (hu : s.units ≠ .null) (hq : s.quality ≠ .null)
    (h : s.validate.2 = false) : ∃ a, s.validate.1.askAltitude.2 = some a ∧ |toRadians a| ≤ Real.pi / 2 := by
  have hr : s.validate.1 = s := by
    unfold SolarSolver.validate at h ⊢
    split_ifs at h ⊢ with hv
    · exfalso
      unfold SolarSolver.update at h
      obtain ⟨cs, hcs, _⟩ := sun_answers hs hu hq
      rw [hcs] at h
      split_ifs at h
    · rfl
  rw [hr]
  obtain ⟨cs, _, h1, _⟩ := sun_answers hs hu hq
  obtain ⟨a, ha, hb, _⟩ := altitude_some s.latitude (Sun.declination s.day) (Sun.angleHour s.hour)
  exact ⟨a, by rw [h1, ha], hb⟩

example : ((((SolarSolver.new.setUnits .metric).setQuality .clear).setHour 30).setLatitude 45).validate.2 = false ∧
    ∃ a, ((((SolarSolver.new.setUnits .metric).setQuality .clear).setHour 30).setLatitude 45).validate.1.askAltitude.2 =
      some a ∧ |toRadians a| ≤ Real.pi / 2 := by
  have h : ((((SolarSolver.new.setUnits .metric).setQuality .clear).setHour 30).setLatitude 45).validate.2 = false := by
    unfold SolarSolver.validate
    rw [if_neg]
    rintro ⟨-, -, -, h, -⟩
    exact h (Or.inr (by simp [SolarSolver.setLatitude, SolarSolver.setHour]))
  exact ⟨h, C151_solar_fails ⟨[.setUnits .metric, .setQuality .clear, .setHour 30, .setLatitude 45], rfl⟩
    (by simp [SolarSolver.setLatitude, SolarSolver.setHour, SolarSolver.setQuality, SolarSolver.setUnits])
    (by simp [SolarSolver.setLatitude, SolarSolver.setHour, SolarSolver.setQuality]) h⟩

end Verif.Props
