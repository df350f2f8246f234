import Verif.Props.HeatLoss
import Verif.Props.ThermalHistory

/-!
# C160: the transient temperature moves towards equilibrium
-/

set_option linter.unusedSectionVars false

namespace Verif.Props

open Verif

/-- A solver that reports points has valid settings. -/
theorem points_valid (calls : List TransientCall) {ps : List TemperaturePoint}
    (h : (transientAfter calls).askPoints.2 = some ps) {k : Cable} {w : ThermalWeather}
    (hk : (transientAfter calls).cable = some (some k)) (hw : (transientAfter calls).weather = some w) :
    k.validateThermal.1 = true ∧ (transientAfter calls).units ≠ .null ∧ w.validate.1 = true := by
  rw [transient_ask (transient_after calls)] at h
  generalize transientAfter calls = s at *
  by_cases hv : heatValid s.cable s.units s.weather = true
  · obtain ⟨k', w', hk', hw', h1, h2, h3⟩ := (heatValid_iff _ _ _).1 hv
    rw [hk] at hk'
    rw [hw] at hw'
    obtain rfl := Option.some.inj (Option.some.inj hk')
    obtain rfl := Option.some.inj hw'
    exact ⟨h1, h2, h3⟩
  · unfold TransientSolver.update at h
    rw [if_neg hv] at h
    simp at h

/-- What a reported steady current says about the heat balance. -/
theorem steady_balance {k : Cable} {u : UnitSystem} {w : ThermalWeather} {t i : ℝ} (hk : k.validateThermal.1 = true)
    (hu : u ≠ .null) (hw : w.validate.1 = true) (hi : (currentAfter (currentSetup k t u w)).askCurrent.2 = some i) :
    ∃ c h, Heat.convection k u w t = some c ∧ h = -1 * (c + Heat.radiation k u w t + Heat.solar k w) ∧
      i ^ 2 * k.resistance t = |h| ∧ (h < 0 → i < 0) ∧ (0 ≤ h → 0 ≤ i) := by
  rw [(currentSetup_ask t (heatValid_of hk hu hw)).1] at hi
  cases hc : Heat.convection k u w t with
  | none => simp [Heat.steadyCurrent, Heat.steadyState, hc] at hi
  | some c =>
    simp only [Heat.steadyCurrent, Heat.steadyState, hc, Option.bind_some, Option.map_some] at hi
    obtain ⟨h1, h2, h3, -⟩ := Heat.currentOf_spec hi
    exact ⟨c, _, rfl, rfl, h1, h2, h3⟩

/-- **C160**: from one second to the next the cable gets hotter exactly if the step current is larger than the steady
current that a `SteadyCableCurrentSolver` reports for its present temperature, colder exactly if it is smaller, and keeps
its temperature exactly if it is that current; after any calls on the solver.  The change is the surplus of resistive
heat over the heat capacity. -/
theorem C160_direction_partial (calls : List TransientCall) (ps : List TemperaturePoint)
    (h : (transientAfter calls).askPoints.2 = some ps) {s : TransientSolver} (es : s = transientAfter calls) {k : Cable}
    {w : ThermalWeather} (hk : s.cable = some (some k)) (hw : s.weather = some w) (h0 : 0 ≤ s.currentStep)
    (hcap : 0 < k.core.capacityHeat + k.shell.capacityHeat) (j : ℕ) (hj : j + 1 < ps.length) (t i : ℝ)
    (ht : ps[j].temperature = some t) (hr : 0 < k.resistance t)
    (hi : (currentAfter (currentSetup k t s.units w)).askCurrent.2 = some i) :
    ∃ t', ps[j + 1].temperature = some t' ∧ (t < t' ↔ i < s.currentStep) ∧ (t' < t ↔ s.currentStep < i) ∧
      (t' = t ↔ s.currentStep = i) ∧
      t' - t = k.resistance t * (s.currentStep ^ 2 - i * |i|) / (k.core.capacityHeat + k.shell.capacityHeat) := by
  subst es
  obtain ⟨v1, v2, v3⟩ := points_valid calls h hk hw
  obtain ⟨c, q, hc, hq, e1, e2, e3⟩ := steady_balance v1 v2 v3 hi
  obtain ⟨s', k', w', rfl, hk', hw', -, -, -, hstep⟩ := C71_series_partial calls ps h
  rw [hk] at hk'
  rw [hw] at hw'
  obtain rfl := Option.some.inj (Option.some.inj hk')
  obtain rfl := Option.some.inj hw'
  have e := hstep j hj t c ht hc hcap
  generalize transientAfter calls = s at *
  generalize k.core.capacityHeat + k.shell.capacityHeat = C at *
  have hq' : s.currentStep ^ 2 * k.resistance t + k.absorptivity * w.radiationSolar * k.diameter + c +
      Heat.radiation k s.units w t = s.currentStep ^ 2 * k.resistance t - q := by
    rw [hq, Heat.solar]; ring
  rw [hq'] at e
  have hqi : q = k.resistance t * (i * |i|) := by
    rcases lt_or_ge q 0 with hn | hp
    · rw [abs_of_neg hn] at e1
      rw [abs_of_neg (e2 hn)]
      linarith
    · rw [abs_of_nonneg hp] at e1
      rw [abs_of_nonneg (e3 hp)]
      linarith
  generalize k.resistance t = R at *
  generalize s.currentStep = I at *
  have key : t + (I ^ 2 * R - q) / C - t = R * (I ^ 2 - i * |i|) / C := by rw [hqi]; ring
  have sgn : (0 < I ^ 2 - i * |i| ↔ i < I) ∧ (I ^ 2 - i * |i| < 0 ↔ I < i) := by
    rcases lt_or_ge i 0 with hn | hp
    · rw [abs_of_neg hn]
      have h1 : 0 < I ^ 2 - i * -i := by nlinarith
      exact ⟨⟨fun _ => by linarith, fun _ => h1⟩, ⟨fun h => absurd h (not_lt.2 h1.le), fun h => by linarith⟩⟩
    · rw [abs_of_nonneg hp]
      have e : I ^ 2 - i * i = (I - i) * (I + i) := by ring
      rw [e]
      refine ⟨⟨fun h => ?_, fun h => mul_pos (by linarith) (by linarith)⟩, ⟨fun h => ?_, fun h => ?_⟩⟩
      · by_contra hh; nlinarith
      · by_contra hh; nlinarith
      · exact mul_neg_of_neg_of_pos (by linarith) (by linarith)
  have hRC : 0 < R / C := by positivity
  have key' : t + (I ^ 2 * R - q) / C - t = R / C * (I ^ 2 - i * |i|) := by rw [key]; ring
  refine ⟨_, e, ?_, ?_, ?_, key⟩
  · rw [← sgn.1, ← sub_pos, key', mul_pos_iff_of_pos_left hRC]
  · rw [← sgn.2, ← sub_neg, key', mul_neg_iff]
    constructor
    · rintro (⟨-, h⟩ | ⟨h, -⟩)
      · exact h
      · exact absurd h (not_lt.2 hRC.le)
    · exact fun h => .inl ⟨hRC, h⟩
  · rw [← sub_eq_zero, key', mul_eq_zero]
    constructor
    · rintro (h | h)
      · exact absurd h hRC.ne'
      · rcases lt_trichotomy I i with g | g | g
        · exact absurd h (sgn.2.2 g).ne
        · exact g
        · exact absurd h (sgn.1.2 g).ne'
    · rintro rfl
      right
      rw [abs_of_nonneg h0]; ring

/-- **C160**: a cable that starts at the temperature whose steady current is the step current stays there: all points
have that temperature. -/
theorem C160_steady (calls : List TransientCall) (ps : List TemperaturePoint)
    (h : (transientAfter calls).askPoints.2 = some ps) {s : TransientSolver} (es : s = transientAfter calls) {k : Cable}
    {w : ThermalWeather} (hk : s.cable = some (some k)) (hw : s.weather = some w) (h0 : 0 ≤ s.currentStep)
    (hcap : 0 < k.core.capacityHeat + k.shell.capacityHeat) (t : ℝ) (hr : 0 < k.resistance t)
    (hi : (currentAfter (currentSetup k t s.units w)).askCurrent.2 = some s.currentStep)
    (ht : ∀ h0 : 0 < ps.length, ps[0].temperature = some t) :
    ∀ j (hj : j < ps.length), ps[j].temperature = some t := by
  intro j
  induction j with
  | zero => exact ht
  | succ j ih =>
    intro hj
    obtain ⟨t', e, -, -, e', -⟩ := C160_direction_partial calls ps h es hk hw h0 hcap j hj t s.currentStep
      (ih (by omega)) hr hi
    rw [e, e'.2 rfl]

/-! ## Passing the equilibrium -/

/-- The cable of the examples with another heat capacity. -/
noncomputable def exThin (C : ℝ) : Cable :=
  { exThermal with
    core := { exThermalPart with capacityHeat := C }
    shell := { exThermalPart with capacityHeat := 0 } }

theorem exThin_valid {C : ℝ} (h : 0 ≤ C) : (exThin C).validateThermal.1 = true := by
  rw [Cable.validateThermal_iff]
  norm_num [exThin, exThermal, exThermalPart, h]

theorem exThin_heat {C : ℝ} (h : 0 ≤ C) : heatValid (some (some (exThin C))) .metric (some (exWeather 0)) = true :=
  heatValid_of (exThin_valid h) (by decide) (exWeather_valid le_rfl)

theorem exThin_current {C : ℝ} (h : 0 ≤ C) (t : Option ℝ) :
    Heat.currentAt (some (some (exThin C))) .metric (exWeather 0) t =
      Heat.currentAt (some (some exThermal)) .metric (exWeather 0) t := by
  rw [currentAt_valid _ (exThin_heat h),
    currentAt_valid _ (heatValid_of exThermal_valid (by decide) (exWeather_valid le_rfl))]
  rfl

/-- The steady temperature of that cable at some current is 10.05 degrees. -/
theorem exThin_start : ∃ i, 0 < i ∧ ∀ C, 0 ≤ C →
    TransientSolver.temperatureSteady (some (some (exThin C))) .metric (exWeather 0) i = some 10.05 := by
  obtain ⟨b, hb, h10⟩ := exThermal_hot (t := 10) (by norm_num)
  refine ⟨1.005 * b, by positivity, fun C hC => ?_⟩
  obtain ⟨s, h1, -⟩ := temperatureSetup_one (c := some (some (exThin C))) hb
    ((exThin_current hC _).trans exThermal_air)
    (show _ = some b by rw [exThin_current hC, ← h10]; norm_num [exWeather])
  unfold TransientSolver.temperatureSteady
  change (match (temperatureSetup (some (some (exThin C))) (1.005 * b) .metric (some (exWeather 0))).askTemperature with
    | .ok _ t => t
    | _ => none) = _
  rw [h1]
  norm_num [exWeather]

/-- **C160** fails for passing the equilibrium: the time step is a second whatever the heat capacity.  A light cable that
`Validate` accepts, 10.05 degrees warmer than the air when its current is switched off, is reported below the air
temperature after one second and as not-a-number after two. -/
theorem C160_passes : ∃ (calls : List TransientCall) (k : Cable) (w : ThermalWeather) (ps : List TemperaturePoint) (t : ℝ),
    (transientAfter calls).validate.2 = true ∧ (transientAfter calls).askPoints.2 = some ps ∧
    (transientAfter calls).cable = some (some k) ∧ (transientAfter calls).weather = some w ∧
    0 < k.core.capacityHeat + k.shell.capacityHeat ∧
    ps.map (·.temperature) = [some (w.temperatureAir + 10.05), some t, none] ∧ t < w.temperatureAir := by
  obtain ⟨i, i0, hi⟩ := exThin_start
  have hot : (exWeather 0).temperatureAir < 10.05 := by norm_num [exWeather]
  obtain ⟨c, hc, hc'⟩ := Heat.convection_hot (k := exThermal) (u := .metric) (w := exWeather 0) (t := 10.05) (by decide)
    (by norm_num [exThermal]) (by norm_num [exWeather]) hot
  have hr := Heat.radiation_nonpos (k := exThermal) (u := .metric) (w := exWeather 0) (t := 10.05) (by decide)
    (by norm_num [exThermal]) (by norm_num [exThermal]) (by norm_num [exWeather]) hot.le
  set q := c + Heat.radiation exThermal .metric (exWeather 0) 10.05 with hq
  have q0 : q < 0 := by linarith
  set C := -q / 20 with hC
  have C0 : 0 < C := by rw [hC]; linarith
  have e1 : TransientSolver.next (exThin C) .metric (exWeather 0) 0 (some 10.05) = some (-9.95) := by
    have hc2 : Heat.convection (exThin C) .metric (exWeather 0) 10.05 = some c := hc
    have hr2 : Heat.radiation (exThin C) .metric (exWeather 0) 10.05 =
      Heat.radiation exThermal .metric (exWeather 0) 10.05 := rfl
    have hcap : (exThin C).core.capacityHeat + (exThin C).shell.capacityHeat = C := by
      show C + 0 = C; ring
    simp only [TransientSolver.next, Option.bind_some, TransientSolver.storage, hc2, Option.map_some,
      TransientSolver.temperatureNew, divFinite, hcap, if_neg C0.ne', Heat.stored, Heat.resistance, Heat.solar, hr2]
    rw [← hq]
    have hs : (exWeather 0).radiationSolar = 0 := rfl
    rw [hs, hC]
    have hd : q / (-q / 20) = -20 := by
      have := q0.ne
      field_simp
    congr 1
    rw [show (0:ℝ) ^ 2 = 0 by norm_num, zero_mul, mul_zero, zero_mul, add_zero, zero_add, hd]
    norm_num
  have e2 : TransientSolver.next (exThin C) .metric (exWeather 0) 0 (some (-9.95)) = none := by
    have hn : Heat.convection (exThin C) .metric (exWeather 0) (-9.95) = none :=
      Heat.convection_none (by decide) (by norm_num [exWeather])
    simp only [TransientSolver.next, Option.bind_some, TransientSolver.storage, hn, Option.map_none, Option.bind_none]
  refine ⟨transientCalls (exThin C) i 0 2 .metric (exWeather 0), exThin C, exWeather 0, _, -9.95, ?_,
    transientCalls_ask i 0 2 (exThin_heat C0.le), rfl, rfl, ?_, ?_, by norm_num [exWeather]⟩
  · simp [transientAfter, transientCalls, TransientCall.next, TransientSolver.validate, TransientSolver.update,
      TransientSolver.setCable, TransientSolver.setCurrentSteady, TransientSolver.setCurrentStep,
      TransientSolver.setDuration, TransientSolver.setUnits, TransientSolver.setWeather, TransientSolver.new,
      exThin_heat C0.le, exWeather_valid le_rfl, i0.le]
  · show 0 < C + 0; linarith
  · rw [hi C C0.le]
    simp only [show ((2:ℤ) + 1).toNat = 3 from rfl, TransientSolver.series, List.map_cons, List.map_nil, e1, e2]
    norm_num [exWeather]

/-- The hypotheses of `C160_direction_partial` are met by the light cable under a larger current. -/
example : ∃ (calls : List TransientCall) (ps : List TemperaturePoint) (k : Cable) (w : ThermalWeather) (i : ℝ),
    (transientAfter calls).askPoints.2 = some ps ∧ (transientAfter calls).cable = some (some k) ∧
    (transientAfter calls).weather = some w ∧ 0 ≤ (transientAfter calls).currentStep ∧
    0 < k.core.capacityHeat + k.shell.capacityHeat ∧ (∃ hj : 0 + 1 < ps.length, ps[0].temperature = some 10.05) ∧
    0 < k.resistance 10.05 ∧ (currentAfter (currentSetup k 10.05 (transientAfter calls).units w)).askCurrent.2 = some i ∧
    i < (transientAfter calls).currentStep := by
  obtain ⟨i, i0, hi⟩ := exThin_start
  have hr : 0 < (exThin 1).resistance 10.05 := by
    show 0 < exThermal.resistance 10.05
    rw [exThermal_resistance]; norm_num
  obtain ⟨j, hj, -⟩ := C66_defined (exThin 1) .metric (exWeather 0) 10.05 (exThin_valid zero_le_one) (by decide)
    (exWeather_valid le_rfl) (by norm_num [exWeather]) hr
  refine ⟨transientCalls (exThin 1) i (|j| + 1) 2 .metric (exWeather 0), _, exThin 1, exWeather 0, j,
    transientCalls_ask i (|j| + 1) 2 (exThin_heat zero_le_one), rfl, rfl, by show 0 ≤ |j| + 1; positivity, ?_,
    ⟨by rw [series_length]; decide, ?_⟩, hr, hj, ?_⟩
  · show (0:ℝ) < 1 + 0; norm_num
  · rw [(series_get _ _ _ _ _ _ _ _ _).2.1 rfl]
    exact hi 1 zero_le_one
  · show j < |j| + 1
    linarith [le_abs_self j]

end Verif.Props
