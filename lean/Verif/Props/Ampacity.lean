import Verif.Props.UnitSystems
import Mathlib.Analysis.Calculus.Deriv.MeanValue

/-!
# C140: the weather and the current
-/

set_option linter.unusedSectionVars false

namespace Verif.Props

open Verif.Units

/-! ## The direction of the wind -/

/-- The factor of the wind direction as a function of the angle in radians. -/
noncomputable def windCurve (x : ℝ) : ℝ := 1.194 - Real.cos x + 0.194 * Real.cos (2 * x) + 0.368 * Real.sin (2 * x)

theorem windCurve_deriv (x : ℝ) : HasDerivAt windCurve
    (0 - -Real.sin x + 0.194 * (-Real.sin (2 * x) * (2 * 1)) + 0.368 * (Real.cos (2 * x) * (2 * 1))) x := by
  have h2 : HasDerivAt (fun y : ℝ => 2 * y) (2 * 1) x := (hasDerivAt_id x).const_mul 2
  exact (((hasDerivAt_const x (1.194 : ℝ)).sub (Real.hasDerivAt_cos x)).add
    (((Real.hasDerivAt_cos (2 * x)).comp x h2).const_mul 0.194)).add
    (((Real.hasDerivAt_sin (2 * x)).comp x h2).const_mul 0.368)

theorem windCurve_mono : MonotoneOn windCurve (Set.Icc 0 (Real.pi / 2)) := by
  refine monotoneOn_of_deriv_nonneg (convex_Icc _ _)
    (fun x _ => (windCurve_deriv x).continuousAt.continuousWithinAt)
    (fun x _ => (windCurve_deriv x).differentiableAt.differentiableWithinAt) ?_
  intro x hx
  rw [interior_Icc] at hx
  rw [(windCurve_deriv x).deriv, Real.sin_two_mul, Real.cos_two_mul]
  have s0 := Real.sin_nonneg_of_nonneg_of_le_pi hx.1.le (by linarith [hx.2, Real.pi_pos])
  have c0 := Real.cos_nonneg_of_neg_pi_div_two_le_of_le (by linarith [hx.1, Real.pi_pos]) hx.2.le
  have s1 := Real.sin_le_one x
  have e := Real.sin_sq_add_cos_sq x
  nlinarith [sq_nonneg (Real.cos x - 0.53 * Real.sin x), mul_nonneg s0 (sub_nonneg.2 s1), sq_nonneg (Real.sin x),
    sq_nonneg (Real.cos x)]

theorem angle_radians {x : ℝ} (h0 : 0 ≤ x) (h1 : x ≤ 90) : toRadians x ∈ Set.Icc 0 (Real.pi / 2) := by
  have e : toRadians x = x * (kPi / 180) := by
    simp [toRadians, convertAngle, Units.convert]
  have hp : kPi < Real.pi := kPi_lt_pi
  have k0 : (0 : ℝ) < kPi := by norm_num [kPi]
  refine ⟨by rw [e]; positivity, ?_⟩
  rw [e]
  nlinarith

theorem windFactor_mono {x y : ℝ} (h0 : 0 ≤ x) (h : x ≤ y) (h1 : y ≤ 90) : Heat.windFactor x ≤ Heat.windFactor y := by
  refine windCurve_mono (angle_radians h0 (h.trans h1)) (angle_radians (h0.trans h) h1) ?_
  simp only [toRadians, convertAngle, Units.convert]
  have k0 : (0 : ℝ) < kPi := by norm_num [kPi]
  simp
  gcongr

/-- Along the cable 0.388, across the cable at most 1. -/
theorem windFactor_ends : Heat.windFactor 0 = 0.388 ∧ Heat.windFactor 90 ≤ 1 := by
  constructor
  · have : toRadians 0 = 0 := by simp [toRadians, convertAngle, Units.convert]
    unfold Heat.windFactor
    rw [this]
    norm_num
  · have h := windCurve_mono (angle_radians (by norm_num) le_rfl : toRadians 90 ∈ _)
      (Set.right_mem_Icc.2 (by positivity)) (angle_radians (by norm_num) le_rfl : toRadians 90 ∈ _).2
    have e : windCurve (Real.pi / 2) = 1 := by
      unfold windCurve
      rw [show 2 * (Real.pi / 2) = Real.pi by ring, Real.cos_pi_div_two, Real.cos_pi, Real.sin_pi]
      norm_num
    exact h.trans e.le

/-! ## Convection -/

theorem viscosity_pos {u : UnitSystem} (hu : u ≠ .null) {x : ℝ} (hx : -200 ≤ x) :
    ∃ v, 0 < v ∧ Heat.viscosity u x = some v := by
  obtain ⟨y, y0, y1, y2⟩ := viscosity_eq hx
  cases u with
  | null => exact absurd rfl hu
  | imperial => exact ⟨_, by positivity, y1⟩
  | metric => exact ⟨_, by positivity, y2⟩

theorem conductivity_pos {u : UnitSystem} (hu : u ≠ .null) {x : ℝ} (h0 : -100 ≤ x) (h1 : x ≤ 1000) :
    0 < Heat.conductivity u x := by
  have q := mul_nonneg (sub_nonneg.2 h0) (sub_nonneg.2 h1)
  cases u with
  | null => exact absurd rfl hu
  | imperial => simp only [Heat.conductivity]; norm_num; nlinarith
  | metric => simp only [Heat.conductivity]; norm_num; nlinarith

/-- Convection as natural or forced convection, the larger one. -/
theorem convection_parts {k : Cable} {u : UnitSystem} {w : ThermalWeather} {t : ℝ} (hk : 0 < k.diameter)
    (hu : u ≠ .null) (ht : w.temperatureAir ≤ t) (ht' : t ≤ 1000) (h0 : -100 ≤ w.temperatureAir) :
    ∃ n p q r : ℝ, 0 ≤ n ∧ 0 ≤ p ∧ 0 ≤ q ∧ 0 ≤ r ∧ ∀ w' : ThermalWeather, w'.temperatureAir = w.temperatureAir →
      w'.elevation = w.elevation → 0 ≤ w'.speedWind → 0 ≤ Heat.windFactor w'.angleWind → Heat.convection k u w' t = some (-max n
        (Heat.windFactor w'.angleWind * max (1.01 * p + q * w'.speedWind ^ (0.52 : ℝ)) (r * w'.speedWind ^ (0.6 : ℝ)))) := by
  have f0 : -100 ≤ Heat.film w t := by unfold Heat.film; linarith
  have f1 : Heat.film w t ≤ 1000 := by unfold Heat.film; linarith
  obtain ⟨d, hd, hde⟩ := Heat.density_pos hu w.elevation (f := Heat.film w t) (by linarith)
  obtain ⟨v, hv, hve⟩ := viscosity_pos hu (x := Heat.film w t) (by linarith)
  have hc := conductivity_pos hu f0 f1
  have dt : 0 ≤ t - w.temperatureAir := by linarith
  have hn := Heat.naturalConstant_pos hu
  refine ⟨Heat.naturalConstant u * d ^ (0.5 : ℝ) * k.diameter ^ (0.75 : ℝ) * (t - w.temperatureAir) ^ (1.25 : ℝ),
    Heat.conductivity u (Heat.film w t) * (t - w.temperatureAir),
    1.35 * (k.diameter * d / v) ^ (0.52 : ℝ) * (Heat.conductivity u (Heat.film w t) * (t - w.temperatureAir)),
    0.754 * (k.diameter * d / v) ^ (0.6 : ℝ) * (Heat.conductivity u (Heat.film w t) * (t - w.temperatureAir)),
    by positivity, by positivity, by positivity, by positivity, ?_⟩
  intro w' e1 e2 hs hf
  have ef : Heat.film w' t = Heat.film w t := by unfold Heat.film; rw [e1]
  have h := convection_eq (w := w') (t := t) hu hk hs (by rw [e1]; exact ht) ef (by rw [e2]; exact hde) hd hve hv
  rw [h, e1, show k.diameter * d * w'.speedWind / v = k.diameter * d / v * w'.speedWind by ring,
    Real.mul_rpow (by positivity) hs, Real.mul_rpow (by positivity) hs, mul_max_of_nonneg _ _ hf]
  congr 3
  ring_nf

/-- **C140**: wind that is stronger or blows more across the cable, and less sun, never reduce the current that the
cable may carry.  This holds in both unit systems for all valid cables and weather, and for cable temperatures from the
air temperature up to 1000 degrees, where the resistance is positive. -/
theorem C140_weather (k : Cable) (u : UnitSystem) (w w' : ThermalWeather) (t : ℝ) (hk : k.validateThermal.1 = true)
    (hu : u ≠ .null) (hw : w.validate.1 = true) (hw' : w'.validate.1 = true)
    (e1 : w'.temperatureAir = w.temperatureAir) (e2 : w'.elevation = w.elevation)
    (h1 : w.speedWind ≤ w'.speedWind) (h2 : w.angleWind ≤ w'.angleWind) (h3 : w'.radiationSolar ≤ w.radiationSolar)
    (ht : w.temperatureAir ≤ t) (ht' : t ≤ 1000) (hr : 0 < k.resistance t) :
    ∃ i i', (currentAfter (currentSetup k t u w)).askCurrent.2 = some i ∧
      (currentAfter (currentSetup k t u w')).askCurrent.2 = some i' ∧ i ≤ i' := by
  have a1 := (currentSetup_ask t (heatValid_of hk hu hw)).1
  have a2 := (currentSetup_ask t (heatValid_of hk hu hw')).1
  rw [Cable.validateThermal_iff] at hk
  rw [ThermalWeather.validate_iff] at hw hw'
  have hd := hk.1.2.1
  obtain ⟨n, p, q, r, n0, p0, q0, r0, hc⟩ := convection_parts (k := k) (w := w) hd hu ht ht' hw.2.2.2.2.1
  have wf := windFactor_nonneg hw.1.1 hw.1.2
  have wf' := windFactor_nonneg hw'.1.1 hw'.1.2
  have wm := windFactor_mono hw.1.1 h2 hw'.1.2
  have c1 := hc w rfl rfl hw.2.2.2.1 wf
  have c2 := hc w' e1 e2 hw'.2.2.2.1 wf'
  have s0 := hw.2.2.2.1
  have s1 := hw'.2.2.2.1
  have m1 := Real.rpow_le_rpow s0 h1 (by norm_num : (0 : ℝ) ≤ 0.52)
  have m2 := Real.rpow_le_rpow s0 h1 (by norm_num : (0 : ℝ) ≤ 0.6)
  have hmax : max (1.01 * p + q * w.speedWind ^ (0.52 : ℝ)) (r * w.speedWind ^ (0.6 : ℝ)) ≤
      max (1.01 * p + q * w'.speedWind ^ (0.52 : ℝ)) (r * w'.speedWind ^ (0.6 : ℝ)) :=
    max_le_max (add_le_add le_rfl (mul_le_mul_of_nonneg_left m1 q0)) (mul_le_mul_of_nonneg_left m2 r0)
  have hpos : 0 ≤ max (1.01 * p + q * w.speedWind ^ (0.52 : ℝ)) (r * w.speedWind ^ (0.6 : ℝ)) :=
    le_max_of_le_right (mul_nonneg r0 (Real.rpow_nonneg s0 _))
  have hconv := max_le_max (le_refl n) (mul_le_mul wm hmax hpos wf')
  generalize max n (Heat.windFactor w.angleWind * _) = x at c1 hconv
  generalize max n (Heat.windFactor w'.angleWind * _) = y at c2 hconv
  have hrad : Heat.radiation k u w' t = Heat.radiation k u w t := by
    unfold Heat.radiation
    rw [e1]
  have hsol : Heat.solar k w' ≤ Heat.solar k w := by
    have b0 := hk.2.1.1
    unfold Heat.solar
    gcongr
  obtain ⟨i, hi⟩ := Heat.currentOf_pos (-1 * (-x + Heat.radiation k u w t + Heat.solar k w)) hr
  obtain ⟨i', hi'⟩ := Heat.currentOf_pos (-1 * (-y + Heat.radiation k u w' t + Heat.solar k w')) hr
  refine ⟨i, i', ?_, ?_, ?_⟩
  · rw [a1]
    simpa [Heat.steadyCurrent, Heat.steadyState, c1] using hi
  · rw [a2]
    simpa [Heat.steadyCurrent, Heat.steadyState, c2] using hi'
  have hle : -1 * (-x + Heat.radiation k u w t + Heat.solar k w) ≤
      -1 * (-y + Heat.radiation k u w' t + Heat.solar k w') := by
    rw [hrad]
    linarith
  obtain ⟨g1, g2, g3, -⟩ := Heat.currentOf_spec hi
  obtain ⟨g1', g2', g3', -⟩ := Heat.currentOf_spec hi'
  generalize -1 * (-x + Heat.radiation k u w t + Heat.solar k w) = a at *
  generalize -1 * (-y + Heat.radiation k u w' t + Heat.solar k w') = b at *
  rcases lt_or_ge a 0 with ha | ha <;> rcases lt_or_ge b 0 with hb | hb
  · have := g2 ha
    have := g2' hb
    rw [abs_of_neg ha] at g1
    rw [abs_of_neg hb] at g1'
    by_contra hlt
    rw [not_le] at hlt
    nlinarith [mul_pos hr (sub_pos.2 hlt)]
  · linarith [g2 ha, g3' hb]
  · linarith
  · have := g3 ha
    have := g3' hb
    rw [abs_of_nonneg ha] at g1
    rw [abs_of_nonneg hb] at g1'
    by_contra hlt
    rw [not_le] at hlt
    nlinarith [mul_pos hr (sub_pos.2 hlt)]

/-- **C140**: whatever the wind direction, convection is at least 38.8 percent of what it is with the same wind across
the cable. -/
theorem C140_direction (k : Cable) (u : UnitSystem) (w : ThermalWeather) (t : ℝ) (hk : k.validateThermal.1 = true)
    (hu : u ≠ .null) (hw : w.validate.1 = true) (ht : w.temperatureAir ≤ t) (ht' : t ≤ 1000) :
    ∃ c across, Heat.convection k u w t = some c ∧ Heat.convection k u { w with angleWind := 90 } t = some across ∧
      0.388 * |across| ≤ |c| ∧ |c| ≤ |across| := by
  rw [Cable.validateThermal_iff] at hk
  rw [ThermalWeather.validate_iff] at hw
  obtain ⟨n, p, q, r, n0, p0, q0, r0, hc⟩ := convection_parts (k := k) (w := w) hk.1.2.1 hu ht ht' hw.2.2.2.2.1
  have s0 := hw.2.2.2.1
  have wf := windFactor_nonneg hw.1.1 hw.1.2
  have wf' := windFactor_nonneg (x := 90) (by norm_num) le_rfl
  have w0 := windFactor_mono le_rfl hw.1.1 hw.1.2
  have w1 := windFactor_mono hw.1.1 hw.1.2 le_rfl
  rw [windFactor_ends.1] at w0
  have w2 := windFactor_ends.2
  have hpos : 0 ≤ max (1.01 * p + q * w.speedWind ^ (0.52 : ℝ)) (r * w.speedWind ^ (0.6 : ℝ)) :=
    le_max_of_le_right (mul_nonneg r0 (Real.rpow_nonneg s0 _))
  refine ⟨_, _, hc w rfl rfl s0 wf, hc { w with angleWind := 90 } rfl rfl s0 wf', ?_, ?_⟩
  all_goals
    simp only
    generalize max (1.01 * p + q * w.speedWind ^ (0.52 : ℝ)) (r * w.speedWind ^ (0.6 : ℝ)) = m at hpos
    rw [abs_neg, abs_neg, abs_of_nonneg (le_max_of_le_left n0), abs_of_nonneg (le_max_of_le_left n0)]
  · rw [mul_max_of_nonneg _ _ (by norm_num)]
    refine max_le_max (by linarith) ?_
    nlinarith
  · exact max_le_max le_rfl (mul_le_mul_of_nonneg_right w1 hpos)

/-- More wind across the cable and no sun, at 60 degrees. -/
example : ∃ w w' : ThermalWeather, w.validate.1 = true ∧ w'.validate.1 = true ∧ w'.temperatureAir = w.temperatureAir ∧
    w'.elevation = w.elevation ∧ w.speedWind < w'.speedWind ∧ w.angleWind < w'.angleWind ∧
    w'.radiationSolar < w.radiationSolar ∧ w.temperatureAir ≤ 60 ∧ exThermal.validateThermal.1 = true ∧
    0 < exThermal.resistance 60 := by
  refine ⟨{ exWeather 4 with angleWind := 0, speedWind := 1 }, { exWeather 0 with angleWind := 90, speedWind := 2 },
    ?_, ?_, rfl, rfl, by norm_num, by norm_num, by norm_num [exWeather], by norm_num [exWeather], exThermal_valid, ?_⟩
  · rw [ThermalWeather.validate_iff]; norm_num [exWeather]
  · rw [ThermalWeather.validate_iff]; norm_num [exWeather]
  · rw [exThermal_resistance]; norm_num

end Verif.Props
