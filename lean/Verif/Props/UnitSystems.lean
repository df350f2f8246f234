import Verif.Props.Thermal
import Verif.VectorLemmas
import Mathlib.Analysis.SpecialFunctions.Pow.Real
import Mathlib.Tactic.NormNum.Pow

/-!
# C137: both unit systems give the same heat
-/

set_option linter.unusedSectionVars false

namespace Verif.Props
open Verif Verif.Units

/-- The cable measured in feet (temperatures stay in degrees Celsius, as the formulas of the code have them). -/
noncomputable def cableInFeet (k : Cable) : Cable :=
  { k with
    diameter := k.diameter / 0.3048
    resistances := k.resistances.map fun p => { p with resistance := p.resistance * 0.3048 } }

/-- The weather measured in feet. -/
noncomputable def weatherInFeet (w : ThermalWeather) : ThermalWeather :=
  { w with
    elevation := w.elevation / 0.3048
    radiationSolar := w.radiationSolar * 0.3048 ^ 2
    speedWind := w.speedWind / 0.3048 }

/-- `a` is `b` up to the fraction `e`. -/
def Near (e a b : ℝ) : Prop := (1 - e) * b ≤ a ∧ a ≤ (1 + e) * b

theorem near_conductivity {x : ℝ} (h1 : -100 ≤ x) (h2 : x ≤ 200) :
    Near 1e-4 (Heat.conductivity .imperial x / 0.3048) (Heat.conductivity .metric x) ∧
    0 ≤ Heat.conductivity .metric x := by
  unfold Near Heat.conductivity
  norm_num
  refine ⟨⟨?_, ?_⟩, ?_⟩ <;> nlinarith

/-- The two formulas for the density of air, in pounds and feet and in kilograms and meters. -/
theorem near_density {h x : ℝ} (h1 : 0 ≤ h) (h2 : h ≤ 10000) (hx : -200 ≤ x) :
    ∃ i m, Heat.density .imperial (h / 0.3048) x = some i ∧ Heat.density .metric h x = some m ∧ 0 < m ∧ 0 < i ∧
      Near 4e-4 (i * (0.45359237 / 0.3048 ^ 3)) m := by
  have hx' : 0 < 1 + 0.00367 * x := by linarith
  obtain ⟨m, m1, m2⟩ := Heat.density_pos (u := .metric) (by decide) h hx
  obtain ⟨i, i1, i2⟩ := Heat.density_pos (u := .imperial) (by decide) (h / 0.3048) hx
  refine ⟨i, m, i2, m2, m1, i1, ?_⟩
  have em : m * (1 + 0.00367 * x) = 1.293 - 1.525 * 10 ^ (-4 : ℤ) * h + 6.379 * 10 ^ (-9 : ℤ) * h ^ 2 := by
    simp only [Heat.density, divFinite, if_neg hx'.ne', Option.some.injEq] at m2
    rw [← m2]; field_simp
  have ei : i * (1 + 0.00367 * x) = 0.080695 - 2.901 * 10 ^ (-6 : ℤ) * (h / 0.3048) +
      3.7 * 10 ^ (-11 : ℤ) * (h / 0.3048) ^ 2 := by
    simp only [Heat.density, divFinite, if_neg hx'.ne', Option.some.injEq] at i2
    rw [← i2]; field_simp
  constructor
  · refine le_of_mul_le_mul_right ?_ hx'
    rw [mul_assoc _ m, em, mul_right_comm i, ei]
    norm_num
    nlinarith [mul_nonneg h1 (sub_nonneg.2 h2)]
  · refine le_of_mul_le_mul_right ?_ hx'
    rw [mul_assoc _ m, em, mul_right_comm i, ei]
    norm_num
    nlinarith [mul_nonneg h1 (sub_nonneg.2 h2)]

/-- Fractional powers bring numbers closer together. -/
theorem near_pow {a b e p : ℝ} (hb : 0 ≤ b) (he : 0 ≤ e) (he1 : e < 1) (hp : 0 < p) (hp1 : p ≤ 1)
    (h : (1 - e) * b ≤ a ∧ a ≤ b) : (1 - e) * b ^ p ≤ a ^ p ∧ a ^ p ≤ b ^ p := by
  have h0 : 0 ≤ (1 - e) * b := mul_nonneg (by linarith) hb
  refine ⟨?_, Real.rpow_le_rpow (h0.trans h.1) h.2 hp.le⟩
  have h1 : (1 - e) ≤ (1 - e) ^ p := by
    have := Real.rpow_le_rpow_of_exponent_ge (x := 1 - e) (by linarith) (by linarith) hp1
    rwa [Real.rpow_one] at this
  calc (1 - e) * b ^ p ≤ (1 - e) ^ p * b ^ p := mul_le_mul_of_nonneg_right h1 (Real.rpow_nonneg hb p)
    _ = ((1 - e) * b) ^ p := (Real.mul_rpow (by linarith) hb).symm
    _ ≤ a ^ p := Real.rpow_le_rpow h0 h.1 hp.le

theorem windFactor_nonneg {x : ℝ} (h0 : 0 ≤ x) (h1 : x ≤ 90) : 0 ≤ Heat.windFactor x := by
  have e : toRadians x = x * (kPi / 180) := by
    simp [toRadians, convertAngle, Units.convert]
  have hp : kPi < Real.pi := kPi_lt_pi
  have k0 : (0 : ℝ) < kPi := by norm_num [kPi]
  have r0 : 0 ≤ toRadians x := by rw [e]; positivity
  have r1 : toRadians x ≤ Real.pi / 2 := by
    rw [e]
    nlinarith
  have c0 := Real.cos_nonneg_of_neg_pi_div_two_le_of_le (by linarith) r1
  have s0 := Real.sin_nonneg_of_nonneg_of_le_pi r0 (by linarith)
  have c1 := Real.cos_le_one (toRadians x)
  unfold Heat.windFactor
  rw [Real.cos_two_mul, Real.sin_two_mul]
  nlinarith [mul_nonneg s0 c0, sq_nonneg (Real.cos (toRadians x))]

/-- Forced convection, when it is defined. -/
theorem forced_eq {k : Cable} {w : ThermalWeather} {c d v : ℝ} (t : ℝ) (hv : 0 < v) (hd : 0 ≤ d) (hk : 0 ≤ k.diameter)
    (hw : 0 ≤ w.speedWind) :
    Heat.forced k w c d v t = some (max
      (Heat.windFactor w.angleWind * (1.01 + 1.35 * (k.diameter * d * w.speedWind / v) ^ (0.52 : ℝ)) * c *
        (t - w.temperatureAir))
      (Heat.windFactor w.angleWind * 0.754 * (k.diameter * d * w.speedWind / v) ^ (0.6 : ℝ) * c *
        (t - w.temperatureAir))) := by
  unfold Heat.forced divFinite powFraction
  have h : ¬ k.diameter * d * w.speedWind / v < 0 := by
    rw [not_lt]; positivity
  rw [if_neg hv.ne']
  simp only [Option.bind_some, if_neg h, Option.map_some]
  split_ifs with hh
  · rw [max_eq_right hh]
  · rw [max_eq_left (le_of_not_ge hh)]

/-- The viscosities, as multiples of the same number. -/
theorem viscosity_eq {x : ℝ} (hx : -200 ≤ x) : ∃ y, 0 < y ∧
    Heat.viscosity .imperial x = some (0.00353 / 3600 * y) ∧ Heat.viscosity .metric x = some (1.458e-6 * y) := by
  refine ⟨(x + 273) ^ (1.5 : ℝ) / (x + 383.4), div_pos (Real.rpow_pos_of_pos (by linarith) _) (by linarith), ?_, ?_⟩
  · simp only [Heat.viscosity, powFraction, divFinite]
    rw [if_neg (by linarith)]
    simp only [Option.bind_some]
    rw [if_neg (by linarith)]
    simp only [Option.map_some, Option.some.injEq]
    ring
  · simp only [Heat.viscosity, powFraction, divFinite]
    rw [if_neg (by linarith)]
    simp only [Option.bind_some]
    rw [if_neg (by linarith)]
    simp only [Option.some.injEq]
    norm_num
    ring

theorem near_max {e a b a' b' : ℝ} (he : 0 ≤ e) (he1 : e ≤ 1) (h : Near e a a') (h' : Near e b b') :
    Near e (max a b) (max a' b') := by
  constructor
  · rw [mul_max_of_nonneg _ _ (by linarith)]
    exact max_le_max h.1 h'.1
  · rw [mul_max_of_nonneg _ _ (by linarith)]
    exact max_le_max h.2 h'.2

/-- A factor that is a little less, and the conductivity. -/
theorem near_factor {a b c d x : ℝ} (hx : 0 ≤ x) (hb : 0 ≤ b) (hd : 0 ≤ d) (h : (1 - 1.3e-3) * b ≤ a ∧ a ≤ b)
    (hc : Near 1e-4 c d) : Near 1.5e-3 (a * c * x) (b * d * x) := by
  have c0 : 0 ≤ c := le_trans (mul_nonneg (by norm_num) hd) hc.1
  have a0 : 0 ≤ a := le_trans (mul_nonneg (by norm_num) hb) h.1
  have bd : 0 ≤ b * d := mul_nonneg hb hd
  have lo : (1 - 1.5e-3) * (b * d) ≤ a * c := by
    have := mul_le_mul h.1 hc.1 (mul_nonneg (by norm_num) hd) a0
    nlinarith
  have hi : a * c ≤ (1 + 1.5e-3) * (b * d) := by
    have := mul_le_mul h.2 hc.2 c0 hb
    nlinarith
  constructor
  · rw [← mul_assoc]
    exact mul_le_mul_of_nonneg_right lo hx
  · rw [← mul_assoc]
    exact mul_le_mul_of_nonneg_right hi hx

/-- The density in the natural convection, with the power of the foot. -/
theorem near_natural {i m : ℝ} (hm : 0 < m) (hi : 0 < i) (h : Near 4e-4 (i * (0.45359237 / 0.3048 ^ 3)) m) {d x : ℝ}
    (hd : 0 < d) (hx : 0 ≤ x) :
    Near 1.5e-3 (1.825 * i ^ (0.5 : ℝ) * (d / 0.3048) ^ (0.75 : ℝ) * x / 0.3048)
      (3.645 * m ^ (0.5 : ℝ) * d ^ (0.75 : ℝ) * x) := by
  have half : ∀ y : ℝ, y ^ (0.5 : ℝ) = √y := fun y => by rw [Real.sqrt_eq_rpow]; norm_num
  rw [half, half, Real.div_rpow hd.le (by norm_num)]
  set y := (0.3048 : ℝ) ^ (0.75 : ℝ) with hy
  have y0 : 0 < y := Real.rpow_pos_of_pos (by norm_num) _
  have y4 : y ^ 4 = 0.3048 ^ 3 := by
    rw [hy, ← Real.rpow_natCast, ← Real.rpow_mul (by norm_num), ← Real.rpow_natCast]
    norm_num
  have y1 : 0.4102 ≤ y := by
    by_contra hc
    have := pow_lt_pow_left₀ (not_le.1 hc) y0.le (n := 4) (by norm_num)
    rw [y4] at this
    norm_num at this
  have y2 : y ≤ 0.41023 := by
    by_contra hc
    have := pow_lt_pow_left₀ (not_le.1 hc) (by norm_num) (n := 4) (by norm_num)
    rw [y4] at this
    norm_num at this
  -- the roots
  have r1 : 0.2498 * √m ≤ √i := by
    apply Real.le_sqrt_of_sq_le
    rw [mul_pow, Real.sq_sqrt hm.le]
    have := h.1
    norm_num at this ⊢
    linarith
  have r2 : √i ≤ 0.24991 * √m := by
    rw [Real.sqrt_le_left (by positivity), mul_pow, Real.sq_sqrt hm.le]
    have := h.2
    norm_num at this ⊢
    linarith
  have s0 : 0 ≤ √m := Real.sqrt_nonneg m
  have p0 : 0 < d ^ (0.75 : ℝ) := Real.rpow_pos_of_pos hd _
  have z0 : 0 ≤ d ^ (0.75 : ℝ) * x := mul_nonneg p0.le hx
  have e : 1.825 * √i * (d ^ (0.75 : ℝ) / y) * x / 0.3048 = (1.825 / 0.3048 * √i / y) * (d ^ (0.75 : ℝ) * x) := by ring
  rw [e]
  constructor
  · have : (1 - 1.5e-3) * (3.645 * √m) ≤ 1.825 / 0.3048 * √i / y := by
      rw [le_div_iff₀ y0]
      nlinarith [mul_nonneg s0 (sub_nonneg.2 y2)]
    calc _ = (1 - 1.5e-3) * (3.645 * √m) * (d ^ (0.75 : ℝ) * x) := by ring
      _ ≤ _ := mul_le_mul_of_nonneg_right this z0
  · have : 1.825 / 0.3048 * √i / y ≤ (1 + 1.5e-3) * (3.645 * √m) := by
      rw [div_le_iff₀ y0]
      nlinarith [mul_nonneg s0 (sub_nonneg.2 y1)]
    calc _ ≤ (1 + 1.5e-3) * (3.645 * √m) * (d ^ (0.75 : ℝ) * x) := mul_le_mul_of_nonneg_right this z0
      _ = _ := by ring

/-- The Reynolds number. -/
theorem near_reynolds {i m : ℝ} (hm : 0 < m) (h : Near 4e-4 (i * (0.45359237 / 0.3048 ^ 3)) m) {d v y : ℝ}
    (hd : 0 ≤ d) (hv : 0 ≤ v) (hy : 0 < y) :
    (1 - 1.3e-3) * (d * m * v / (1.458e-6 * y)) ≤ d / 0.3048 * i * (v / 0.3048) / (0.00353 / 3600 * y) ∧
    d / 0.3048 * i * (v / 0.3048) / (0.00353 / 3600 * y) ≤ d * m * v / (1.458e-6 * y) := by
  have z : 0 ≤ d * v / y := by positivity
  have e1 : d * m * v / (1.458e-6 * y) = m / 1.458e-6 * (d * v / y) := by field_simp
  have e2 : d / 0.3048 * i * (v / 0.3048) / (0.00353 / 3600 * y) = i / 0.3048 ^ 2 * 3600 / 0.00353 * (d * v / y) := by
    field_simp
  rw [e1, e2, ← mul_assoc]
  have h1 := h.1
  have h2 := h.2
  constructor
  · refine mul_le_mul_of_nonneg_right ?_ z
    norm_num at h1 ⊢
    linarith
  · refine mul_le_mul_of_nonneg_right ?_ z
    norm_num at h2 ⊢
    linarith

theorem larger_max (n f : ℝ) : Heat.larger (some n) (some f) = some (-max n f) := by
  unfold Heat.larger
  simp only
  split_ifs with h
  · rw [max_eq_right h.le]; simp
  · rw [max_eq_left (not_lt.1 h)]; simp

/-- Convection above the air temperature. -/
theorem convection_eq {k : Cable} {u : UnitSystem} {w : ThermalWeather} {t x d v : ℝ} (hu : u ≠ .null)
    (hk : 0 < k.diameter) (hw : 0 ≤ w.speedWind) (ht : w.temperatureAir ≤ t) (hx : Heat.film w t = x)
    (hd : Heat.density u w.elevation x = some d) (hd0 : 0 < d) (hv : Heat.viscosity u x = some v) (hv0 : 0 < v) :
    Heat.convection k u w t = some (-max
      (Heat.naturalConstant u * d ^ (0.5 : ℝ) * k.diameter ^ (0.75 : ℝ) * (t - w.temperatureAir) ^ (1.25 : ℝ))
      (max
        (Heat.windFactor w.angleWind * (1.01 + 1.35 * (k.diameter * d * w.speedWind / v) ^ (0.52 : ℝ)) *
          Heat.conductivity u x * (t - w.temperatureAir))
        (Heat.windFactor w.angleWind * 0.754 * (k.diameter * d * w.speedWind / v) ^ (0.6 : ℝ) *
          Heat.conductivity u x * (t - w.temperatureAir)))) := by
  unfold Heat.convection
  rw [if_neg hu, hx, hd]
  simp only [Heat.natural_eq u hd0 hk ht, hv, Option.bind_some,
    forced_eq (c := Heat.conductivity u x) t hv0 hd0.le hk.le hw]
  exact larger_max _ _

/-- Convection in both unit systems. -/
theorem convection_units (k : Cable) (w : ThermalWeather) (hk : k.validateThermal.1 = true) (hw : w.validate.1 = true)
    (he : w.elevation ≤ 10000) (t : ℝ) (ht : w.temperatureAir ≤ t) (ht' : t ≤ 300) :
    ∃ m i, Heat.convection k .metric w t = some m ∧
      Heat.convection (cableInFeet k) .imperial (weatherInFeet w) t = some i ∧ m ≤ 0 ∧
      |i / 0.3048 - m| ≤ 1.5e-3 * |m| := by
  rw [Cable.validateThermal_iff] at hk
  rw [ThermalWeather.validate_iff] at hw
  obtain ⟨⟨a0, a1⟩, e0, -, v0, t0, t1⟩ := hw
  have hd := hk.1.2.1
  have f0 : -100 ≤ Heat.film w t := by unfold Heat.film; linarith
  have f1 : Heat.film w t ≤ 200 := by unfold Heat.film; linarith
  have ef : Heat.film (weatherInFeet w) t = Heat.film w t := rfl
  obtain ⟨di, dm, d1, d2, d3, d4, d5⟩ := near_density e0 he (x := Heat.film w t) (by linarith)
  obtain ⟨y, y0, y1, y2⟩ := viscosity_eq (x := Heat.film w t) (by linarith)
  obtain ⟨c1, c2⟩ := near_conductivity f0 f1
  have ci : 0 ≤ Heat.conductivity .imperial (Heat.film w t) := by
    have := le_trans (mul_nonneg (by norm_num) c2) c1.1
    have := mul_nonneg this (by norm_num : (0 : ℝ) ≤ 0.3048)
    rwa [div_mul_cancel₀ _ (by norm_num)] at this
  have dt : 0 ≤ t - w.temperatureAir := by linarith
  have wf := windFactor_nonneg a0 a1
  -- both answers
  have hm := convection_eq (k := k) (u := .metric) (by decide) hd v0 ht rfl d2 d3 y2 (by positivity)
  have N := near_natural d3 d4 d5 hd (x := (t - w.temperatureAir) ^ (1.25 : ℝ)) (Real.rpow_nonneg dt _)
  have R := near_reynolds d3 d5 hd.le v0 y0
  have R0 : 0 ≤ k.diameter * dm * w.speedWind / (1.458e-6 * y) := by positivity
  obtain ⟨p1, p2⟩ := near_pow R0 (by norm_num) (by norm_num) (p := 0.52) (by norm_num) (by norm_num) R
  obtain ⟨q1, q2⟩ := near_pow R0 (by norm_num) (by norm_num) (p := 0.6) (by norm_num) (by norm_num) R
  have P0 := Real.rpow_nonneg R0 (0.52 : ℝ)
  have Q0 := Real.rpow_nonneg R0 (0.6 : ℝ)
  set Rm := k.diameter * dm * w.speedWind / (1.458e-6 * y) with hRm
  set Ri := k.diameter / 0.3048 * di * (w.speedWind / 0.3048) / (0.00353 / 3600 * y) with hRi
  have F1 : Near 1.5e-3
      (Heat.windFactor w.angleWind * (1.01 + 1.35 * Ri ^ (0.52 : ℝ)) * (Heat.conductivity .imperial (Heat.film w t) / 0.3048) *
        (t - w.temperatureAir))
      (Heat.windFactor w.angleWind * (1.01 + 1.35 * Rm ^ (0.52 : ℝ)) * Heat.conductivity .metric (Heat.film w t) *
        (t - w.temperatureAir)) := by
    refine near_factor dt (by positivity) c2 ⟨?_, ?_⟩ c1
    · rw [mul_left_comm]
      refine mul_le_mul_of_nonneg_left ?_ wf
      nlinarith
    · refine mul_le_mul_of_nonneg_left ?_ wf
      linarith
  have F2 : Near 1.5e-3
      (Heat.windFactor w.angleWind * 0.754 * Ri ^ (0.6 : ℝ) * (Heat.conductivity .imperial (Heat.film w t) / 0.3048) *
        (t - w.temperatureAir))
      (Heat.windFactor w.angleWind * 0.754 * Rm ^ (0.6 : ℝ) * Heat.conductivity .metric (Heat.film w t) *
        (t - w.temperatureAir)) := by
    refine near_factor dt (by positivity) c2 ⟨?_, ?_⟩ c1
    · rw [mul_left_comm]
      exact mul_le_mul_of_nonneg_left q1 (by positivity)
    · exact mul_le_mul_of_nonneg_left q2 (by positivity)
  have M := near_max (by norm_num) (by norm_num) N (near_max (by norm_num) (by norm_num) F1 F2)
  have key : ∀ {a a' : ℝ}, Near 1.5e-3 a a' → 0 ≤ a' → |-a - -a'| ≤ 1.5e-3 * |-a'| := by
    intro a a' h h0
    rw [abs_neg, abs_of_nonneg h0, abs_le]
    obtain ⟨h1, h2⟩ := h
    constructor <;> linarith
  have z := key M (le_trans (by positivity) (le_max_left _ _))
  have hi : Heat.convection (cableInFeet k) .imperial (weatherInFeet w) t = some (-max
      (1.825 * di ^ (0.5 : ℝ) * (k.diameter / 0.3048) ^ (0.75 : ℝ) * (t - w.temperatureAir) ^ (1.25 : ℝ))
      (max
        (Heat.windFactor w.angleWind * (1.01 + 1.35 * Ri ^ (0.52 : ℝ)) *
          Heat.conductivity .imperial (Heat.film w t) * (t - w.temperatureAir))
        (Heat.windFactor w.angleWind * 0.754 * Ri ^ (0.6 : ℝ) *
          Heat.conductivity .imperial (Heat.film w t) * (t - w.temperatureAir)))) :=
    convection_eq (k := cableInFeet k) (u := .imperial) (w := weatherInFeet w) (t := t) (by decide)
      (show 0 < k.diameter / 0.3048 by positivity) (show 0 ≤ w.speedWind / 0.3048 by positivity) ht ef d1 d4 y1
      (by positivity)
  refine ⟨_, _, hm, hi, ?_, ?_⟩
  · rw [neg_nonpos]
    refine le_trans ?_ (le_max_left _ _)
    have := Heat.naturalConstant_pos (u := .metric) (by decide)
    positivity
  · rw [neg_div, ← max_div_div_right (by norm_num), ← max_div_div_right (by norm_num)]
    rw [← mul_div_assoc, ← mul_div_assoc, div_mul_eq_mul_div, div_mul_eq_mul_div] at z
    exact z

/-- A row of the resistance table, per foot. -/
noncomputable def rowInFeet (p : ResistancePoint) : ResistancePoint := { p with resistance := p.resistance * 0.3048 }

theorem search_feet (t : ℝ) (l : List ResistancePoint) (p q : ResistancePoint) :
    Cable.resistanceSearch t (rowInFeet p) (rowInFeet q) (l.map rowInFeet) =
      (rowInFeet (Cable.resistanceSearch t p q l).1, rowInFeet (Cable.resistanceSearch t p q l).2) := by
  induction l generalizing p q with
  | nil => rfl
  | cons r l ih =>
    simp only [List.map_cons, Cable.resistanceSearch]
    have e : ∀ p : ResistancePoint, (rowInFeet p).temperature = p.temperature := fun _ => rfl
    rw [e, e]
    split_ifs
    · rfl
    · rfl
    · exact ih q r

theorem resistance_feet (k : Cable) (t : ℝ) (hk : 2 ≤ k.resistances.length) :
    (cableInFeet k).resistance t = k.resistance t * 0.3048 := by
  have e : (cableInFeet k).resistances = k.resistances.map rowInFeet := rfl
  unfold Cable.resistance
  rw [e]
  match hr : k.resistances with
  | [] => rw [hr] at hk; simp at hk
  | [_] => rw [hr] at hk; simp at hk
  | p :: q :: rest =>
    simp only [List.map_cons, search_feet]
    unfold Helper.linearY rowInFeet
    simp only
    ring

/-- **C137**: the heat in both unit systems.  Take a cable and weather that pass validation, up to 10000 m above the sea,
and a cable temperature from the air temperature up to 300 degrees Celsius.  Measured in meters, or in feet with the
other unit system, convection and radiation per length agree up to 0.15 percent, and solar and resistive heat are the
same. -/
theorem C137_heats (k : Cable) (w : ThermalWeather) (hk : k.validateThermal.1 = true) (hw : w.validate.1 = true)
    (he : w.elevation ≤ 10000) (t : ℝ) (ht : w.temperatureAir ≤ t) (ht' : t ≤ 300) :
    (cableInFeet k).validateThermal.1 = true ∧ (weatherInFeet w).validate.1 = true ∧
    (∃ m i, Heat.convection k .metric w t = some m ∧
      Heat.convection (cableInFeet k) .imperial (weatherInFeet w) t = some i ∧ |i / 0.3048 - m| ≤ 0.0015 * |m|) ∧
    |Heat.radiation (cableInFeet k) .imperial (weatherInFeet w) t / 0.3048 - Heat.radiation k .metric w t| ≤
      0.0015 * |Heat.radiation k .metric w t| ∧
    Heat.solar (cableInFeet k) (weatherInFeet w) / 0.3048 = Heat.solar k w ∧
    ∀ current, Heat.resistance (cableInFeet k) t current / 0.3048 = Heat.resistance k t current := by
  have hk' := hk
  have hw' := hw
  rw [Cable.validateThermal_iff] at hk'
  rw [ThermalWeather.validate_iff] at hw'
  obtain ⟨⟨q1, q2, q3⟩, q4, q5, ⟨q6, q7⟩, q8⟩ := hk'
  obtain ⟨b1, b2, b3, b4, b5⟩ := hw'
  refine ⟨?_, ?_, ?_, ?_, ?_, fun current => ?_⟩
  · rw [Cable.validateThermal_iff]
    refine ⟨⟨q1, show 0 < k.diameter / 0.3048 by positivity, q3⟩, q4, q5, ⟨?_, ?_⟩, q8⟩
    · show 2 ≤ (k.resistances.map rowInFeet).length
      rw [List.length_map]; exact q6
    · show (k.resistances.map rowInFeet).Pairwise _
      rw [List.pairwise_map]; exact q7
  · rw [ThermalWeather.validate_iff]
    exact ⟨b1, show 0 ≤ w.elevation / 0.3048 by positivity, show 0 ≤ w.radiationSolar * 0.3048 ^ 2 by positivity,
      show 0 ≤ w.speedWind / 0.3048 by positivity, b5⟩
  · obtain ⟨m, i, h1, h2, -, h3⟩ := convection_units k w hk hw he t ht ht'
    refine ⟨m, i, h1, h2, ?_⟩
    norm_num at h3 ⊢
    exact h3
  · have e : Heat.radiation (cableInFeet k) .imperial (weatherInFeet w) t / 0.3048 =
        Heat.radiation k .metric w t * (1.656 / 0.3048 ^ 2 / 17.8) := by
      unfold Heat.radiation
      show -1 * (1.656 * (k.diameter / 0.3048) * k.emissivity) * (((t + 273) / 100) ^ 4 -
        ((w.temperatureAir + 273) / 100) ^ 4) / 0.3048 = -1 * (17.8 * k.diameter * k.emissivity) * (((t + 273) / 100) ^ 4 -
        ((w.temperatureAir + 273) / 100) ^ 4) * (1.656 / 0.3048 ^ 2 / 17.8)
      ring
    rw [e, show Heat.radiation k .metric w t * (1.656 / 0.3048 ^ 2 / 17.8) - Heat.radiation k .metric w t =
      Heat.radiation k .metric w t * (1.656 / 0.3048 ^ 2 / 17.8 - 1) by ring, abs_mul, mul_comm]
    refine mul_le_mul_of_nonneg_right ?_ (abs_nonneg _)
    rw [abs_le]
    norm_num
  · show k.absorptivity * (w.radiationSolar * 0.3048 ^ 2) * (k.diameter / 0.3048 * 1) / 0.3048 =
      k.absorptivity * w.radiationSolar * (k.diameter * 1)
    norm_num
    ring
  · unfold Heat.resistance
    rw [resistance_feet k t q6]
    norm_num
    ring

/-- The heat that a current makes: negative currents stand for heat that would have to be taken away. -/
noncomputable def currentHeat (i : ℝ) : ℝ := i * |i|

/-- **C137**: the current in both unit systems.  Where the resistance is positive, the current solver reports currents in
both unit systems, and the resistive heats that they make differ by at most 0.15 percent of the cooling by convection
and radiation. -/
theorem C137_current (k : Cable) (w : ThermalWeather) (hk : k.validateThermal.1 = true) (hw : w.validate.1 = true)
    (he : w.elevation ≤ 10000) (t : ℝ) (ht : w.temperatureAir ≤ t) (ht' : t ≤ 300) (hr : 0 < k.resistance t) :
    ∃ m i c, (currentAfter (currentSetup k t .metric w)).askCurrent.2 = some m ∧
      (currentAfter (currentSetup (cableInFeet k) t .imperial (weatherInFeet w))).askCurrent.2 = some i ∧
      Heat.convection k .metric w t = some c ∧
      |currentHeat i - currentHeat m| * k.resistance t ≤ 0.0015 * (|c| + |Heat.radiation k .metric w t|) := by
  obtain ⟨v1, v2, ⟨cm, ci, h1, h2, h3⟩, h4, h5, -⟩ := C137_heats k w hk hw he t ht ht'
  have hr' : (cableInFeet k).resistance t = k.resistance t * 0.3048 :=
    resistance_feet k t ((Cable.validateThermal_iff k).1 hk).2.2.2.1.1
  set rm := Heat.radiation k .metric w t with hrm
  set ri := Heat.radiation (cableInFeet k) .imperial (weatherInFeet w) t with hri
  set s := Heat.solar k w with hs
  set si := Heat.solar (cableInFeet k) (weatherInFeet w) with hsi
  have em := (currentSetup_ask t (heatValid_of hk (by decide : UnitSystem.metric ≠ .null) hw)).1
  have ei := (currentSetup_ask t (heatValid_of v1 (by decide : UnitSystem.imperial ≠ .null) v2)).1
  obtain ⟨m, hm⟩ := Heat.currentOf_pos (-1 * (cm + rm + s)) hr
  obtain ⟨i, hi⟩ := Heat.currentOf_pos (-1 * (ci + ri + si)) (r := k.resistance t * 0.3048) (by positivity)
  refine ⟨m, i, cm, ?_, ?_, h1, ?_⟩
  · rw [em]
    simpa [Heat.steadyCurrent, Heat.steadyState, h1] using hm
  · rw [ei]
    simpa [Heat.steadyCurrent, Heat.steadyState, h2, hr'] using hi
  have key : ∀ {h r i : ℝ}, 0 < r → Heat.currentOf h r = some i → currentHeat i * r = h := by
    intro h r i hr hi
    obtain ⟨g1, g2, g3, -⟩ := Heat.currentOf_spec hi
    unfold currentHeat
    rcases lt_or_ge h 0 with hh | hh
    · have := g2 hh
      rw [abs_of_neg hh] at g1
      rw [abs_of_neg this]
      nlinarith
    · have := g3 hh
      rw [abs_of_nonneg hh] at g1
      rw [abs_of_nonneg this]
      nlinarith
  have km := key hr hm
  have ki := key (by positivity : 0 < k.resistance t * 0.3048) hi
  have e1 : (currentHeat i - currentHeat m) * k.resistance t = -((ci / 0.3048 - cm) + (ri / 0.3048 - rm)) := by
    have e2 : currentHeat i * k.resistance t = -1 * (ci / 0.3048 + ri / 0.3048 + s) := by
      rw [← h5]
      have : currentHeat i * k.resistance t = currentHeat i * (k.resistance t * 0.3048) / 0.3048 := by
        norm_num
        ring
      rw [this, ki]
      ring
    rw [sub_mul, e2, km]
    ring
  calc |currentHeat i - currentHeat m| * k.resistance t = |(currentHeat i - currentHeat m) * k.resistance t| := by
        rw [abs_mul, abs_of_pos hr]
    _ = |(ci / 0.3048 - cm) + (ri / 0.3048 - rm)| := by rw [e1, abs_neg]
    _ ≤ |ci / 0.3048 - cm| + |ri / 0.3048 - rm| := abs_add_le _ _
    _ ≤ 0.0015 * |cm| + 0.0015 * |rm| := add_le_add h3 h4
    _ = _ := by ring

/-- A lit cable at 60 degrees. -/
example : ∃ m i c, (currentAfter (currentSetup exThermal 60 .metric (exWeather 4))).askCurrent.2 = some m ∧
    (currentAfter (currentSetup (cableInFeet exThermal) 60 .imperial (weatherInFeet (exWeather 4)))).askCurrent.2 = some i ∧
    Heat.convection exThermal .metric (exWeather 4) 60 = some c ∧
    |currentHeat i - currentHeat m| * exThermal.resistance 60 ≤
      0.0015 * (|c| + |Heat.radiation exThermal .metric (exWeather 4) 60|) :=
  C137_current exThermal (exWeather 4) exThermal_valid (exWeather_valid (by norm_num)) (by norm_num [exWeather]) 60
    (by norm_num [exWeather]) (by norm_num) (by rw [exThermal_resistance]; norm_num)

end Verif.Props
