import Verif.ThermalSolvers
import Mathlib.Tactic.Linarith
import Mathlib.Tactic.NormNum
import Mathlib.Tactic.Positivity
import Mathlib.Tactic.FieldSimp
import Mathlib.Tactic.Ring

/-! # Lemmas on the thermal rating model -/

set_option linter.unusedSectionVars false

namespace Verif

theorem isEmpty_append {A : Type} (a b : List A) : (a ++ b).isEmpty = (a.isEmpty && b.isEmpty) := by
  cases a <;> simp

theorem ThermalWeather.validate_iff (w : ThermalWeather) :
    w.validate.1 = true ↔ (0 ≤ w.angleWind ∧ w.angleWind ≤ 90) ∧ 0 ≤ w.elevation ∧ 0 ≤ w.radiationSolar ∧
      0 ≤ w.speedWind ∧ -100 ≤ w.temperatureAir ∧ w.temperatureAir ≤ 100 := by
  simp only [ThermalWeather.validate, isEmpty_append, Bool.and_eq_true]
  split_ifs <;> simp_all <;> (try constructor) <;> grind

theorem Cable.resistanceMessages_nil : ∀ l : List ResistancePoint,
    Cable.resistanceMessages l = [] ↔ l.Pairwise (fun p q => p.temperature < q.temperature)
  | [] => by simp [Cable.resistanceMessages]
  | [p] => by simp [Cable.resistanceMessages]
  | p :: q :: rest => by
    rw [Cable.resistanceMessages, List.append_eq_nil_iff, Cable.resistanceMessages_nil (q :: rest)]
    constructor
    · rintro ⟨h1, h2⟩
      have hpq : p.temperature < q.temperature := by
        by_contra hc
        rw [if_pos (not_lt.1 hc)] at h1
        cases h1
      refine List.Pairwise.cons ?_ h2
      intro x hx
      rcases List.mem_cons.1 hx with h | h
      · rw [h]; exact hpq
      · exact lt_trans hpq ((List.pairwise_cons.1 h2).1 x h)
    · intro h
      obtain ⟨h1, h2⟩ := List.pairwise_cons.1 h
      exact ⟨if_neg (not_le.2 (h1 q (by simp))), h2⟩

theorem Cable.validateThermal_iff (k : Cable) :
    k.validateThermal.1 = true ↔ (0 ≤ k.areaPhysical ∧ 0 < k.diameter ∧ 0 < k.weightUnit) ∧
      (0 ≤ k.absorptivity ∧ k.absorptivity ≤ 1) ∧ (0 ≤ k.emissivity ∧ k.emissivity ≤ 1) ∧
      (2 ≤ k.resistances.length ∧ k.resistances.Pairwise (fun p q => p.temperature < q.temperature)) ∧
      0 ≤ k.core.capacityHeat ∧ 0 ≤ k.shell.capacityHeat := by
  rw [← Cable.resistanceMessages_nil]
  simp only [Cable.validateThermal, Cable.validate, Cable.heatMessages, isEmpty_append, Bool.and_eq_true]
  have h1 : ∀ (p : Prop) [Decidable p] (s : String), (if p then [s] else []).isEmpty = true ↔ ¬ p := by
    intro p _ s
    split_ifs with h <;> simp [h]
  have h2 : (if k.resistances.length < 2 then ["Invalid ac resistances"]
      else Cable.resistanceMessages k.resistances).isEmpty = true ↔
      2 ≤ k.resistances.length ∧ Cable.resistanceMessages k.resistances = [] := by
    split_ifs with h
    · simp; omega
    · simp; omega
  rw [h2]
  simp only [h1, not_or, not_lt, not_le]
  tauto

theorem heatValid_iff (c : CablePointer) (u : UnitSystem) (w : Option ThermalWeather) :
    heatValid c u w = true ↔
      ∃ k w', c = some (some k) ∧ w = some w' ∧ k.validateThermal.1 = true ∧ u ≠ .null ∧ w'.validate.1 = true := by
  unfold heatValid
  constructor
  · intro h
    simp only [Bool.and_eq_true, decide_eq_true_eq] at h
    obtain ⟨⟨h1, h2⟩, h3⟩ := h
    split at h1
    · rename_i k
      split at h3
      · rename_i w'
        exact ⟨k, w', rfl, rfl, h1, h2, h3⟩
      · cases h3
    · cases h1
  · rintro ⟨k, w', rfl, rfl, h1, h2, h3⟩
    simp [h1, h2, h3]

namespace Heat

theorem density_pos {u : UnitSystem} (hu : u ≠ .null) (e : ℝ) {f : ℝ} (hf : -200 ≤ f) :
    ∃ d, 0 < d ∧ density u e f = some d := by
  have hf' : 0 < 1 + 0.00367 * f := by linarith
  cases u with
  | null => exact absurd rfl hu
  | imperial =>
    refine ⟨_, ?_, if_neg hf'.ne'⟩
    refine div_pos ?_ hf'
    norm_num
    nlinarith [sq_nonneg (e - 39203)]
  | metric =>
    refine ⟨_, ?_, if_neg hf'.ne'⟩
    refine div_pos ?_ hf'
    norm_num
    nlinarith [sq_nonneg (e - 11953)]

theorem naturalConstant_pos {u : UnitSystem} (hu : u ≠ .null) : 0 < naturalConstant u := by
  cases u with
  | null => exact absurd rfl hu
  | imperial => norm_num [naturalConstant]
  | metric => norm_num [naturalConstant]

theorem radiationConstant_pos {u : UnitSystem} (hu : u ≠ .null) : 0 < radiationConstant u := by
  cases u with
  | null => exact absurd rfl hu
  | imperial => norm_num [radiationConstant]
  | metric => norm_num [radiationConstant]

theorem natural_eq {k : Cable} {w : ThermalWeather} {d t : ℝ} (u : UnitSystem) (hd : 0 < d) (hk : 0 < k.diameter)
    (ht : w.temperatureAir ≤ t) :
    natural k u w d t = some (naturalConstant u * d ^ (0.5 : ℝ) * k.diameter ^ (0.75 : ℝ) *
      (t - w.temperatureAir) ^ (1.25 : ℝ)) := by
  unfold natural powFraction
  rw [if_neg (by linarith), if_neg (by linarith), if_neg (by linarith)]
  rfl

theorem natural_none {k : Cable} {w : ThermalWeather} (d : ℝ) {t : ℝ} (u : UnitSystem) (ht : t < w.temperatureAir) :
    natural k u w d t = none := by
  unfold natural
  have : powFraction (t - w.temperatureAir) 1.25 = none := by
    unfold powFraction; rw [if_pos (by linarith)]
  rw [this]
  cases powFraction d 0.5 with
  | none => rfl
  | some a => cases powFraction k.diameter 0.75 with
    | none => rfl
    | some b => rfl

/-- Convection is at least the natural convection. -/
theorem larger_le {n : ℝ} (f : Option ℝ) : ∃ c, larger (some n) f = some c ∧ c ≤ -n := by
  cases f with
  | none => exact ⟨_, rfl, by linarith⟩
  | some f =>
    by_cases h : n < f
    all_goals simp only [larger, h, if_true, if_false]
    · exact ⟨_, rfl, by linarith⟩
    · exact ⟨_, rfl, by linarith⟩

theorem convection_none {k : Cable} {u : UnitSystem} {w : ThermalWeather} {t : ℝ} (hu : u ≠ .null)
    (ht : t < w.temperatureAir) : convection k u w t = none := by
  unfold convection
  rw [if_neg hu]
  cases density u w.elevation (film w t) with
  | none => rfl
  | some d => simp only [natural_none d u ht]; rfl

theorem convection_hot {k : Cable} {u : UnitSystem} {w : ThermalWeather} {t : ℝ} (hu : u ≠ .null)
    (hk : 0 < k.diameter) (hw : -100 ≤ w.temperatureAir) (ht : w.temperatureAir < t) :
    ∃ c, convection k u w t = some c ∧ c < 0 := by
  obtain ⟨d, hd, hde⟩ := density_pos hu w.elevation (f := film w t) (by unfold film; linarith)
  unfold convection
  rw [if_neg hu, hde]
  simp only [natural_eq u hd hk ht.le]
  obtain ⟨c, hc, hc'⟩ := larger_le (n := naturalConstant u * d ^ (0.5 : ℝ) * k.diameter ^ (0.75 : ℝ) *
      (t - w.temperatureAir) ^ (1.25 : ℝ)) ((viscosity u (film w t)).bind fun v =>
        forced k w (conductivity u (film w t)) d v t)
  refine ⟨c, hc, lt_of_le_of_lt hc' ?_⟩
  have h1 := naturalConstant_pos hu
  have h2 : 0 < t - w.temperatureAir := by linarith
  have : 0 < naturalConstant u * d ^ (0.5 : ℝ) * k.diameter ^ (0.75 : ℝ) * (t - w.temperatureAir) ^ (1.25 : ℝ) := by
    positivity
  linarith

theorem forced_air {k : Cable} {w : ThermalWeather} (c d v : ℝ) :
    forced k w c d v w.temperatureAir = none ∨ forced k w c d v w.temperatureAir = some 0 := by
  unfold forced
  cases divFinite (k.diameter * d * w.speedWind) v with
  | none => left; rfl
  | some r =>
    simp only [Option.bind_some]
    cases powFraction r 0.52 with
    | none => left; rfl
    | some p1 =>
      simp only [Option.bind_some]
      cases powFraction r 0.6 with
      | none => left; rfl
      | some p2 => right; simp

theorem convection_air {k : Cable} {u : UnitSystem} {w : ThermalWeather} (hu : u ≠ .null)
    (hk : 0 < k.diameter) (hw : -100 ≤ w.temperatureAir) : convection k u w w.temperatureAir = some 0 := by
  obtain ⟨d, hd, hde⟩ := density_pos hu w.elevation (f := film w w.temperatureAir) (by unfold film; linarith)
  unfold convection
  rw [if_neg hu, hde]
  simp only [natural_eq u hd hk le_rfl, sub_self]
  rw [Real.zero_rpow (by norm_num), mul_zero]
  have hf : ∀ o : Option ℝ, ((o.bind fun v => forced k w (conductivity u (film w w.temperatureAir)) d v
      w.temperatureAir) = none ∨ (o.bind fun v => forced k w (conductivity u (film w w.temperatureAir)) d v
      w.temperatureAir) = some 0) := by
    intro o
    cases o with
    | none => left; rfl
    | some v => exact forced_air _ _ _
  rcases hf (viscosity u (film w w.temperatureAir)) with h | h <;> rw [h] <;> simp [larger]

theorem radiation_air (k : Cable) (u : UnitSystem) (w : ThermalWeather) : radiation k u w w.temperatureAir = 0 := by
  simp [radiation]

theorem radiation_lt {k : Cable} {u : UnitSystem} (w : ThermalWeather) {s t : ℝ} (hu : u ≠ .null)
    (hk : 0 < k.diameter) (he : 0 < k.emissivity) (hs : -273 ≤ s) (hst : s < t) :
    radiation k u w t < radiation k u w s := by
  have h1 := radiationConstant_pos hu
  have h2 : ((s + 273) / 100) ^ 4 < ((t + 273) / 100) ^ 4 :=
    pow_lt_pow_left₀ (by linarith) (by linarith) (by norm_num)
  have h3 : 0 < radiationConstant u * k.diameter * k.emissivity := by positivity
  simp only [radiation]
  nlinarith

theorem radiation_nonpos {k : Cable} {u : UnitSystem} {w : ThermalWeather} {t : ℝ} (hu : u ≠ .null)
    (hk : 0 < k.diameter) (he : 0 ≤ k.emissivity) (hw : -273 ≤ w.temperatureAir) (ht : w.temperatureAir ≤ t) :
    radiation k u w t ≤ 0 := by
  have h1 := radiationConstant_pos hu
  have h2 : ((w.temperatureAir + 273) / 100) ^ 4 ≤ ((t + 273) / 100) ^ 4 :=
    pow_le_pow_left₀ (by linarith) (by linarith) 4
  have h3 : 0 ≤ radiationConstant u * k.diameter * k.emissivity := by positivity
  simp only [radiation]
  nlinarith

theorem currentOf_spec {h r i : ℝ} (hi : currentOf h r = some i) :
    i ^ 2 * r = |h| ∧ (h < 0 → i < 0) ∧ (0 ≤ h → 0 ≤ i) ∧ r ≠ 0 := by
  unfold currentOf at hi
  split_ifs at hi with h1 h2
  rename_i h3
  · obtain rfl := Option.some.inj hi
    have h4 := not_lt.1 h2
    refine ⟨?_, fun _ => ?_, fun hh => absurd h3 (not_lt.2 hh), h1⟩
    · rw [mul_pow, Real.sq_sqrt h4]; field_simp
    · have : 0 < |h| / r := lt_of_le_of_ne h4 (Ne.symm (div_ne_zero (abs_ne_zero.2 h3.ne) h1))
      have := Real.sqrt_pos.2 this
      linarith
  · obtain rfl := Option.some.inj hi
    have h4 := not_lt.1 h2
    rename_i h3
    refine ⟨?_, fun hh => absurd hh h3, fun hh => Real.sqrt_nonneg _, h1⟩
    rw [Real.sq_sqrt h4]; field_simp

theorem currentOf_pos {r : ℝ} (h : ℝ) (hr : 0 < r) : ∃ i, currentOf h r = some i := by
  unfold currentOf
  rw [if_neg hr.ne', if_neg (not_lt.2 (by positivity))]
  exact ⟨_, rfl⟩

theorem currentAt_eq (c : CablePointer) (u : UnitSystem) (w : ThermalWeather) (t : Option ℝ) :
    currentAt c u w t =
      if heatValid c u (some w) then
        match c with
        | some (some k) => steadyCurrent k u w t
        | _ => some (-999999)
      else some (-999999) := by
  unfold currentAt CurrentSolver.askCurrent CurrentSolver.refresh CurrentSolver.update CurrentSolver.setWeather
    CurrentSolver.setUnits CurrentSolver.setCable
  simp only [Bool.false_eq_true, if_false]
  by_cases h : heatValid c u (some w) = true
  · simp only [h, if_true]
    match c with
    | none => simp
    | some none => simp
    | some (some k) => simp
  · simp [h]

theorem stateAt_eq {k : Cable} {u : UnitSystem} {w : ThermalWeather} (t : Option ℝ)
    (h : heatValid (some (some k)) u (some w) = true) :
    stateAt (some (some k)) u w t = steadyState k u w t := by
  unfold stateAt CurrentSolver.askState CurrentSolver.refresh CurrentSolver.update CurrentSolver.setWeather
    CurrentSolver.setUnits CurrentSolver.setCable
  simp [h]

end Heat

namespace TemperatureSearch

/-- A pass that leaves the points alone makes all further passes do so. -/
theorem loop_stuck {f : Option ℝ → Option ℝ} {target : ℝ} {lx rx : ℝ} {ly ry : Option ℝ}
    (hw : 0.1 < |lx - rx|)
    (h : ∀ c n, replace target ⟨lx, ly, rx, ry, c, n⟩ (nextX target ⟨lx, ly, rx, ry, c, n⟩)
      (f (nextX target ⟨lx, ly, rx, ry, c, n⟩)) = ⟨lx, ly, rx, ry, c, n⟩) :
    ∀ n c m, (loop f target n ⟨lx, ly, rx, ry, c, m⟩).iter = m + n
  | 0, c, m => rfl
  | n + 1, c, m => by
    rw [loop, if_pos hw]
    have : step f target ⟨lx, ly, rx, ry, c, m⟩ =
        ⟨lx, ly, rx, ry, nextX target ⟨lx, ly, rx, ry, c, m⟩, m + 1⟩ := by
      unfold step
      simp only [h]
    rw [this, loop_stuck hw h n _ (m + 1)]
    omega

/-- A next temperature at one of the two points leaves the points alone. -/
theorem replace_end {target : ℝ} (s : TemperatureSearch) {x : Option ℝ} (y : Option ℝ)
    (h : x = none ∨ x = some s.leftX ∨ x = some s.rightX) (hlr : s.leftX < s.rightX) :
    replace target s x y = s := by
  rcases h with h | h | h
  · rw [h]; rfl
  · rw [h]; simp [replace, not_lt.2 hlr.le]
  · rw [h]; simp [replace, not_lt.2 hlr.le]

end TemperatureSearch

end Verif
