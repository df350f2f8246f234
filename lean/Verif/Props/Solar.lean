import Verif.SolarLemmas

/-!
# Solar radiation (C72, C96–C98)
-/

set_option linter.unusedSectionVars false

namespace Verif.Props

open Verif Verif.Units

/-! ## Histories -/

/-- Solvers reached from a new one by any history of calls. -/
def SunReachable (s : SolarSolver) : Prop := ∃ cs : List SolarSolver.Call, s = cs.foldl SolarSolver.Call.next .new

/-- The values that a user has set. -/
structure SunSettings where
  azimuthCable : ℝ
  day : Int
  elevation : ℝ
  hour : Int
  latitude : ℝ
  quality : Atmosphere
  units : UnitSystem

/-- The settings of a solver, as its accessors report them. -/
def sunSettings (s : SolarSolver) : SunSettings :=
  ⟨s.azimuthCable, s.day, s.elevation, s.hour, s.latitude, s.quality, s.units⟩

/-- The effect of a call on the settings. -/
def sunSet (s : SunSettings) : SolarSolver.Call → SunSettings
  | .setAzimuthCable x => { s with azimuthCable := x }
  | .setDay x => { s with day := x }
  | .setElevation x => { s with elevation := x }
  | .setHour x => { s with hour := x }
  | .setLatitude x => { s with latitude := x }
  | .setQuality q => { s with quality := q }
  | .setUnits u => { s with units := u }
  | _ => s

/-- A new solver with some settings. -/
noncomputable def sunFresh (s : SunSettings) : SolarSolver :=
  ((((((SolarSolver.new.setAzimuthCable s.azimuthCable).setDay s.day).setElevation s.elevation).setHour
    s.hour).setLatitude s.latitude).setQuality s.quality).setUnits s.units

/-- A solver without stored results answers like a new one. -/
theorem sun_update_fresh {s : SolarSolver} (h : s.isUpdated = false) :
    s.update.2 = (sunFresh (sunSettings s)).update.2 ∧
    (s.update.2 = true → s.update.1 = (sunFresh (sunSettings s)).update.1) ∧
    (s.update.2 = false → s.update.1 = s) := by
  obtain ⟨a, d, e, hr, l, q, u, x, y, z, b⟩ := s
  subst h
  simp only [sunFresh, sunSettings, SolarSolver.setAzimuthCable, SolarSolver.setDay, SolarSolver.setElevation,
    SolarSolver.setHour, SolarSolver.setLatitude, SolarSolver.setQuality, SolarSolver.setUnits, SolarSolver.new,
    SolarSolver.update, if_true]
  cases Sun.atmosphere u q <;> simp

/-- Stored results are those of a new solver. -/
def SunGood (s : SolarSolver) : Prop := s.isUpdated = true → s = (sunFresh (sunSettings s)).update.1 ∧
  (sunFresh (sunSettings s)).update.2 = true

theorem sunFresh_settings (s : SunSettings) : sunSettings (sunFresh s) = s := rfl

theorem sunFresh_flag (s : SunSettings) : (sunFresh s).isUpdated = false := rfl

theorem sun_update_settings (s : SolarSolver) : sunSettings s.update.1 = sunSettings s := by
  unfold SolarSolver.update
  split
  · cases Sun.atmosphere s.units s.quality <;> rfl
  · rfl

theorem sun_update_flag (s : SolarSolver) : s.update.1.isUpdated = s.update.2 := by
  unfold SolarSolver.update
  split
  · cases Sun.atmosphere s.units s.quality <;> rfl
  · rename_i h; simpa using h

theorem sun_update_good {s : SolarSolver} (h : SunGood s) : SunGood s.update.1 := by
  intro hf
  rw [sun_update_settings]
  rw [sun_update_flag] at hf
  cases hb : s.isUpdated
  · obtain ⟨h1, h2, _⟩ := sun_update_fresh hb
    exact ⟨h2 hf, h1 ▸ hf⟩
  · have : s.update.1 = s := by unfold SolarSolver.update; simp [hb]
    rw [this]; exact h hb

theorem sun_next_good {s : SolarSolver} (h : SunGood s) (c : SolarSolver.Call) :
    SunGood (c.next s) ∧ sunSettings (c.next s) = sunSet (sunSettings s) c := by
  have hask : ∀ f, SunGood (SolarSolver.ask f s).1 ∧ sunSettings (SolarSolver.ask f s).1 = sunSettings s := by
    intro f
    unfold SolarSolver.ask
    split <;> exact ⟨sun_update_good h, sun_update_settings s⟩
  cases c
  case altitude => exact hask _
  case azimuth => exact hask _
  case radiation => exact hask _
  case validate =>
    change SunGood s.validate.1 ∧ sunSettings s.validate.1 = sunSettings s
    unfold SolarSolver.validate
    split
    · exact ⟨sun_update_good h, sun_update_settings s⟩
    · exact ⟨h, rfl⟩
  all_goals exact ⟨fun hf => (by cases hf), rfl⟩

theorem sun_run_good (cs : List SolarSolver.Call) {s : SolarSolver} (h : SunGood s) :
    SunGood (cs.foldl SolarSolver.Call.next s) ∧
      sunSettings (cs.foldl SolarSolver.Call.next s) = cs.foldl sunSet (sunSettings s) := by
  induction cs generalizing s with
  | nil => exact ⟨h, rfl⟩
  | cons c cs ih =>
    simp only [List.foldl_cons]
    rw [← (sun_next_good h c).2]
    exact ih (sun_next_good h c).1

theorem sun_reachable_good {s : SolarSolver} (h : SunReachable s) : SunGood s := by
  obtain ⟨cs, rfl⟩ := h
  exact (sun_run_good cs (fun hf => by cases hf)).1

/-- The answer of a good solver is that of a new one with the same settings. -/
theorem sun_ask {s : SolarSolver} (h : SunGood s) (f : SolarSolver → Option ℝ) :
    (SolarSolver.ask f s).2 = (SolarSolver.ask f (sunFresh (sunSettings s))).2 := by
  unfold SolarSolver.ask
  cases hb : s.isUpdated
  · obtain ⟨h1, h2, _⟩ := sun_update_fresh hb
    cases hu : s.update.2
    · rw [if_pos ⟨rfl, rfl⟩, if_pos ⟨rfl, h1 ▸ hu⟩]
    · rw [if_neg (by simp), if_neg (by rw [← h1, hu]; simp), h2 hu]
  · obtain ⟨h1, h2⟩ := h hb
    have : s.update.1 = s := by unfold SolarSolver.update; simp [hb]
    rw [if_neg (by simp), if_neg (by rw [h2]; simp), this, ← h1]

/-- **C98**: the answers of a solver depend only on the values last set, not on the order of the setters nor on
queries and validations in between: they are those of a new solver with the settings that the setter calls leave. -/
theorem C98_history (cs : List SolarSolver.Call) :
    let s := cs.foldl SolarSolver.Call.next .new
    let t := sunFresh (cs.foldl sunSet (sunSettings .new))
    s.askAltitude.2 = t.askAltitude.2 ∧ s.askAzimuth.2 = t.askAzimuth.2 ∧ s.askRadiation.2 = t.askRadiation.2 ∧
    s.validate.2 = t.validate.2 := by
  intro s t
  obtain ⟨hg, hs⟩ := sun_run_good cs (s := .new) (fun hf => by cases hf)
  have ht : t = sunFresh (sunSettings s) := by rw [hs]
  rw [ht]
  refine ⟨sun_ask hg _, sun_ask hg _, sun_ask hg _, ?_⟩
  have hv : SolarSolver.InputsValid (sunFresh (sunSettings s)) ↔ s.InputsValid := Iff.rfl
  unfold SolarSolver.validate
  by_cases h : s.InputsValid
  · rw [if_pos h, if_pos (hv.2 h)]
    cases hb : s.isUpdated
    · exact (sun_update_fresh hb).1
    · rw [(hg hb).2]; unfold SolarSolver.update; simp [hb]
  · rw [if_neg h, if_neg (fun h' => h (hv.1 h'))]

example : ∃ cs : List SolarSolver.Call, cs.length = 3 ∧
    (cs.foldl SolarSolver.Call.next SolarSolver.new).askAltitude.2 =
      (sunFresh (cs.foldl sunSet (sunSettings .new))).askAltitude.2 :=
  ⟨[.altitude, .setLatitude 1, .validate], rfl, (C98_history _).1⟩

/-! ## Answers in terms of the settings -/

/-- The results for a unit system and a kind of atmosphere. -/
theorem sun_answers {s : SolarSolver} (hs : SunReachable s) (hu : s.units ≠ .null) (hq : s.quality ≠ .null) :
    ∃ cs, Sun.atmosphere s.units s.quality = some cs ∧
      s.askAltitude.2 = Sun.altitude s.latitude (Sun.declination s.day) (Sun.angleHour s.hour) ∧
      s.askAzimuth.2 = Sun.azimuth s.latitude (Sun.declination s.day) (Sun.angleHour s.hour) ∧
      s.askRadiation.2 = s.askAltitude.2.bind fun a => s.askAzimuth.2.bind fun z =>
        Sun.radiation cs s.units s.elevation a z s.azimuthCable := by
  obtain ⟨cs, hcs⟩ : ∃ cs, Sun.atmosphere s.units s.quality = some cs := by
    cases h1 : s.units <;> cases h2 : s.quality <;> simp_all [Sun.atmosphere]
  have hg := sun_reachable_good hs
  have h : (sunFresh (sunSettings s)).update =
      ({ sunFresh (sunSettings s) with
          azimuthSun := Sun.azimuth s.latitude (Sun.declination s.day) (Sun.angleHour s.hour)
          altitudeSun := Sun.altitude s.latitude (Sun.declination s.day) (Sun.angleHour s.hour)
          radiation := (Sun.altitude s.latitude (Sun.declination s.day) (Sun.angleHour s.hour)).bind fun a =>
            (Sun.azimuth s.latitude (Sun.declination s.day) (Sun.angleHour s.hour)).bind fun z =>
              Sun.radiation cs s.units s.elevation a z s.azimuthCable
          isUpdated := true }, true) := by
    unfold SolarSolver.update
    rw [if_pos (sunFresh_flag _)]
    change (match Sun.atmosphere s.units s.quality with | none => _ | some cs => _) = _
    rw [hcs]
    rfl
  have hask : ∀ f, (SolarSolver.ask f s).2 = f (sunFresh (sunSettings s)).update.1 := by
    intro f
    rw [sun_ask hg]
    unfold SolarSolver.ask
    rw [if_neg (by rw [h]; simp)]
  refine ⟨cs, hcs, ?_, ?_, ?_⟩
  · exact (hask _).trans (by rw [h])
  · exact (hask _).trans (by rw [h])
  · have h1 : s.askAltitude.2 = Sun.altitude s.latitude (Sun.declination s.day) (Sun.angleHour s.hour) :=
      (hask _).trans (by rw [h])
    have h2 : s.askAzimuth.2 = Sun.azimuth s.latitude (Sun.declination s.day) (Sun.angleHour s.hour) :=
      (hask _).trans (by rw [h])
    rw [h1, h2]
    exact (hask _).trans (by rw [h])

/-- The altitude is an angle whose sine is the height of the sun. -/
theorem altitude_some (l d h : ℝ) : ∃ a, Sun.altitude l d h = some a ∧
    |toRadians a| ≤ Real.pi / 2 ∧
    Real.sin (toRadians a) = Real.cos (toRadians l) * Real.cos (toRadians d) * Real.cos (toRadians h) +
      Real.sin (toRadians l) * Real.sin (toRadians d) := by
  have hb := abs_le.1 (Sun.up_abs_le (toRadians l) (toRadians d) (toRadians h))
  refine ⟨_, by simp only [Sun.altitude, Sun.asin, if_pos hb]; rfl, ?_, ?_⟩
  · rw [toRadians_toDegrees, abs_le]
    exact ⟨Real.neg_pi_div_two_le_arcsin _, Real.arcsin_le_pi_div_two _⟩
  · rw [toRadians_toDegrees, Real.sin_arcsin hb.1 hb.2]

/-! ## The hour angle -/

theorem toRadians_zero : toRadians 0 = 0 := by rw [toRadians_eq]; ring

/-- Before noon the sine of the hour angle is negative, at noon zero, after noon positive. -/
theorem sin_hour {hour : Int} (h0 : 0 ≤ hour) (h24 : hour < 24) :
    (hour < 12 → Real.sin (toRadians (Sun.angleHour hour)) < 0) ∧
    (hour = 12 → Real.sin (toRadians (Sun.angleHour hour)) = 0) ∧
    (12 < hour → 0 < Real.sin (toRadians (Sun.angleHour hour))) := by
  have hk := kPi_pos
  have hkp := kPi_lt_pi
  have e : toRadians (Sun.angleHour hour) = ((hour : ℝ) - 12) * (kPi / 12) := by
    rw [toRadians_eq, Sun.angleHour]; push_cast; ring
  rw [e]
  have hr0 : (0 : ℝ) ≤ hour := by exact_mod_cast h0
  have hr24 : (hour : ℝ) < 24 := by exact_mod_cast h24
  refine ⟨fun h => ?_, fun h => ?_, fun h => ?_⟩
  · have : (hour : ℝ) < 12 := by exact_mod_cast h
    apply Real.sin_neg_of_neg_of_neg_pi_lt <;> nlinarith
  · subst h; norm_num
  · have : (12 : ℝ) < hour := by exact_mod_cast h
    apply Real.sin_pos_of_pos_of_lt_pi <;> nlinarith

theorem angleHour_neg_iff (hour : Int) : Sun.angleHour hour < 0 ↔ hour < 12 := by unfold Sun.angleHour; omega

/-- The denominator of the azimuth at noon. -/
theorem noon_denominator (l : ℝ) (day : Int) :
    (Real.sin (toRadians l) * Real.cos (toRadians (Sun.angleHour 12)) -
      Real.cos (toRadians l) * Real.tan (toRadians (Sun.declination day))) *
        Real.cos (toRadians (Sun.declination day)) =
      Real.sin (toRadians (l - Sun.declination day)) := by
  have hc := (Sun.cos_declination_pos day).ne'
  have : toRadians (Sun.angleHour 12) = 0 := by rw [toRadians_eq, Sun.angleHour]; norm_num
  rw [this, Real.cos_zero, toRadians_sub, Real.sin_sub, Real.tan_eq_sin_div_cos]
  field_simp

theorem noon_difference {l : ℝ} (day : Int) (h1 : -90 ≤ l) (h2 : l ≤ 90) :
    |toRadians (l - Sun.declination day)| < Real.pi := by
  have hd := abs_le.1 (Sun.declination_abs day)
  have : |l - Sun.declination day| ≤ 114 := by
    rw [abs_le]; constructor <;> norm_num at hd ⊢ <;> linarith [hd.1, hd.2]
  refine lt_of_le_of_lt (Sun.toRadians_abs_le this) ?_
  have := kPi_lt_pi
  have := kPi_pos
  rw [toRadians_eq]
  linarith

theorem noon_sign {l : ℝ} (day : Int) (h1 : -90 ≤ l) (h2 : l ≤ 90) :
    (0 < Real.sin (toRadians l) * Real.cos (toRadians (Sun.angleHour 12)) -
      Real.cos (toRadians l) * Real.tan (toRadians (Sun.declination day)) ↔ Sun.declination day < l) ∧
    (Real.sin (toRadians l) * Real.cos (toRadians (Sun.angleHour 12)) -
      Real.cos (toRadians l) * Real.tan (toRadians (Sun.declination day)) = 0 ↔ l = Sun.declination day) := by
  have hc := Sun.cos_declination_pos day
  have hd := noon_denominator l day
  set D := Real.sin (toRadians l) * Real.cos (toRadians (Sun.angleHour 12)) -
      Real.cos (toRadians l) * Real.tan (toRadians (Sun.declination day)) with hD
  have hn := abs_lt.1 (noon_difference day h1 h2)
  have hk := kPi_pos
  have er := toRadians_eq (l - Sun.declination day)
  rcases lt_trichotomy l (Sun.declination day) with h | h | h
  · have hneg : toRadians (l - Sun.declination day) < 0 := by rw [er]; nlinarith [div_pos hk (by norm_num : (0:ℝ) < 180)]
    have hs := Real.sin_neg_of_neg_of_neg_pi_lt hneg hn.1
    rw [← hd] at hs
    have : D < 0 := by by_contra hh; nlinarith [mul_nonneg (not_lt.1 hh) hc.le]
    exact ⟨⟨fun h' => absurd h' (not_lt.2 this.le), fun h' => absurd h' (not_lt.2 h.le)⟩,
      ⟨fun h' => absurd h' this.ne, fun h' => absurd h' h.ne⟩⟩
  · have hz : toRadians (l - Sun.declination day) = 0 := by rw [er, h]; ring
    rw [hz, Real.sin_zero] at hd
    have : D = 0 := (mul_eq_zero.1 hd).resolve_right hc.ne'
    exact ⟨⟨fun h' => absurd this h'.ne', fun h' => absurd h h'.ne'⟩, ⟨fun _ => h, fun _ => this⟩⟩
  · have hpos : 0 < toRadians (l - Sun.declination day) := by rw [er]; nlinarith [div_pos hk (by norm_num : (0:ℝ) < 180)]
    have hs := Real.sin_pos_of_pos_of_lt_pi hpos hn.2
    rw [← hd] at hs
    have : 0 < D := by by_contra hh; nlinarith [mul_nonneg (sub_nonneg.2 (not_lt.1 hh)) hc.le]
    exact ⟨⟨fun _ => h, fun _ => this⟩, ⟨fun h' => absurd h' this.ne', fun h' => absurd h' h.ne'⟩⟩

/-- Before noon, after noon, or at noon with the sun in the south. -/
theorem sun_side {s : SolarSolver} (hv : s.InputsValid)
    (hn : s.hour = 12 → Sun.declination s.day < s.latitude) :
    let n := Real.sin (toRadians (Sun.angleHour s.hour))
    let d := Real.sin (toRadians s.latitude) * Real.cos (toRadians (Sun.angleHour s.hour)) -
      Real.cos (toRadians s.latitude) * Real.tan (toRadians (Sun.declination s.day))
    (decide (Sun.angleHour s.hour < 0) = true ∧ n < 0) ∨
      (decide (Sun.angleHour s.hour < 0) = false ∧ (0 < n ∨ (n = 0 ∧ 0 < d))) := by
  intro n d
  obtain ⟨_, _, _, h24, hl, _, _⟩ := hv
  have h0 : 0 ≤ s.hour := by omega
  have h1 : s.hour < 24 := by omega
  have hs := sin_hour h0 h1
  rw [decide_eq_true_iff, decide_eq_false_iff_not, angleHour_neg_iff]
  rcases lt_trichotomy s.hour 12 with h | h | h
  · exact Or.inl ⟨h, hs.1 h⟩
  · refine Or.inr ⟨by omega, Or.inr ⟨hs.2.1 h, ?_⟩⟩
    have hl1 : -90 ≤ s.latitude := not_lt.1 fun h => hl (Or.inl h)
    have hl2 : s.latitude ≤ 90 := not_lt.1 fun h => hl (Or.inr h)
    have := ((noon_sign s.day hl1 hl2).1).2 (hn h)
    simpa only [d, h] using this
  · exact Or.inr ⟨by omega, Or.inl (hs.2.2 h)⟩

/-! ## C72 -/

/-- **C72** (partial: the sun must not stand exactly overhead at noon, see `C72_overhead`): on valid inputs the
altitude, azimuth and radiation are numbers, the altitude is between the horizon and the zenith in absolute value, and
the azimuth is between 0 and 360, at most 180 before noon and at least 180 from noon on. -/
theorem C72_position_partial {s : SolarSolver} (hs : SunReachable s) (hv : s.InputsValid)
    (hn : s.hour = 12 → s.latitude ≠ Sun.declination s.day) :
    ∃ alt az r, s.askAltitude.2 = some alt ∧ s.askAzimuth.2 = some az ∧ s.askRadiation.2 = some r ∧
      |toRadians alt| ≤ Real.pi / 2 ∧ 0 ≤ az ∧ az ≤ 360 ∧ (s.hour < 12 → az ≤ 180) ∧ (12 ≤ s.hour → 180 ≤ az) := by
  obtain ⟨cs, _, h1, h2, h3⟩ := sun_answers hs hv.2.2.2.2.2.2 hv.2.2.2.2.2.1
  obtain ⟨alt, ha, hab, _⟩ := altitude_some s.latitude (Sun.declination s.day) (Sun.angleHour s.hour)
  obtain ⟨_, _, _, h24, hl, _, _⟩ := hv
  have hl1 : -90 ≤ s.latitude := not_lt.1 fun h => hl (Or.inl h)
  have hl2 : s.latitude ≤ 90 := not_lt.1 fun h => hl (Or.inr h)
  have hh := sin_hour (hour := s.hour) (by omega) (by omega)
  have hne : ¬ (Real.sin (toRadians (Sun.angleHour s.hour)) = 0 ∧
      Real.sin (toRadians s.latitude) * Real.cos (toRadians (Sun.angleHour s.hour)) -
        Real.cos (toRadians s.latitude) * Real.tan (toRadians (Sun.declination s.day)) = 0) := by
    rintro ⟨hz, hd⟩
    rcases lt_trichotomy s.hour 12 with h | h | h
    · exact absurd hz (hh.1 h).ne
    · rw [h] at hd
      exact hn h (((noon_sign s.day hl1 hl2).2).1 hd)
    · exact absurd hz (hh.2.2 h).ne'
  obtain ⟨c, hc⟩ := Sun.chi_some hne
  obtain ⟨hr1, hr2⟩ := Sun.chi_range hc
  have haz : s.askAzimuth.2 = some ((if Sun.angleHour s.hour < 0 then (if c.1 = true then 180 else 0)
      else (if c.1 = true then 360 else 180)) + toDegrees c.2) := by
    rw [h2]; simp only [Sun.azimuth, hc, Option.map_some]
  rw [h1, ha, haz] at h3
  have hi : ∃ r, Sun.radiation cs s.units s.elevation alt ((if Sun.angleHour s.hour < 0 then
      (if c.1 = true then 180 else 0) else (if c.1 = true then 360 else 180)) + toDegrees c.2) s.azimuthCable
      = some r := by
    have : ∀ x y : ℝ, -1 ≤ Real.cos x * Real.cos y ∧ Real.cos x * Real.cos y ≤ 1 := by
      intro x y
      rw [← abs_le, abs_mul]
      exact mul_le_one₀ (Real.abs_cos_le_one x) (abs_nonneg _) (Real.abs_cos_le_one y)
    simp only [Sun.radiation, Sun.incidence, Sun.acos, if_pos (this _ _)]
    exact ⟨_, rfl⟩
  obtain ⟨r, hr⟩ := hi
  refine ⟨alt, _, r, h1.trans ha, haz, h3.trans hr, hab, ?_⟩
  simp only [angleHour_neg_iff]
  cases hb : c.1
  · have hc2 := hr2 hb
    have g1 := toDegrees_nonneg hc2.1
    have g2 := Sun.toDegrees_le hc2.2
    by_cases h12 : s.hour < 12
    · simp only [h12, if_true, Bool.false_eq_true, if_false]
      exact ⟨by linarith, by linarith, fun _ => by linarith, fun h => by omega⟩
    · simp only [h12, if_false, Bool.false_eq_true]
      exact ⟨by linarith, by linarith, fun h => absurd h (by simp), fun _ => by linarith⟩
  · have hc2 := hr1 hb
    have g1 := Sun.toDegrees_ge hc2.1
    have g2 : toDegrees c.2 < 0 := by
      have := toDegrees_pos (r := -c.2) (by linarith [hc2.2])
      rw [Sun.toDegrees_neg] at this; linarith
    by_cases h12 : s.hour < 12
    · simp only [h12, if_true]
      exact ⟨by linarith, by linarith, fun _ => by linarith, fun h => by omega⟩
    · simp only [h12, if_false, if_true]
      exact ⟨by linarith, by linarith, fun h => absurd h (by simp), fun _ => by linarith⟩

/-- **C72** fails when the sun stands exactly overhead at noon: the inputs are valid and `Validate` accepts them, but the
azimuth is the quotient 0/0, and the radiation is not a number either. -/
theorem C72_overhead {s : SolarSolver} (hs : SunReachable s) (hv : s.InputsValid) (hn : s.hour = 12)
    (hl : s.latitude = Sun.declination s.day) :
    s.validate.2 = true ∧ s.askAzimuth.2 = none ∧ s.askRadiation.2 = none := by
  obtain ⟨cs, hcs, h1, h2, h3⟩ := sun_answers hs hv.2.2.2.2.2.2 hv.2.2.2.2.2.1
  obtain ⟨alt, ha, _, _⟩ := altitude_some s.latitude (Sun.declination s.day) (Sun.angleHour s.hour)
  have hlat := hv.2.2.2.2.1
  have hl1 : -90 ≤ s.latitude := not_lt.1 fun h => hlat (Or.inl h)
  have hl2 : s.latitude ≤ 90 := not_lt.1 fun h => hlat (Or.inr h)
  have hz := ((noon_sign s.day hl1 hl2).2).2 hl
  have hs0 := (sin_hour (hour := s.hour) (by omega) (by omega)).2.1 hn
  have haz : s.askAzimuth.2 = none := by
    rw [h2]
    rw [← hn] at hz
    simp only [Sun.azimuth, hz, Sun.chi_zero hs0, Option.map_none]
  refine ⟨?_, haz, ?_⟩
  · unfold SolarSolver.validate
    rw [if_pos hv]
    unfold SolarSolver.update
    split
    · rw [hcs]
    · rfl
  · rw [h3, haz, h1, ha]; rfl

/-- **C72**: the altitude of the sun is the same as many hours before as after noon, on every solver and for every
number of hours. -/
theorem C72_symmetric {s : SolarSolver} (hs : SunReachable s) (k : Int) :
    (s.setHour (12 - k)).askAltitude.2 = (s.setHour (12 + k)).askAltitude.2 := by
  have hr : ∀ h, SunReachable (s.setHour h) := by
    obtain ⟨cs, rfl⟩ := hs
    exact fun h => ⟨cs ++ [.setHour h], by rw [List.foldl_append]; rfl⟩
  by_cases hu : s.units ≠ .null ∧ s.quality ≠ .null
  · obtain ⟨_, _, h1, _, _⟩ := sun_answers (hr (12 - k)) hu.1 hu.2
    obtain ⟨_, _, h2, _, _⟩ := sun_answers (hr (12 + k)) hu.1 hu.2
    rw [h1, h2]
    change Sun.altitude s.latitude (Sun.declination s.day) (Sun.angleHour (12 - k) : ℝ) =
      Sun.altitude s.latitude (Sun.declination s.day) (Sun.angleHour (12 + k) : ℝ)
    have : toRadians (Sun.angleHour (12 - k) : ℝ) = -toRadians (Sun.angleHour (12 + k) : ℝ) := by
      simp only [toRadians_eq, Sun.angleHour]; push_cast; ring
    simp only [Sun.altitude, this, Real.cos_neg]
  · have hnone : Sun.atmosphere s.units s.quality = none := by
      cases h1 : s.units <;> cases h2 : s.quality <;> simp_all [Sun.atmosphere]
    have hup : ∀ h, (s.setHour h).update.2 = false := by
      intro h
      change (SolarSolver.update { s with hour := h, isUpdated := false }).2 = false
      unfold SolarSolver.update
      rw [if_pos rfl]
      simp only [hnone]
    have : ∀ h, (s.setHour h).askAltitude.2 = some (-999999) := by
      intro h
      unfold SolarSolver.askAltitude SolarSolver.ask
      rw [if_pos ⟨rfl, hup h⟩]
    rw [this, this]

/-- A solver with all values set. -/
noncomputable def exSun (hour : Int) (latitude : ℝ) : SolarSolver :=
  [SolarSolver.Call.setAzimuthCable 90, .setDay 161, .setElevation 0, .setHour hour, .setLatitude latitude,
    .setQuality .clear, .setUnits .metric].foldl SolarSolver.Call.next .new

theorem exSun_reachable (hour : Int) (l : ℝ) : SunReachable (exSun hour l) := ⟨_, rfl⟩

theorem exSun_eq (hour : Int) (l : ℝ) : exSun hour l =
    ⟨90, 161, 0, hour, l, .clear, .metric, some (-999999), some (-999999), some (-999999), false⟩ := rfl

theorem exSun_valid {hour : Int} {l : ℝ} (h0 : 0 ≤ hour) (h1 : hour < 24) (h2 : |l| ≤ 90) :
    (exSun hour l).InputsValid := by
  have := abs_le.1 h2
  rw [exSun_eq]
  refine ⟨by norm_num, by norm_num, by norm_num, by simp only; omega, ?_, by simp, by simp⟩
  rintro (h | h) <;> simp only at h <;> linarith

example : SunReachable (exSun 9 30) ∧ (exSun 9 30).InputsValid ∧
    ((exSun 9 30).hour = 12 → (exSun 9 30).latitude ≠ Sun.declination (exSun 9 30).day) :=
  ⟨exSun_reachable _ _, exSun_valid (by norm_num) (by norm_num) (by norm_num), fun h => by cases h⟩

example : SunReachable (exSun 12 (Sun.declination 161)) ∧ (exSun 12 (Sun.declination 161)).InputsValid ∧
    (exSun 12 (Sun.declination 161)).hour = 12 ∧
    (exSun 12 (Sun.declination 161)).latitude = Sun.declination (exSun 12 (Sun.declination 161)).day :=
  ⟨exSun_reachable _ _,
    exSun_valid (by norm_num) (by norm_num) (le_trans (Sun.declination_abs _) (by norm_num)), rfl, rfl⟩

/-! ## C97: the direction of the sun -/

/-- The direction to the sun (east, north, up) at a latitude, for a declination and an hour angle (all in degrees, the
hour angle negative before noon). -/
noncomputable def sunDirection (latitude declination hourAngle : ℝ) : V3 :=
  let φ := toRadians latitude
  let δ := toRadians declination
  let h := toRadians hourAngle
  ⟨-(Real.cos δ * Real.sin h), Real.cos φ * Real.sin δ - Real.sin φ * Real.cos δ * Real.cos h,
    Real.cos φ * Real.cos δ * Real.cos h + Real.sin φ * Real.sin δ⟩

/-- The declination of the sun on a day of the year, in degrees. -/
noncomputable def sunDeclination (day : Int) : ℝ :=
  23.46 * Real.sin (toRadians (((284 + day : Int) : ℝ) / 365 * 360))

/-- **C97** (partial: at noon the sun must be south of the zenith, see `C97_noon_north`): altitude and azimuth are the
spherical coordinates of the direction to the sun; the azimuth is within `1e-14` radians of an angle `θ`, clockwise from
north, for which this holds exactly. -/
theorem C97_direction_partial {s : SolarSolver} (hs : SunReachable s) (hv : s.InputsValid)
    (hn : s.hour = 12 → sunDeclination s.day < s.latitude) :
    ∃ alt az θ, s.askAltitude.2 = some alt ∧ s.askAzimuth.2 = some az ∧ |toRadians az - θ| ≤ 1e-14 ∧
      let v := sunDirection s.latitude (sunDeclination s.day) ((s.hour - 12) * 15)
      v.x = Real.cos (toRadians alt) * Real.sin θ ∧ v.y = Real.cos (toRadians alt) * Real.cos θ ∧
      v.z = Real.sin (toRadians alt) := by
  obtain ⟨cs, _, h1, h2, _⟩ := sun_answers hs hv.2.2.2.2.2.2 hv.2.2.2.2.2.1
  obtain ⟨alt, ha, hab, hsin⟩ := altitude_some s.latitude (Sun.declination s.day) (Sun.angleHour s.hour)
  have hside := sun_side hv hn
  simp only at hside
  have ehour : ((s.hour : ℝ) - 12) * 15 = (Sun.angleHour s.hour : ℝ) := by rw [Sun.angleHour]; push_cast; ring
  change ∃ alt az θ, _ ∧ _ ∧ _ ∧
    let v := sunDirection s.latitude (Sun.declination s.day) ((s.hour - 12) * 15)
    v.x = _ ∧ v.y = _ ∧ v.z = _
  rw [ehour]
  set h := toRadians (Sun.angleHour s.hour) with hh
  set φ := toRadians s.latitude with hφ
  set δ := toRadians (Sun.declination s.day) with hδ
  set n := Real.sin h with hn'
  set d := Real.sin φ * Real.cos h - Real.cos φ * Real.tan δ with hd'
  have hc := Sun.cos_declination_pos s.day
  rw [← hδ] at hc
  obtain ⟨c, hchi⟩ : ∃ c, Sun.chi n d = some c := by
    apply Sun.chi_some
    rintro ⟨h1, h2⟩
    rcases hside with ⟨_, h3⟩ | ⟨_, h3 | ⟨_, h3⟩⟩ <;> linarith
  obtain ⟨hx, hy⟩ := Sun.exactAzimuth_direction hchi hside
  have haz : s.askAzimuth.2 = some ((if Sun.angleHour s.hour < 0 then (if c.1 = true then 180 else 0)
      else (if c.1 = true then 360 else 180)) + toDegrees c.2) := by
    rw [h2]
    simp only [Sun.azimuth]
    rw [← hδ, ← hφ, ← hh, ← hn', ← hd', hchi]
    rfl
  -- the length of the horizontal part
  have hN : Real.cos φ * Real.sin δ - Real.sin φ * Real.cos δ * Real.cos h = Real.cos δ * -d := by
    rw [hd', Real.tan_eq_sin_div_cos]; field_simp; ring
  have hcos : Real.cos (toRadians alt) = Real.cos δ * √(n ^ 2 + d ^ 2) := by
    have h3 := Sun.direction_sq φ δ h
    rw [← hsin, hN, ← hn'] at h3
    have h4 := Real.sin_sq_add_cos_sq (toRadians alt)
    have h5 : Real.cos (toRadians alt) ^ 2 = (Real.cos δ * √(n ^ 2 + d ^ 2)) ^ 2 := by
      rw [mul_pow, Real.sq_sqrt (by positivity)]; nlinarith
    have h6 : 0 ≤ Real.cos (toRadians alt) := Real.cos_nonneg_of_mem_Icc ⟨by linarith [(abs_le.1 hab).1], (abs_le.1 hab).2⟩
    exact (sq_eq_sq₀ h6 (by positivity)).1 h5
  refine ⟨alt, _, Sun.exactAzimuth (decide (Sun.angleHour s.hour < 0)) c, h1.trans ha, haz, ?_, ?_, ?_, ?_⟩
  · rw [toRadians_add, toRadians_toDegrees]
    have k1 := kPi_lt_pi
    have k2 := pi_sub_kPi
    have e : ∀ x y z : ℝ, x + z - (y + z) = x - y := fun x y z => by ring
    rw [Sun.exactAzimuth, e]
    have e0 := toRadians_zero
    by_cases hb : Sun.angleHour s.hour < 0 <;> cases hc1 : c.1 <;>
      simp only [hb, if_true, if_false, Bool.false_eq_true, decide_true, decide_false, toRadians_180, toRadians_360,
        e0] <;> rw [abs_le] <;> constructor <;> norm_num at k2 ⊢ <;> linarith
  · simp only [sunDirection]
    rw [hcos, mul_assoc (Real.cos δ), hx, ← hδ, ← hh, ← hn']; ring
  · simp only [sunDirection]
    rw [hcos, mul_assoc (Real.cos δ), hy, ← hδ, ← hφ, ← hh, hN]
  · simp only [sunDirection]
    rw [hsin]

/-- **C97** fails at noon where the sun passes north of the zenith: the solver reports that it is due south, at an azimuth
of 180, but it is due north. -/
theorem C97_noon_north {s : SolarSolver} (hs : SunReachable s) (hv : s.InputsValid) (hn : s.hour = 12)
    (hl : s.latitude < sunDeclination s.day) :
    s.askAzimuth.2 = some 180 ∧
    (sunDirection s.latitude (sunDeclination s.day) 0).x = 0 ∧
    0 < (sunDirection s.latitude (sunDeclination s.day) 0).y := by
  change s.latitude < Sun.declination s.day at hl
  change s.askAzimuth.2 = some 180 ∧ (sunDirection s.latitude (Sun.declination s.day) 0).x = 0 ∧
    0 < (sunDirection s.latitude (Sun.declination s.day) 0).y
  obtain ⟨cs, hcs, h1, h2, h3⟩ := sun_answers hs hv.2.2.2.2.2.2 hv.2.2.2.2.2.1
  have hlat := hv.2.2.2.2.1
  have hl1 : -90 ≤ s.latitude := not_lt.1 fun h => hlat (Or.inl h)
  have hl2 : s.latitude ≤ 90 := not_lt.1 fun h => hlat (Or.inr h)
  obtain ⟨k1, k2⟩ := noon_sign s.day hl1 hl2
  have hD := lt_of_le_of_ne (not_lt.1 fun h => absurd (k1.1 h) (not_lt.2 hl.le)) (fun h => absurd (k2.1 h) hl.ne)
  have hc := Sun.cos_declination_pos s.day
  have hd := noon_denominator s.latitude s.day
  have hs0 := (sin_hour (hour := s.hour) (by omega) (by omega)).2.1 hn
  refine ⟨?_, ?_, ?_⟩
  · rw [h2]
    have hneg : ¬ Sun.angleHour s.hour < 0 := by rw [angleHour_neg_iff]; omega
    simp only [Sun.azimuth, hs0, if_neg hneg]
    rw [← hn] at hD
    simp [Sun.chi, hD.ne, toDegrees_eq]
  · simp [sunDirection, toRadians_zero]
  · simp only [sunDirection, toRadians_zero, Real.cos_zero, mul_one]
    have : toRadians (Sun.angleHour 12) = 0 := by rw [toRadians_eq, Sun.angleHour]; norm_num
    rw [toRadians_sub, Real.sin_sub] at hd
    have := mul_neg_of_neg_of_pos hD hc
    linarith

example : SunReachable (exSun 12 (-30)) ∧ (exSun 12 (-30)).InputsValid ∧ (exSun 12 (-30)).hour = 12 ∧
    (exSun 12 (-30)).latitude < sunDeclination (exSun 12 (-30)).day := by
  refine ⟨exSun_reachable _ _, exSun_valid (by norm_num) (by norm_num) (by norm_num), rfl, ?_⟩
  have := (abs_le.1 (Sun.declination_abs 161)).1
  change (-30 : ℝ) < Sun.declination 161
  norm_num at this ⊢; linarith

example : SunReachable (exSun 12 30) ∧ (exSun 12 30).InputsValid ∧
    ((exSun 12 30).hour = 12 → sunDeclination (exSun 12 30).day < (exSun 12 30).latitude) := by
  refine ⟨exSun_reachable _ _, exSun_valid (by norm_num) (by norm_num) (by norm_num), fun _ => ?_⟩
  have := (abs_le.1 (Sun.declination_abs 161)).2
  change Sun.declination 161 < (30 : ℝ)
  norm_num at this ⊢; linarith

/-! ## C96: radiation -/

/-- The radiation for a position of the sun: the sky, the incidence and the elevation. -/
theorem radiation_eq {cs : List ℝ} {u : UnitSystem} {e alt az zc r : ℝ}
    (h : Sun.radiation cs u e alt az zc = some r) :
    ∃ i, 0 ≤ i ∧ i ^ 2 = 1 - (Real.cos (toRadians alt) * Real.cos (toRadians az - toRadians zc)) ^ 2 ∧
      r = Poly.evalY cs alt * i * Poly.evalY (Sun.elevation u) e := by
  simp only [Sun.radiation, Sun.incidence, Sun.acos] at h
  split_ifs at h with hb
  · simp only [Option.map_some, Option.some.injEq] at h
    refine ⟨_, ?_, ?_, h.symm⟩
    · rw [toRadians_toDegrees]
      exact Real.sin_nonneg_of_nonneg_of_le_pi (Real.arccos_nonneg _) (Real.arccos_le_pi _)
    · rw [toRadians_toDegrees, Real.sin_arccos, Real.sq_sqrt]
      nlinarith [hb.1, hb.2]
  · cases h

/-- **C96** (partial: the sun must be at least one degree above the horizon and the elevation at most 15000; see
`C96_night`): the radiation is not negative, so the weather validation accepts it. -/
theorem C96_day_partial {s : SolarSolver} (hs : SunReachable s) (hv : s.InputsValid) {alt r : ℝ}
    (ha : s.askAltitude.2 = some alt) (hr : s.askRadiation.2 = some r) (h1 : 1 ≤ alt) (he : s.elevation ≤ 15000) :
    0 ≤ r ∧ ∀ w : ThermalWeather, w.validate.1 = true → ({ w with radiationSolar := r }).validate.1 = true := by
  obtain ⟨cs, hcs, g1, g2, g3⟩ := sun_answers hs hv.2.2.2.2.2.2 hv.2.2.2.2.2.1
  have hpos : 0 ≤ r := by
    rw [ha, hr] at g3
    simp only [Option.bind_some] at g3
    cases hz : s.askAzimuth.2 with
    | none => rw [hz] at g3; cases g3
    | some az =>
      rw [hz] at g3
      obtain ⟨i, hi, _, rfl⟩ := radiation_eq g3.symm
      have h2 : alt ≤ 91 := by
        obtain ⟨a, ha', hb, _⟩ := altitude_some s.latitude (Sun.declination s.day) (Sun.angleHour s.hour)
        have : a = alt := by rw [g1, ha'] at ha; exact Option.some.inj ha
        subst this
        have := Sun.toDegrees_le (abs_le.1 hb).2
        have e : toDegrees (toRadians a) = a := by
          rw [toDegrees_eq, toRadians_eq]; have := kPi_pos.ne'; field_simp
        rw [e] at this
        exact this.le
      have p1 := Sun.atmosphere_nonneg hcs h1 h2
      have p2 := Sun.elevation_pos (not_lt.1 hv.2.2.1) hv.2.2.2.2.2.2 he
      positivity
  refine ⟨hpos, fun w hw => ?_⟩
  rw [ThermalWeather.validate] at hw ⊢
  simp only [List.isEmpty_iff, List.append_eq_nil_iff, ite_eq_right_iff, List.cons_ne_nil, imp_false] at hw ⊢
  exact ⟨⟨⟨⟨hw.1.1.1.1, hw.1.1.1.2⟩, not_lt.2 hpos⟩, hw.1.2⟩, hw.2⟩

/-- **C96** fails at night: at midnight on the equator under a clear sky, on every day and for every direction of the
cable, `Validate` accepts the inputs but the radiation is negative, and weather with it is rejected. -/
theorem C96_night {s : SolarSolver} (hs : SunReachable s) (hv : s.InputsValid) (hq : s.quality = .clear)
    (hh : s.hour = 0) (hl : s.latitude = 0) (he : s.elevation = 0) :
    s.validate.2 = true ∧ ∃ r, s.askRadiation.2 = some r ∧ r < 0 ∧
      ∀ w : ThermalWeather, ({ w with radiationSolar := r }).validate.1 = false := by
  obtain ⟨cs, hcs, g1, g2, g3⟩ := sun_answers hs hv.2.2.2.2.2.2 hv.2.2.2.2.2.1
  obtain ⟨alt, az, r, h1, h2, h3, hb, _⟩ := C72_position_partial hs hv (fun h => by omega)
  have hr : r < 0 := by
    rw [h1, h2, h3] at g3
    obtain ⟨i, hi0, hi, rfl⟩ := radiation_eq g3.symm
    obtain ⟨a, ha', _, hsin⟩ := altitude_some s.latitude (Sun.declination s.day) (Sun.angleHour s.hour)
    have : a = alt := by rw [g1, ha'] at h1; exact Option.some.inj h1
    subst this
    -- the sun is below the horizon
    have hang : toRadians (Sun.angleHour s.hour) = -kPi := by
      rw [toRadians_eq, Sun.angleHour, hh]; push_cast; ring
    rw [hl, toRadians_zero, Real.cos_zero, Real.sin_zero, hang, Real.cos_neg] at hsin
    have k1 := kPi_lt_pi
    have k2 := pi_sub_kPi
    have hck : Real.cos kPi < 0 := by
      apply Real.cos_neg_of_pi_div_two_lt_of_lt
      · norm_num at k2; linarith [Real.pi_gt_three]
      · linarith [Real.pi_pos]
    have hcd := Sun.cos_declination_pos s.day
    have hs0 : Real.sin (toRadians a) < 0 := by
      rw [hsin]; nlinarith [mul_neg_of_pos_of_neg hcd hck]
    have ha0 : a < 0 := by
      by_contra hge
      have hge := not_lt.1 hge
      have : 0 ≤ toRadians a := by rw [toRadians_eq]; have := kPi_pos; positivity
      have := Real.sin_nonneg_of_nonneg_of_le_pi this (by linarith [(abs_le.1 hb).2, Real.pi_pos])
      linarith
    -- the incidence is not zero
    have hi1 : 0 < i := by
      have c1 := Real.sin_sq_add_cos_sq (toRadians a)
      have c2 := Real.sin_sq_add_cos_sq (toRadians az - toRadians s.azimuthCable)
      have c3 : (Real.cos (toRadians a) * Real.cos (toRadians az - toRadians s.azimuthCable)) ^ 2 ≤
          Real.cos (toRadians a) ^ 2 := by
        rw [mul_pow]
        have : Real.cos (toRadians az - toRadians s.azimuthCable) ^ 2 ≤ 1 := by nlinarith [sq_nonneg (Real.sin (toRadians az - toRadians s.azimuthCable))]
        nlinarith [sq_nonneg (Real.cos (toRadians a))]
      have c4 : 0 < i ^ 2 := by rw [hi]; nlinarith
      exact lt_of_le_of_ne hi0 (fun h => by rw [← h] at c4; norm_num at c4)
    have hp : Poly.evalY cs a < 0 := by
      have m : 0 < -a := by linarith
      have m2 : 0 < (-a) ^ 2 := by positivity
      have m3 : 0 < (-a) ^ 3 := by positivity
      have m4 : 0 < (-a) ^ 4 := by positivity
      have m5 : 0 < (-a) ^ 5 := by positivity
      have m6 : 0 < (-a) ^ 6 := by positivity
      rw [hq] at hcs
      cases hu : s.units <;> rw [hu] at hcs <;> simp only [Sun.atmosphere, reduceCtorEq, Option.some.injEq] at hcs <;>
        subst hcs <;> rw [Sun.evalY_seven] <;> norm_num <;> ring_nf at m2 m3 m4 m5 m6 ⊢ <;> linarith
    have hev : 0 < Poly.evalY (Sun.elevation s.units) s.elevation :=
      Sun.elevation_pos (by rw [he]) hv.2.2.2.2.2.2 (by rw [he]; norm_num)
    exact mul_neg_of_neg_of_pos (mul_neg_of_neg_of_pos hp hi1) hev
  refine ⟨?_, r, h3, hr, fun w => ?_⟩
  · unfold SolarSolver.validate
    rw [if_pos hv]
    unfold SolarSolver.update
    split
    · rw [hcs]
    · rfl
  · rw [ThermalWeather.validate]
    simp [hr]

example : SunReachable (exSun 0 0) ∧ (exSun 0 0).InputsValid ∧ (exSun 0 0).quality = .clear ∧ (exSun 0 0).hour = 0 ∧
    (exSun 0 0).latitude = 0 ∧ (exSun 0 0).elevation = 0 :=
  ⟨exSun_reachable _ _, exSun_valid (by norm_num) (by norm_num) (by norm_num), rfl, rfl, rfl, rfl⟩

/-- The sun is high at noon at 30 degrees north. -/
theorem exSun_high : ∃ alt, (exSun 12 30).askAltitude.2 = some alt ∧ 1 ≤ alt := by
  obtain ⟨cs, hcs, g1, g2, g3⟩ := sun_answers (exSun_reachable 12 30) (by rw [exSun_eq]; simp) (by rw [exSun_eq]; simp)
  obtain ⟨a, ha, hb, hs⟩ := altitude_some 30 (Sun.declination 161) (Sun.angleHour 12)
  refine ⟨a, g1.trans ha, ?_⟩
  have h0 : toRadians (Sun.angleHour 12) = 0 := by rw [toRadians_eq, Sun.angleHour]; norm_num
  rw [h0, Real.cos_zero, mul_one, ← Real.cos_sub, ← toRadians_sub] at hs
  by_contra hlt
  have hlt := not_le.1 hlt
  have k := kPi_pos
  have kp := kPi_lt_pi
  have hd := abs_le.1 (Sun.declination_abs 161)
  -- cos of less than 60 degrees exceeds sin of 1 degree
  have h1 : Real.cos (toRadians 60) ≤ Real.cos (toRadians (30 - Sun.declination 161)) := by
    apply Real.cos_le_cos_of_nonneg_of_le_pi
    · rw [toRadians_eq]; have : 0 ≤ 30 - Sun.declination 161 := by norm_num at hd; linarith [hd.2]
      positivity
    · rw [toRadians_eq]; linarith
    · rw [toRadians_eq, toRadians_eq]
      apply mul_le_mul_of_nonneg_right _ (by positivity)
      norm_num at hd; linarith [hd.1]
  have h2 : Real.sin (toRadians 30) ≤ Real.cos (toRadians 60) := by
    rw [← Real.cos_pi_div_two_sub]
    apply Real.cos_le_cos_of_nonneg_of_le_pi
    · rw [toRadians_eq]; positivity
    · rw [toRadians_eq]; linarith
    · rw [toRadians_eq, toRadians_eq]; linarith
  have h3 : Real.sin (toRadians a) < Real.sin (toRadians 30) := by
    apply Real.sin_lt_sin_of_lt_of_le_pi_div_two
    · exact (abs_le.1 hb).1
    · rw [toRadians_eq]; linarith
    · rw [toRadians_eq, toRadians_eq]
      exact mul_lt_mul_of_pos_right (by linarith) (by positivity)
  linarith

example : ∃ alt r, SunReachable (exSun 12 30) ∧ (exSun 12 30).InputsValid ∧ (exSun 12 30).askAltitude.2 = some alt ∧
    (exSun 12 30).askRadiation.2 = some r ∧ 1 ≤ alt ∧ (exSun 12 30).elevation ≤ 15000 := by
  obtain ⟨alt, h1, h2⟩ := exSun_high
  have hv := exSun_valid (hour := 12) (l := 30) (by norm_num) (by norm_num) (by norm_num)
  obtain ⟨alt', az, r, h3, h4, h5, _⟩ := C72_position_partial (exSun_reachable 12 30) hv (fun _ h => by
    have := (abs_le.1 (Sun.declination_abs 161)).2
    change (30 : ℝ) = Sun.declination 161 at h
    norm_num at this; linarith)
  exact ⟨alt, r, exSun_reachable _ _, hv, h1, h5, h2, by rw [exSun_eq]; norm_num⟩

end Verif.Props
