import Verif.Props.Solar
import Mathlib.Tactic.Positivity

/-!
# C138: both unit systems give the same solar radiation

The coefficients of the sky and of the elevation are given once per unit system.  Their printed digits differ.
-/

set_option linter.unusedSectionVars false

namespace Verif.Props

open Verif.Units

/-- The sum of products of powers is not negative. -/
theorem bernstein_nonneg {x : ℝ} (h0 : 0 ≤ x) (h1 : x ≤ 91) (i j : ℕ) : 0 ≤ x ^ i * (91 - x) ^ j :=
  mul_nonneg (pow_nonneg h0 i) (pow_nonneg (by linarith) j)

/-- The polynomials of the sky differ by at most 0.12 watts per square meter. -/
theorem sky_units {q : Atmosphere} {cm ci : List ℝ} (hm : Sun.atmosphere .metric q = some cm)
    (hi : Sun.atmosphere .imperial q = some ci) {x : ℝ} (h0 : 0 ≤ x) (h1 : x ≤ 91) :
    |Poly.evalY ci x / 0.3048 ^ 2 - Poly.evalY cm x| ≤ 0.12 := by
  have b0 := bernstein_nonneg h0 h1 0 6
  have b1 := bernstein_nonneg h0 h1 1 5
  have b2 := bernstein_nonneg h0 h1 2 4
  have b3 := bernstein_nonneg h0 h1 3 3
  have b4 := bernstein_nonneg h0 h1 4 2
  have b5 := bernstein_nonneg h0 h1 5 1
  have b6 := bernstein_nonneg h0 h1 6 0
  cases q <;> simp only [Sun.atmosphere, reduceCtorEq, Option.some.injEq] at hm hi <;> subst hm <;> subst hi <;>
    rw [Sun.evalY_seven, Sun.evalY_seven, abs_le] <;> norm_num <;> ring_nf at b0 b1 b2 b3 b4 b5 b6 ⊢ <;>
    constructor <;> linarith

/-- The factors of the elevation differ by at most 0.65 percent up to 5000 meters. -/
theorem elevation_units {h : ℝ} (h0 : 0 ≤ h) (h1 : h ≤ 5000) :
    0 < Poly.evalY (Sun.elevation .metric) h ∧ Poly.evalY (Sun.elevation .imperial) (h / 0.3048) ≤ 1.32 ∧
    0 ≤ Poly.evalY (Sun.elevation .imperial) (h / 0.3048) ∧
    |Poly.evalY (Sun.elevation .imperial) (h / 0.3048) - Poly.evalY (Sun.elevation .metric) h| ≤
      0.0065 * Poly.evalY (Sun.elevation .metric) h := by
  simp only [Sun.elevation, Sun.evalY_three]
  have q : 0 ≤ h * (5000 - h) := mul_nonneg h0 (by linarith)
  refine ⟨by norm_num; nlinarith, by norm_num; nlinarith, by norm_num; nlinarith, ?_⟩
  rw [abs_le]
  norm_num
  constructor <;> nlinarith

/-- A metric solver with its elevation in feet instead. -/
noncomputable def sunInFeet (s : SolarSolver) : SolarSolver := (s.setElevation (s.elevation / 0.3048)).setUnits .imperial

theorem sunInFeet_reachable {s : SolarSolver} (hs : SunReachable s) : SunReachable (sunInFeet s) := by
  obtain ⟨cs, rfl⟩ := hs
  refine ⟨cs ++ [.setElevation ((cs.foldl SolarSolver.Call.next .new).elevation / 0.3048), .setUnits .imperial], ?_⟩
  rw [List.foldl_append]
  rfl

/-- **C138**: take a solver with valid metric inputs, after any history of calls, at most 5000 meters above the sea, that
reports a position of the sun above the horizon and a radiation.  With the elevation in feet and the other unit system it
accepts its inputs, reports the same position of the sun, and a radiation that is the same up to 0.65 percent and 0.16
watts per square meter. -/
theorem C138_radiation {s : SolarSolver} (hs : SunReachable s) (hv : s.InputsValid) (hu : s.units = .metric)
    (he : s.elevation ≤ 5000) {alt r : ℝ} (ha : s.askAltitude.2 = some alt) (h0 : 0 ≤ alt)
    (hr : s.askRadiation.2 = some r) :
    (sunInFeet s).InputsValid ∧ (sunInFeet s).askAltitude.2 = some alt ∧
    (sunInFeet s).askAzimuth.2 = s.askAzimuth.2 ∧
    ∃ i, (sunInFeet s).askRadiation.2 = some i ∧ |i / 0.3048 ^ 2 - r| ≤ 0.0065 * |r| + 0.16 := by
  obtain ⟨v1, v2, v3, v4, v5, v6, v7⟩ := hv
  obtain ⟨cm, hcm, m1, m2, m3⟩ := sun_answers hs v7 v6
  obtain ⟨ci, hci, i1, i2, i3⟩ := sun_answers (sunInFeet_reachable hs) (by simp [sunInFeet, SolarSolver.setUnits])
    (show (sunInFeet s).quality ≠ .null from v6)
  have ea : (sunInFeet s).askAltitude.2 = s.askAltitude.2 := i1.trans m1.symm
  have ez : (sunInFeet s).askAzimuth.2 = s.askAzimuth.2 := i2.trans m2.symm
  refine ⟨⟨v1, v2, ?_, v4, v5, v6, by simp [sunInFeet, SolarSolver.setUnits]⟩, ea.trans ha, ez, ?_⟩
  · show ¬ s.elevation / 0.3048 < 0
    have := not_lt.1 v3
    exact not_lt.2 (by positivity)
  have h2 : alt ≤ 91 := by
    obtain ⟨a, ha', hb, _⟩ := altitude_some s.latitude (Sun.declination s.day) (Sun.angleHour s.hour)
    have : a = alt := by rw [m1, ha'] at ha; exact Option.some.inj ha
    subst this
    have := Sun.toDegrees_le (abs_le.1 hb).2
    have e : toDegrees (toRadians a) = a := by
      rw [toDegrees_eq, toRadians_eq]; have := kPi_pos.ne'; field_simp
    rw [e] at this
    exact this.le
  rw [hu] at hcm
  have hci' : Sun.atmosphere .imperial s.quality = some ci := hci
  rw [ea, ez] at i3
  rw [ha, hr] at m3
  rw [ha] at i3
  simp only [Option.bind_some] at m3 i3
  cases hz : s.askAzimuth.2 with
  | none => rw [hz] at m3; cases m3
  | some az =>
    rw [hz, hu] at m3
    rw [hz] at i3
    simp only [Option.bind_some] at m3 i3
    rw [show (sunInFeet s).units = .imperial from rfl, show (sunInFeet s).elevation = s.elevation / 0.3048 from rfl,
      show (sunInFeet s).azimuthCable = s.azimuthCable from rfl] at i3
    unfold Sun.radiation at m3 i3
    cases hc : Sun.incidence alt az s.azimuthCable with
    | none => rw [hc] at m3; cases m3
    | some a =>
      rw [hc] at m3 i3
      simp only [Option.map_some, Option.some.injEq] at m3 i3
      refine ⟨_, i3, ?_⟩
      have hp := sky_units hcm hci' h0 h2
      obtain ⟨e0, e1, e2, e3⟩ := elevation_units (not_lt.1 v3) he
      have hsin := Real.abs_sin_le_one (toRadians a)
      rw [m3]
      generalize Real.sin (toRadians a) = y at hsin ⊢
      generalize Poly.evalY (Sun.elevation .metric) s.elevation = em at e0 e3 ⊢
      generalize Poly.evalY (Sun.elevation .imperial) (s.elevation / 0.3048) = ei at e1 e2 e3 ⊢
      generalize Poly.evalY ci alt = pi at hp ⊢
      generalize Poly.evalY cm alt = pm at hp ⊢
      have split : pi * y * ei / 0.3048 ^ 2 - pm * y * em = (pi / 0.3048 ^ 2 - pm) * y * ei + pm * y * (ei - em) := by ring
      rw [split]
      refine (abs_add_le _ _).trans ?_
      rw [abs_mul, abs_mul, abs_mul (pm * y), abs_mul (pm * y), abs_of_nonneg e2, abs_of_pos e0]
      have t1 : |pi / 0.3048 ^ 2 - pm| * |y| * ei ≤ 0.12 * 1 * 1.32 :=
        mul_le_mul (mul_le_mul hp hsin (abs_nonneg _) (by norm_num)) e1 e2 (by norm_num)
      have t2 := mul_le_mul_of_nonneg_left e3 (abs_nonneg (pm * y))
      norm_num at t1 t2 ⊢
      linarith

/-- Noon at 30 degrees north. -/
example : ∃ alt r, SunReachable (exSun 12 30) ∧ (exSun 12 30).InputsValid ∧ (exSun 12 30).units = .metric ∧
    (exSun 12 30).elevation ≤ 5000 ∧ (exSun 12 30).askAltitude.2 = some alt ∧ 0 ≤ alt ∧
    (exSun 12 30).askRadiation.2 = some r := by
  obtain ⟨alt, h1, h2⟩ := exSun_high
  have hv := exSun_valid (hour := 12) (l := 30) (by norm_num) (by norm_num) (by norm_num)
  obtain ⟨alt', az, r, h3, h4, h5, _⟩ := C72_position_partial (exSun_reachable 12 30) hv (fun _ h => by
    have := (abs_le.1 (Sun.declination_abs 161)).2
    change (30 : ℝ) = Sun.declination 161 at h
    norm_num at this; linarith)
  exact ⟨alt, r, exSun_reachable _ _, hv, rfl, by rw [exSun_eq]; norm_num, h1, by linarith, h5⟩

end Verif.Props
