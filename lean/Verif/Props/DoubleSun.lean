import Verif.DoubleSun
import Verif.TrigSeries
import Verif.DoubleFiniteLemmas
import Verif.Props.DoubleVector
import Mathlib.Analysis.Real.Pi.Bounds

/-! # The position of the sun in `double` arithmetic (C185) -/

set_option linter.unusedSectionVars false

namespace Verif.Props

open Verif.Double

/-- A library with correctly rounded functions. -/
noncomputable def roundedSunLibrary : SunLibrary where
  toLibrary := roundedLibrary
  sin x := rnd (Real.sin x)
  cos x := rnd (Real.cos x)
  tan x := rnd (Real.tan x)
  asin x := rnd (Real.arcsin x)
  acos x := rnd (Real.arccos x)
  sin_faithful _ _ := rnd_faithful _
  cos_faithful _ _ := rnd_faithful _
  tan_faithful _ _ := rnd_faithful _
  asin_faithful _ _ _ := rnd_faithful _
  acos_faithful _ _ _ := rnd_faithful _

/-- The `double` nearest to a positive number that is known well enough. -/
theorem rnd_between {x : ℝ} (m e : ℤ) (he : -1074 ≤ e) (h1 : 2 ^ (e + 52) ≤ x) (h2 : x < 2 ^ (e + 53))
    (h3 : (m - 1 / 2) * 2 ^ e < x) (h4 : x < (m + 1 / 2) * 2 ^ e) : rnd x = m * 2 ^ e := by
  have hx : 0 < x := (two_zpow_pos _).trans_le h1
  have hp := two_zpow_pos e
  refine rnd_eq m e he (by rwa [abs_of_pos hx]) (by rwa [abs_of_pos hx]) ?_
  rw [abs_lt]
  constructor
  · rw [lt_sub_iff_add_lt, lt_div_iff₀ hp]; linarith
  · rw [sub_lt_iff_lt_add, div_lt_iff₀ hp]; linarith

theorem pi_rounded : rnd 3.14159265358979 = (7074237752028433 : ℤ) * (2 : ℝ) ^ (-51 : ℤ) :=
  rnd_between _ _ (by norm_num) (by norm_num) (by norm_num) (by norm_num) (by norm_num)

theorem degree_rounded : rnd (rnd 3.14159265358979 / 180) = (5030569068109108 : ℤ) * (2 : ℝ) ^ (-58 : ℤ) := by
  rw [pi_rounded]
  exact rnd_between _ _ (by norm_num) (by norm_num) (by norm_num) (by norm_num) (by norm_num)

theorem toRadians_eq (L : SunLibrary) (x : ℝ) :
    Sun.toRadians L x = rnd (x * ((5030569068109108 : ℤ) * (2 : ℝ) ^ (-58 : ℤ))) := by
  show Double.convert _ _ _ _ _ = _
  unfold Double.convert
  simp only [Bool.true_eq_false, if_false]
  rw [Library.pow_one _ (rnd_isDouble _), degree_rounded]

theorem toRadians_double (L : SunLibrary) (x : ℝ) : IsDouble (Sun.toRadians L x) := by
  rw [toRadians_eq]; exact rnd_isDouble _

theorem lib_sin_le (L : SunLibrary) {x : ℝ} (hx : IsDouble x) : |L.sin x| ≤ 1 := by
  have f := L.sin_faithful x hx
  exact abs_le.mpr ⟨f.2.1 _ isDouble_one.neg (Real.neg_one_le_sin x), f.2.2 _ isDouble_one (Real.sin_le_one x)⟩

theorem lib_cos_le (L : SunLibrary) {x : ℝ} (hx : IsDouble x) : |L.cos x| ≤ 1 := by
  have f := L.cos_faithful x hx
  exact abs_le.mpr ⟨f.2.1 _ isDouble_one.neg (Real.neg_one_le_cos x), f.2.2 _ isDouble_one (Real.cos_le_one x)⟩

theorem tiny_le_u : (2 : ℝ) ^ (-1074 : ℤ) ≤ u ∧ (2 : ℝ) ^ (-1075 : ℤ) ≤ u :=
  ⟨two_zpow_le (by norm_num), two_zpow_le (by norm_num)⟩

theorem lib_sin_near (L : SunLibrary) {x : ℝ} (hx : IsDouble x) : |L.sin x - Real.sin x| ≤ 3 * u := by
  have f := (L.sin_faithful x hx).error_le
  have := Real.abs_sin_le_one x
  have := tiny_le_u.1
  have := u_pos
  nlinarith

theorem lib_cos_near (L : SunLibrary) {x : ℝ} (hx : IsDouble x) : |L.cos x - Real.cos x| ≤ 3 * u := by
  have f := (L.cos_faithful x hx).error_le
  have := Real.abs_cos_le_one x
  have := tiny_le_u.1
  have := u_pos
  nlinarith

/-- Products of numbers that are at most 1 in size. -/
theorem product_near {a b x y d e : ℝ} (ha : |a| ≤ 1) (hy : |y| ≤ 1) (h1 : |a - x| ≤ d) (h2 : |b - y| ≤ e) :
    |a * b - x * y| ≤ d + e := by
  rw [show a * b - x * y = a * (b - y) + (a - x) * y by ring]
  refine (abs_add_le _ _).trans ?_
  rw [abs_mul, abs_mul]
  nlinarith [abs_nonneg a, abs_nonneg y, abs_nonneg (b - y), abs_nonneg (a - x)]

theorem rnd_near_one {a : ℝ} (ha : |a| ≤ 1) : |rnd a| ≤ 1 ∧ |rnd a - a| ≤ 2 * u := by
  refine ⟨abs_le.mpr ⟨le_rnd isDouble_one.neg (abs_le.mp ha).1, Double.rnd_le isDouble_one (abs_le.mp ha).2⟩, ?_⟩
  have := rnd_error_le a
  have := tiny_le_u.2
  have := u_pos
  nlinarith

/-- **C185** (accuracy of the sine of the altitude): the sum whose arc sine is taken is within `2 ^ (-48)` of the exact
one, at the angles in radians that the code uses. -/
theorem C185_sine (L : SunLibrary) (latitude declination angleHour : ℝ) :
    |Double.Sun.altitudeSine L latitude declination angleHour -
      (Real.cos (Double.Sun.toRadians L latitude) * Real.cos (Double.Sun.toRadians L declination) *
          Real.cos (Double.Sun.toRadians L angleHour) +
        Real.sin (Double.Sun.toRadians L latitude) * Real.sin (Double.Sun.toRadians L declination))| ≤ 2 ^ (-48 : ℤ) := by
  unfold Double.Sun.altitudeSine
  have d1 := toRadians_double L latitude
  have d2 := toRadians_double L declination
  have d3 := toRadians_double L angleHour
  generalize Double.Sun.toRadians L latitude = x at *
  generalize Double.Sun.toRadians L declination = y at *
  generalize Double.Sun.toRadians L angleHour = z at *
  have one : ∀ {a b : ℝ}, |a| ≤ 1 → |b| ≤ 1 → |a * b| ≤ 1 := fun h1 h2 => by
    rw [abs_mul]; exact mul_le_one₀ h1 (abs_nonneg _) h2
  have p1 := product_near (lib_cos_le L d1) (Real.abs_cos_le_one y) (lib_cos_near L d1) (lib_cos_near L d2)
  obtain ⟨r1, e1⟩ := rnd_near_one (one (lib_cos_le L d1) (lib_cos_le L d2))
  have p2 := product_near r1 (Real.abs_cos_le_one z) ((abs_sub_le _ _ _).trans (add_le_add e1 p1)) (lib_cos_near L d3)
  obtain ⟨r2, e2⟩ := rnd_near_one (one r1 (lib_cos_le L d3))
  have p3 := product_near (lib_sin_le L d1) (Real.abs_sin_le_one y) (lib_sin_near L d1) (lib_sin_near L d2)
  obtain ⟨r3, e3⟩ := rnd_near_one (one (lib_sin_le L d1) (lib_sin_le L d2))
  have e4 := rnd_error_le (rnd (rnd (L.cos x * L.cos y) * L.cos z) + rnd (L.sin x * L.sin y))
  have r4 := abs_add_le (rnd (rnd (L.cos x * L.cos y) * L.cos z)) (rnd (L.sin x * L.sin y))
  have t := tiny_le_u.2
  have u0 := u_pos
  have e : (2 : ℝ) ^ (-48 : ℤ) = 32 * u := by unfold u; norm_num
  rw [e]
  have e5 : |rnd (rnd (rnd (L.cos x * L.cos y) * L.cos z) + rnd (L.sin x * L.sin y)) -
      (rnd (rnd (L.cos x * L.cos y) * L.cos z) + rnd (L.sin x * L.sin y))| ≤ 3 * u := by nlinarith
  have f1 := (abs_sub_le _ _ _).trans (add_le_add e2 p2)
  have f2 := (abs_sub_le _ _ _).trans (add_le_add e3 p3)
  have f3 := (abs_sub_le _ _ (Real.cos x * Real.cos y * Real.cos z + Real.sin x * Real.sin y)).trans (add_le_add e5
    (show _ ≤ (2 * u + (2 * u + (3 * u + 3 * u) + 3 * u)) + (2 * u + (3 * u + 3 * u)) by
      rw [show ∀ a b c d : ℝ, a + b - (c + d) = (a - c) + (b - d) by intros; ring]
      exact (abs_add_le _ _).trans (add_le_add f1 f2)))
  linarith

/-- The angle in degrees. -/
theorem toDegrees_eq (L : Library) (x : ℝ) :
    Double.toDegrees L x = rnd (x * ((8063664102031872 : ℤ) * (2 : ℝ) ^ (-47 : ℤ))) := by
  show Double.convert _ _ _ _ _ = _
  unfold Double.convert
  simp only [if_true]
  rw [Library.pow_one _ (rnd_isDouble _), pi_rounded]
  congr 2
  exact rnd_between _ _ (by norm_num) (by norm_num) (by norm_num) (by norm_num) (by norm_num)

/-- The angle in degrees is the exact one to within `2 ^ (-43)`. -/
theorem toDegrees_near (L : Library) {x y : ℝ} (hx : |x| ≤ 2) (hxy : |x - y| ≤ 5 * u) :
    |Double.toDegrees L x - Verif.toDegrees y| ≤ 2 ^ (-43 : ℤ) := by
  rw [toDegrees_eq]
  have h := rnd_error_le (x * ((8063664102031872 : ℤ) * (2 : ℝ) ^ (-47 : ℤ)))
  have hy : Verif.toDegrees y = y * (180 / 3.14159265358979) := by
    simp [Verif.toDegrees, Units.convertAngle, Units.convert, Units.kPi]
  rw [hy]
  have e : (2 : ℝ) ^ (-43 : ℤ) = 1024 * u := by unfold u; norm_num
  have u0 := u_pos
  have t := tiny_le_u.2
  have hf : ((8063664102031872 : ℤ) * (2 : ℝ) ^ (-47 : ℤ)) ≤ 58 ∧ 0 ≤ ((8063664102031872 : ℤ) * (2 : ℝ) ^ (-47 : ℤ)) := by norm_num
  have hF : (180 : ℝ) / 3.14159265358979 ≤ 58 ∧ (0 : ℝ) ≤ 180 / 3.14159265358979 := by norm_num
  have hd : |((8063664102031872 : ℤ) * (2 : ℝ) ^ (-47 : ℤ)) - 180 / 3.14159265358979| ≤ 128 * u := by
    unfold u; rw [abs_le]; norm_num
  rw [e]
  generalize ((8063664102031872 : ℤ) * (2 : ℝ) ^ (-47 : ℤ)) = f at *
  generalize (180 : ℝ) / 3.14159265358979 = F at *
  have h1 : |x * f| ≤ 116 := by
    rw [abs_mul, abs_of_nonneg hf.2]; nlinarith [abs_nonneg x]
  have h2 : |x * f - y * F| ≤ 546 * u := by
    have : x * f - y * F = x * (f - F) + (x - y) * F := by ring
    rw [this]
    refine (abs_add_le _ _).trans ?_
    rw [abs_mul, abs_mul, abs_of_nonneg hF.2]
    have a1 : |x| * |f - F| ≤ 2 * (128 * u) := mul_le_mul hx hd (abs_nonneg _) (by norm_num)
    have a2 : |x - y| * F ≤ 5 * u * 58 := mul_le_mul hxy hF.1 hF.2 (by positivity)
    linarith
  have h3 := abs_sub_le (rnd (x * f)) (x * f) (y * F)
  nlinarith

/-- **C185** (altitude): unless the sun is so near to the zenith or the nadir that the sine of its altitude differs from
1 in size by less than `2 ^ (-48)`, the altitude is a number, the arc sine in degrees to within `2 ^ (-43)` of a degree.

Partial: nearer to the zenith it is false (C185_zenith_fails). -/
theorem C185_altitude_partial (L : SunLibrary) (latitude declination angleHour : ℝ)
    (h : |Real.cos (Double.Sun.toRadians L latitude) * Real.cos (Double.Sun.toRadians L declination) *
          Real.cos (Double.Sun.toRadians L angleHour) +
        Real.sin (Double.Sun.toRadians L latitude) * Real.sin (Double.Sun.toRadians L declination)| ≤ 1 - 2 ^ (-48 : ℤ)) :
    ∃ t a : ℝ, |t - (Real.cos (Double.Sun.toRadians L latitude) * Real.cos (Double.Sun.toRadians L declination) *
          Real.cos (Double.Sun.toRadians L angleHour) +
        Real.sin (Double.Sun.toRadians L latitude) * Real.sin (Double.Sun.toRadians L declination))| ≤ 2 ^ (-48 : ℤ) ∧
      |t| ≤ 1 ∧ Double.Sun.altitude L latitude declination angleHour = some a ∧
      |a - Verif.toDegrees (Real.arcsin t)| ≤ 2 ^ (-43 : ℤ) := by
  have hs := C185_sine L latitude declination angleHour
  have hd : IsDouble (Double.Sun.altitudeSine L latitude declination angleHour) := rnd_isDouble _
  unfold Double.Sun.altitude
  generalize Double.Sun.altitudeSine L latitude declination angleHour = t at *
  generalize Real.cos (Double.Sun.toRadians L latitude) * Real.cos (Double.Sun.toRadians L declination) *
          Real.cos (Double.Sun.toRadians L angleHour) +
        Real.sin (Double.Sun.toRadians L latitude) * Real.sin (Double.Sun.toRadians L declination) = E at *
  have ht : |t| ≤ 1 := by
    have h1 := abs_add_le (t - E) E
    rw [sub_add_cancel] at h1
    exact (h1.trans (add_le_add hs h)).trans (le_of_eq (by ring))
  refine ⟨t, Double.toDegrees L.toLibrary (L.asin t), hs, ht, ?_, ?_⟩
  · rw [Double.Sun.asin, if_pos (abs_le.mp ht)]; rfl
  · have f := L.asin_faithful t hd ht
    have hp : |Real.arcsin t| ≤ 2 := by
      rw [abs_le]
      have := Real.neg_pi_div_two_le_arcsin t
      have := Real.arcsin_le_pi_div_two t
      have := Real.pi_lt_d2
      constructor <;> linarith
    have h2 : IsDouble 2 := by exact_mod_cast isDouble_int (n := 2) (by norm_num)
    refine toDegrees_near _ (f.abs_le h2 hp) ?_
    have := f.error_le
    have := tiny_le_u.1
    have := u_pos
    nlinarith

/-- Bounds of an angle in degrees. -/
theorem toDegrees_sign (L : Library) {x : ℝ} : (0 ≤ x → x ≤ 2 → 0 ≤ Double.toDegrees L x ∧ Double.toDegrees L x ≤ 116) ∧
    (x ≤ 0 → -2 ≤ x → Double.toDegrees L x ≤ 0 ∧ -116 ≤ Double.toDegrees L x) := by
  rw [toDegrees_eq]
  have hf : ((8063664102031872 : ℤ) * (2 : ℝ) ^ (-47 : ℤ)) ≤ 58 ∧ 0 ≤ ((8063664102031872 : ℤ) * (2 : ℝ) ^ (-47 : ℤ)) := by norm_num
  generalize ((8063664102031872 : ℤ) * (2 : ℝ) ^ (-47 : ℤ)) = f at *
  have d : IsDouble (116 : ℝ) := by exact_mod_cast isDouble_int (n := 116) (by norm_num)
  refine ⟨fun h1 h2 => ⟨rnd_nonneg (by nlinarith), Double.rnd_le d (by nlinarith)⟩,
    fun h1 h2 => ⟨rnd_nonpos (by nlinarith), le_rnd d.neg (by nlinarith)⟩⟩

/-- **C185** (azimuth): before noon the azimuth is between 0 and 180 degrees, from noon on between 180 and 360 degrees,
if it is a number. -/
theorem C185_azimuth (L : SunLibrary) {latitude declination : ℝ} {angleHour : Int} {a : ℝ}
    (h : Double.Sun.azimuth L latitude declination angleHour = some a) :
    (angleHour < 0 → 0 ≤ a ∧ a ≤ 180) ∧ (0 ≤ angleHour → 180 ≤ a ∧ a ≤ 360) := by
  unfold Double.Sun.azimuth at h
  obtain ⟨⟨neg, r⟩, hc, rfl⟩ := Option.map_eq_some_iff.mp h
  have h2 : IsDouble 2 := by exact_mod_cast isDouble_int (n := 2) (by norm_num)
  have hpi := Real.pi_lt_d2
  have hpi0 := Real.pi_pos
  have key : (neg = true → r ≤ 0 ∧ -2 ≤ r) ∧ (neg = false → 0 ≤ r ∧ r ≤ 2) := by
    unfold Double.Sun.chi at hc
    have hh : 0 ≤ rnd (Real.pi / 2) ∧ rnd (Real.pi / 2) ≤ 2 := ⟨rnd_nonneg (by linarith), Double.rnd_le h2 (by linarith)⟩
    split_ifs at hc
    · simp only [Option.some.injEq, Prod.mk.injEq] at hc
      obtain ⟨rfl, rfl⟩ := hc
      simp; constructor <;> linarith [hh.1, hh.2]
    · simp only [Option.some.injEq, Prod.mk.injEq] at hc
      obtain ⟨rfl, rfl⟩ := hc
      simp; exact hh
    · simp only [Option.some.injEq, Prod.mk.injEq] at hc
      obtain ⟨rfl, rfl⟩ := hc
      generalize hq : rnd _ = q
      have hqd : IsDouble q := hq ▸ rnd_isDouble _
      have f := L.atan_faithful q hqd
      have hp : |Real.arctan q| ≤ 2 := by
        rw [abs_le]
        have := Real.neg_pi_div_two_lt_arctan q
        have := Real.arctan_lt_pi_div_two q
        constructor <;> linarith
      have hb := abs_le.mp (Faithful.abs_le f h2 hp)
      simp only [decide_eq_true_eq, decide_eq_false_iff_not, not_lt]
      exact ⟨fun hl => ⟨f.nonpos (by rw [← Real.arctan_zero]; exact Real.arctan_strictMono.monotone hl.le), hb.1⟩,
        fun hl => ⟨f.nonneg (Real.arctan_nonneg.mpr hl), hb.2⟩⟩
  have d0 : IsDouble (0 : ℝ) := isDouble_zero
  have d1 : IsDouble (180 : ℝ) := by exact_mod_cast isDouble_int (n := 180) (by norm_num)
  have d3 : IsDouble (360 : ℝ) := by exact_mod_cast isDouble_int (n := 360) (by norm_num)
  have S := toDegrees_sign L.toLibrary (x := r)
  constructor <;> intro hh
  · simp only [hh, if_true]
    cases neg
    · have := S.1 (key.2 rfl).1 (key.2 rfl).2
      simp only [Bool.false_eq_true, if_false]
      exact ⟨le_rnd d0 (by linarith), Double.rnd_le d1 (by linarith)⟩
    · have := S.2 (key.1 rfl).1 (key.1 rfl).2
      simp only [if_true]
      exact ⟨le_rnd d0 (by linarith), Double.rnd_le d1 (by linarith)⟩
  · simp only [not_lt.mpr hh, if_false]
    cases neg
    · have := S.1 (key.2 rfl).1 (key.2 rfl).2
      simp only [Bool.false_eq_true, if_false]
      exact ⟨le_rnd d1 (by linarith), Double.rnd_le d3 (by linarith)⟩
    · have := S.2 (key.1 rfl).1 (key.1 rfl).2
      simp only [if_true]
      exact ⟨le_rnd d1 (by linarith), Double.rnd_le d3 (by linarith)⟩

/-- **C185** (incidence): the angle between the rays of the sun and the cable is always a number. -/
theorem C185_incidence (L : SunLibrary) (altitude azimuth azimuthCable : ℝ) :
    ∃ a, Double.Sun.incidence L altitude azimuth azimuthCable = some a ∧ 0 ≤ a ∧ a ≤ 181 := by
  unfold Double.Sun.incidence
  have h1 : |L.cos (Double.Sun.toRadians L altitude) *
      L.cos (rnd (Double.Sun.toRadians L azimuth - Double.Sun.toRadians L azimuthCable))| ≤ 1 := by
    rw [abs_mul]
    exact mul_le_one₀ (lib_cos_le L (toRadians_double L _)) (abs_nonneg _) (lib_cos_le L (rnd_isDouble _))
  have h2 := (rnd_near_one h1).1
  have hd := rnd_isDouble (L.cos (Double.Sun.toRadians L altitude) *
      L.cos (rnd (Double.Sun.toRadians L azimuth - Double.Sun.toRadians L azimuthCable)))
  generalize rnd (L.cos _ * _) = t at *
  refine ⟨Double.toDegrees L.toLibrary (L.acos t), ?_, ?_⟩
  · rw [Double.Sun.acos, if_pos (abs_le.mp h2)]; rfl
  · have f := L.acos_faithful t hd h2
    have l : 0 ≤ L.acos t := f.nonneg (Real.arccos_nonneg t)
    have d : IsDouble (101 / 32 : ℝ) := by
      exact ⟨101, -5, by norm_num, by norm_num, by norm_num⟩
    have r : L.acos t ≤ 101 / 32 := f.2.2 _ d ((Real.arccos_le_pi t).trans (by linarith [Real.pi_lt_d2]))
    rw [toDegrees_eq]
    have hf : ((8063664102031872 : ℤ) * (2 : ℝ) ^ (-47 : ℤ)) ≤ 57.3 ∧ 0 ≤ ((8063664102031872 : ℤ) * (2 : ℝ) ^ (-47 : ℤ)) := by norm_num
    generalize ((8063664102031872 : ℤ) * (2 : ℝ) ^ (-47 : ℤ)) = f at *
    have d : IsDouble (181 : ℝ) := by exact_mod_cast isDouble_int (n := 181) (by norm_num)
    exact ⟨rnd_nonneg (by nlinarith), Double.rnd_le d (by nlinarith)⟩

/-- **C185** (symmetry): the same number of hours before and after noon the sun is at exactly the same altitude. -/
theorem C185_noon (L : SunLibrary) (hL : L.Even) (latitude declination : ℝ) (k : Int) :
    Double.Sun.altitude L latitude declination (Verif.Sun.angleHour (12 - k)) =
      Double.Sun.altitude L latitude declination (Verif.Sun.angleHour (12 + k)) := by
  have e : ((Verif.Sun.angleHour (12 - k) : Int) : ℝ) = -((Verif.Sun.angleHour (12 + k) : Int) : ℝ) := by
    unfold Verif.Sun.angleHour; push_cast; ring
  have r : Double.Sun.toRadians L (Verif.Sun.angleHour (12 - k) : Int) =
      -Double.Sun.toRadians L (Verif.Sun.angleHour (12 + k) : Int) := by
    rw [toRadians_eq, toRadians_eq, e, neg_mul, rnd_neg]
  unfold Double.Sun.altitude Double.Sun.altitudeSine
  rw [r, hL _ (toRadians_double L _)]

/-! ### A place and a time at which the altitude is not a number -/

theorem day112 (L : SunLibrary) : Sun.toRadians L (rnd (rnd (((284 + 112 : Int) : ℝ) / 365) * 360)) =
    (7675063424118519 : ℤ) * (2 : ℝ) ^ (-50 : ℤ) := by
  have h1 : rnd (((284 + 112 : Int) : ℝ) / 365) = (4886097129969086 : ℤ) * (2 : ℝ) ^ (-52 : ℤ) :=
    rnd_between _ _ (by norm_num) (by norm_num) (by norm_num) (by norm_num) (by norm_num)
  have h2 : rnd ((4886097129969086 : ℤ) * (2 : ℝ) ^ (-52 : ℤ) * 360) = (6871074089019027 : ℤ) * (2 : ℝ) ^ (-44 : ℤ) :=
    rnd_between _ _ (by norm_num) (by norm_num) (by norm_num) (by norm_num) (by norm_num)
  rw [h1, h2, toRadians_eq]
  exact rnd_between _ _ (by norm_num) (by norm_num) (by norm_num) (by norm_num) (by norm_num)

theorem sin_day112 : rnd (Real.sin ((7675063424118519 : ℤ) * (2 : ℝ) ^ (-50 : ℤ))) =
    (4581700546373018 : ℤ) * (2 : ℝ) ^ (-53 : ℤ) := by
  have p1 := Real.pi_gt_d20
  have p2 := Real.pi_lt_d20
  have near := Real.abs_sin_sub_sin_le ((7675063424118519 : ℤ) * (2 : ℝ) ^ (-50 : ℤ) - 2 * Real.pi)
    (7675063424118519 / 2 ^ 50 - 2 * 3.14159265358979323846)
  have e : (7675063424118519 : ℤ) * (2 : ℝ) ^ (-50 : ℤ) = 7675063424118519 / 2 ^ 50 := by norm_num
  have b : 0.50867094385209839000 < Real.sin (7675063424118519 / 2 ^ 50 - 2 * 3.14159265358979323846) ∧
      Real.sin (7675063424118519 / 2 ^ 50 - 2 * 3.14159265358979323846) < 0.50867094385209839003 :=
    sin_between (by norm_num) (by norm_num) 9 (by norm_num) (by norm_num [Finset.sum_range_succ, Nat.factorial])
      (by norm_num [Finset.sum_range_succ, Nat.factorial])
  rw [Real.sin_sub_two_pi, e, show ∀ a b c : ℝ, a - 2 * b - (a - 2 * c) = 2 * (c - b) by intros; ring] at near
  rw [e]
  generalize Real.sin (7675063424118519 / 2 ^ 50 - 2 * 3.14159265358979323846) = t at *
  generalize Real.sin (7675063424118519 / 2 ^ 50) = s at *
  have far : |2 * (3.14159265358979323846 - Real.pi)| ≤ 2 * 10 ^ (-20 : ℤ) := by
    rw [abs_le]; constructor <;> norm_num at p1 p2 ⊢ <;> linarith
  obtain ⟨n1, n2⟩ := abs_le.mp (near.trans far)
  obtain ⟨b1, b2⟩ := b
  norm_num at n1 n2 b1 b2
  refine rnd_between _ _ (by norm_num) ?_ ?_ ?_ ?_ <;> norm_num <;> linarith

theorem cos_latitude112 : rnd (Real.cos ((7503986691094324 : ℤ) * (2 : ℝ) ^ (-55 : ℤ))) =
    (8812540546448003 : ℤ) * (2 : ℝ) ^ (-53 : ℤ) := by
  have e : (7503986691094324 : ℤ) * (2 : ℝ) ^ (-55 : ℤ) = 7503986691094324 / 2 ^ 55 := by norm_num
  have b : 0.97838854201093312621 < Real.cos (7503986691094324 / 2 ^ 55) ∧ Real.cos (7503986691094324 / 2 ^ 55) < 0.97838854201093312622 :=
    cos_between (by norm_num) (by norm_num) 9 (by norm_num) (by norm_num [Finset.sum_range_succ, Nat.factorial])
      (by norm_num [Finset.sum_range_succ, Nat.factorial])
  rw [e]
  generalize Real.cos (7503986691094324 / 2 ^ 55) = s at *
  obtain ⟨b1, b2⟩ := b
  norm_num at b1 b2
  refine rnd_between _ _ (by norm_num) ?_ ?_ ?_ ?_ <;> norm_num <;> linarith

theorem cos_declination112 : rnd (Real.cos ((7503986906635488 : ℤ) * (2 : ℝ) ^ (-55 : ℤ))) =
    (8812540535305877 : ℤ) * (2 : ℝ) ^ (-53 : ℤ) := by
  have e : (7503986906635488 : ℤ) * (2 : ℝ) ^ (-55 : ℤ) = 7503986906635488 / 2 ^ 55 := by norm_num
  have b : 0.97838854077390864080 < Real.cos (7503986906635488 / 2 ^ 55) ∧ Real.cos (7503986906635488 / 2 ^ 55) < 0.97838854077390864081 :=
    cos_between (by norm_num) (by norm_num) 9 (by norm_num) (by norm_num [Finset.sum_range_succ, Nat.factorial])
      (by norm_num [Finset.sum_range_succ, Nat.factorial])
  rw [e]
  generalize Real.cos (7503986906635488 / 2 ^ 55) = s at *
  obtain ⟨b1, b2⟩ := b
  norm_num at b1 b2
  refine rnd_between _ _ (by norm_num) ?_ ?_ ?_ ?_ <;> norm_num <;> linarith

theorem sin_latitude112 : rnd (Real.sin ((7503986691094324 : ℤ) * (2 : ℝ) ^ (-55 : ℤ))) =
    (7449851039387697 : ℤ) * (2 : ℝ) ^ (-55 : ℤ) := by
  have e : (7503986691094324 : ℤ) * (2 : ℝ) ^ (-55 : ℤ) = 7503986691094324 / 2 ^ 55 := by norm_num
  have b : 0.20677490384889686890 < Real.sin (7503986691094324 / 2 ^ 55) ∧ Real.sin (7503986691094324 / 2 ^ 55) < 0.20677490384889686891 :=
    sin_between (by norm_num) (by norm_num) 9 (by norm_num) (by norm_num [Finset.sum_range_succ, Nat.factorial])
      (by norm_num [Finset.sum_range_succ, Nat.factorial])
  rw [e]
  generalize Real.sin (7503986691094324 / 2 ^ 55) = s at *
  obtain ⟨b1, b2⟩ := b
  norm_num at b1 b2
  refine rnd_between _ _ (by norm_num) ?_ ?_ ?_ ?_ <;> norm_num <;> linarith

theorem sin_declination112 : rnd (Real.sin ((7503986906635488 : ℤ) * (2 : ℝ) ^ (-55 : ℤ))) =
    (7449851250270702 : ℤ) * (2 : ℝ) ^ (-55 : ℤ) := by
  have e : (7503986906635488 : ℤ) * (2 : ℝ) ^ (-55 : ℤ) = 7503986906635488 / 2 ^ 55 := by norm_num
  have b : 0.20677490970207606178 < Real.sin (7503986906635488 / 2 ^ 55) ∧ Real.sin (7503986906635488 / 2 ^ 55) < 0.20677490970207606179 :=
    sin_between (by norm_num) (by norm_num) 9 (by norm_num) (by norm_num [Finset.sum_range_succ, Nat.factorial])
      (by norm_num [Finset.sum_range_succ, Nat.factorial])
  rw [e]
  generalize Real.sin (7503986906635488 / 2 ^ 55) = s at *
  obtain ⟨b1, b2⟩ := b
  norm_num at b1 b2
  refine rnd_between _ _ (by norm_num) ?_ ?_ ?_ ?_ <;> norm_num <;> linarith

/-- **C185** fails where the sun is overhead: on day 112 at noon at the latitude of 11.93342 degrees, which `Validate`
accepts, the sum of the two products is rounded to a number above 1, and the altitude is not a number.  This is with a
library that rounds correctly. -/
theorem C185_zenith_fails : ∃ s : SolarSolver, s.InputsValid ∧ s.latitude = rnd 11.93342 ∧ s.day = 112 ∧ s.hour = 12 ∧
    ∀ L : SunLibrary, (∀ x, L.sin x = rnd (Real.sin x)) → (∀ x, L.cos x = rnd (Real.cos x)) →
      Double.Sun.altitude L s.latitude (Double.Sun.declination L s.day) (Verif.Sun.angleHour s.hour) = none := by
  have hlat : rnd 11.93342 = (6717918233156953 : ℤ) * (2 : ℝ) ^ (-49 : ℤ) :=
    rnd_between _ _ (by norm_num) (by norm_num) (by norm_num) (by norm_num) (by norm_num)
  refine ⟨{ SolarSolver.new with
    latitude := rnd 11.93342, day := 112, hour := 12, azimuthCable := 0, elevation := 0, quality := .clear,
    units := .metric }, ?_, rfl, rfl, rfl, ?_⟩
  · unfold SolarSolver.InputsValid
    simp only [hlat]
    norm_num
    exact ⟨by decide, by decide⟩
  intro L hsin hcos
  have hde : Double.Sun.declination L 112 = (6717918426119438 : ℤ) * (2 : ℝ) ^ (-49 : ℤ) := by
    unfold Double.Sun.declination
    rw [day112, hsin, sin_day112, show rnd 23.46 = (6603402953631990 : ℤ) * (2 : ℝ) ^ (-48 : ℤ) from
      rnd_between _ _ (by norm_num) (by norm_num) (by norm_num) (by norm_num) (by norm_num)]
    exact rnd_between _ _ (by norm_num) (by norm_num) (by norm_num) (by norm_num) (by norm_num)
  have hlr : Double.Sun.toRadians L ((6717918233156953 : ℤ) * (2 : ℝ) ^ (-49 : ℤ)) =
      (7503986691094324 : ℤ) * (2 : ℝ) ^ (-55 : ℤ) := by
    rw [toRadians_eq]
    exact rnd_between _ _ (by norm_num) (by norm_num) (by norm_num) (by norm_num) (by norm_num)
  have hdr : Double.Sun.toRadians L ((6717918426119438 : ℤ) * (2 : ℝ) ^ (-49 : ℤ)) =
      (7503986906635488 : ℤ) * (2 : ℝ) ^ (-55 : ℤ) := by
    rw [toRadians_eq]
    exact rnd_between _ _ (by norm_num) (by norm_num) (by norm_num) (by norm_num) (by norm_num)
  have h0 : Double.Sun.toRadians L ((0 : ℤ) : ℝ) = 0 := by rw [toRadians_eq, Int.cast_zero, zero_mul, rnd_zero]
  have hc0 : L.cos 0 = 1 := by rw [hcos, Real.cos_zero, rnd_of_isDouble isDouble_one]
  have hs : Double.Sun.altitudeSine L ((6717918233156953 : ℤ) * (2 : ℝ) ^ (-49 : ℤ))
      ((6717918426119438 : ℤ) * (2 : ℝ) ^ (-49 : ℤ)) ((0 : ℤ) : ℝ) = (4503599627370497 : ℤ) * (2 : ℝ) ^ (-52 : ℤ) := by
    unfold Double.Sun.altitudeSine
    rw [hlr, hdr, h0, hc0, hsin, hsin, hcos, hcos, cos_latitude112, cos_declination112, sin_latitude112,
      sin_declination112]
    have q1 : rnd ((8812540546448003 : ℤ) * (2 : ℝ) ^ (-53 : ℤ) * ((8812540535305877 : ℤ) * (2 : ℝ) ^ (-53 : ℤ))) =
        (8622088685750166 : ℤ) * (2 : ℝ) ^ (-53 : ℤ) :=
      rnd_between _ _ (by norm_num) (by norm_num) (by norm_num) (by norm_num) (by norm_num)
    have q2 : rnd ((7449851039387697 : ℤ) * (2 : ℝ) ^ (-55 : ℤ) * ((7449851250270702 : ℤ) * (2 : ℝ) ^ (-55 : ℤ))) =
        (6161769103853234 : ℤ) * (2 : ℝ) ^ (-57 : ℤ) :=
      rnd_between _ _ (by norm_num) (by norm_num) (by norm_num) (by norm_num) (by norm_num)
    simp only [q1, q2, mul_one]
    rw [← q1, rnd_rnd, q1]
    exact rnd_between _ _ (by norm_num) (by norm_num) (by norm_num) (by norm_num) (by norm_num)
  show Double.Sun.altitude L (rnd 11.93342) (Double.Sun.declination L 112) ((Verif.Sun.angleHour 12 : ℤ) : ℝ) = none
  rw [hde, hlat, show Verif.Sun.angleHour 12 = 0 from rfl]
  unfold Double.Sun.altitude Double.Sun.asin
  rw [hs, if_neg (by norm_num)]
  rfl

/-! ### Examples -/

/-- The assumption of C185 (symmetry) can be met. -/
example : roundedSunLibrary.Even := fun x _ => by show rnd (Real.cos (-x)) = rnd (Real.cos x); rw [Real.cos_neg]

theorem radians60 (L : SunLibrary) : Double.Sun.toRadians L 60 = (4716158501352289 : ℤ) * (2 : ℝ) ^ (-52 : ℤ) := by
  rw [toRadians_eq]
  exact rnd_between _ _ (by norm_num) (by norm_num) (by norm_num) (by norm_num) (by norm_num)

/-- Four hours after noon on the equator, with the sun over the equator, the assumption of C185 (altitude) is met. -/
example : |Real.cos (Double.Sun.toRadians roundedSunLibrary 0) *
      Real.cos (Double.Sun.toRadians roundedSunLibrary 0) * Real.cos (Double.Sun.toRadians roundedSunLibrary 60) +
    Real.sin (Double.Sun.toRadians roundedSunLibrary 0) * Real.sin (Double.Sun.toRadians roundedSunLibrary 0)| ≤
      1 - 2 ^ (-48 : ℤ) := by
  have h0 : Double.Sun.toRadians roundedSunLibrary 0 = 0 := by rw [toRadians_eq, zero_mul, rnd_zero]
  rw [h0, radians60, Real.cos_zero, Real.sin_zero, mul_one, one_mul, mul_zero, add_zero]
  have e : (4716158501352289 : ℤ) * (2 : ℝ) ^ (-52 : ℤ) = 4716158501352289 / 2 ^ 52 := by norm_num
  rw [e]
  have hp := Real.pi_gt_d2
  have hp' := Real.pi_lt_d2
  have hx : (1 : ℝ) ≤ 4716158501352289 / 2 ^ 52 ∧ (4716158501352289 / 2 ^ 52 : ℝ) ≤ 1.1 := by norm_num
  generalize (4716158501352289 / 2 ^ 52 : ℝ) = x at *
  have h1 : 0 ≤ Real.cos x := Real.cos_nonneg_of_mem_Icc ⟨by linarith [hx.1], by linarith [hx.2]⟩
  have h2 := Real.cos_le_cos_of_nonneg_of_le_pi zero_le_one (by linarith [hx.2]) hx.1
  have h3 := Real.cos_one_le
  rw [abs_of_nonneg h1]
  have h4 : (5 / 9 : ℝ) ≤ 1 - 2 ^ (-48 : ℤ) := by norm_num
  exact (h2.trans h3).trans h4

/-- At the same time the azimuth of the sun is a number. -/
example : ∃ a, Double.Sun.azimuth roundedSunLibrary 0 20 60 = some a := by
  have hp := Real.pi_gt_d2
  have hp' := Real.pi_lt_d2
  have hx : (1 : ℝ) ≤ (4716158501352289 : ℤ) * (2 : ℝ) ^ (-52 : ℤ) ∧ (4716158501352289 : ℤ) * (2 : ℝ) ^ (-52 : ℤ) ≤ (1.1 : ℝ) := by
    norm_num
  have hs : 0 < roundedSunLibrary.sin (Double.Sun.toRadians roundedSunLibrary (60 : ℤ)) := by
    show 0 < rnd (Real.sin _)
    rw [Int.cast_ofNat, radians60]
    generalize ((4716158501352289 : ℤ) * (2 : ℝ) ^ (-52 : ℤ)) = x at *
    have h := Real.mul_le_sin (x := x) (by linarith [hx.1]) (by linarith [hx.2])
    have h2 : (1 / 2 : ℝ) ≤ 2 / Real.pi * x := by
      rw [div_mul_eq_mul_div, le_div_iff₀ (by positivity)]
      nlinarith [hx.1]
    have hd : IsDouble (1 / 2 : ℝ) := isDouble_half
    have := le_rnd hd (h2.trans h)
    linarith
  have hne : (Double.Sun.azimuth roundedSunLibrary 0 20 60).isSome := by
    unfold Double.Sun.azimuth Double.Sun.chi
    simp only [Option.isSome_map]
    split_ifs <;> rfl
  exact Option.isSome_iff_exists.mp hne

end Verif.Props
