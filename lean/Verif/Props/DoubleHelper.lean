import Verif.DoubleBaseLemmas
import Verif.Props.Helper
import Verif.Props.DoubleUnits

/-! # Interpolation and rounding in `double` arithmetic (C174, C175) -/

set_option linter.unusedSectionVars false

namespace Verif.Props

open Verif.Double Verif.Helper

/-! ## C174 -/

/-- **C174** (at the first point): interpolation at the first point gives its value, without any error. -/
theorem C174_start {x1 y1 x2 y2 : ℝ} (hy : IsDouble y1) : Double.linearY x1 y1 x2 y2 x1 = y1 := by
  unfold Double.linearY
  rw [sub_self, rnd_zero, zero_mul, rnd_zero, add_zero, rnd_of_isDouble hy]

theorem slope_nonneg {a b c d : ℝ} (h : a ≤ b) (h' : c ≤ d) : 0 ≤ rnd (rnd (b - a) / rnd (d - c)) :=
  rnd_nonneg (div_nonneg (rnd_nonneg (sub_nonneg.mpr h)) (rnd_nonneg (sub_nonneg.mpr h')))

/-- **C174** (order): rounding does not disturb the order of interpolated values. -/
theorem C174_order {x1 y1 x2 y2 x x' : ℝ} (hx : x1 ≤ x2) (h : x ≤ x') :
    (y1 ≤ y2 → Double.linearY x1 y1 x2 y2 x ≤ Double.linearY x1 y1 x2 y2 x') ∧
    (y2 ≤ y1 → Double.linearY x1 y1 x2 y2 x' ≤ Double.linearY x1 y1 x2 y2 x) := by
  have hd : rnd (x - x1) ≤ rnd (x' - x1) := rnd_mono (by linarith)
  unfold Double.linearY
  constructor
  · intro hy
    have hs := slope_nonneg hy hx
    exact rnd_mono (by linarith [rnd_mono (mul_le_mul_of_nonneg_right hd hs)])
  · intro hy
    have hs : rnd (rnd (y2 - y1) / rnd (x2 - x1)) ≤ 0 :=
      rnd_nonpos (div_nonpos_of_nonpos_of_nonneg (rnd_nonpos (by linarith)) (rnd_nonneg (by linarith)))
    exact rnd_mono (by linarith [rnd_mono (mul_le_mul_of_nonpos_right hd hs)])

/-- A product of two disturbed factors. -/
theorem product_error {d D q S u η : ℝ} (hu : 0 ≤ u) (hu' : u ≤ 1 / 1000) (hη : 0 ≤ η) (hd : |d - D| ≤ u * |D|)
    (hq : |q - S| ≤ 6 * u * |S| + η) : |d * q - D * S| ≤ 8 * u * |D * S| + 2 * |D| * η := by
  have hD := abs_nonneg D
  have hS := abs_nonneg S
  have e : d * q - D * S = (d - D) * (q - S) + (d - D) * S + D * (q - S) := by ring
  have h1 : |d * q - D * S| ≤ |d - D| * |q - S| + |d - D| * |S| + |D| * |q - S| := by
    rw [e]
    refine (abs_add_le _ _).trans ?_
    rw [abs_mul D]
    refine add_le_add ((abs_add_le _ _).trans ?_) le_rfl
    rw [abs_mul, abs_mul]
  have h2 : |d - D| * |q - S| ≤ (u * |D|) * (6 * u * |S| + η) :=
    mul_le_mul hd hq (abs_nonneg _) (by positivity)
  have h3 : |d - D| * |S| ≤ u * |D| * |S| := mul_le_mul_of_nonneg_right hd hS
  have h4 : |D| * |q - S| ≤ |D| * (6 * u * |S| + η) := mul_le_mul_of_nonneg_left hq hD
  have h5 : u * (|D| * |S| * u) ≤ 1 / 1000 * (|D| * |S| * u) := mul_le_mul_of_nonneg_right hu' (by positivity)
  have h6 : u * (|D| * η) ≤ 1 / 1000 * (|D| * η) := mul_le_mul_of_nonneg_right hu' (by positivity)
  rw [abs_mul]
  have h7 : 0 ≤ |D| * |S| * u := by positivity
  have h8 : 0 ≤ |D| * η := by positivity
  nlinarith

/-- The error of adding a rounded product. -/
theorem sum_error {y p P D w r u η : ℝ} (hu : 0 ≤ u) (hu' : u ≤ 1 / 1000) (hη : 0 ≤ η)
    (hw : |w - P| ≤ 8 * u * |P| + 2 * |D| * η) (hp : |p - w| ≤ u * |w| + η) (hr : |r - (y + p)| ≤ u * |y + p|) :
    |r - (y + P)| ≤ 16 * u * (|y| + |P|) + 4 * η * (|D| + 1) := by
  have hD := abs_nonneg D
  have hP := abs_nonneg P
  have hy := abs_nonneg y
  have a1 : |w| ≤ |P| + (8 * u * |P| + 2 * |D| * η) := by
    have := abs_sub_abs_le_abs_sub w P; linarith
  have hDη : 0 ≤ |D| * η := by positivity
  have huP : 0 ≤ u * |P| := by positivity
  have b1 : u * (u * |P|) ≤ 1 / 1000 * (u * |P|) := mul_le_mul_of_nonneg_right hu' huP
  have b2 : u * (|D| * η) ≤ 1 / 1000 * (|D| * η) := mul_le_mul_of_nonneg_right hu' hDη
  have b3 : u * η ≤ 1 / 1000 * η := mul_le_mul_of_nonneg_right hu' hη
  have a2 : u * |w| ≤ u * (|P| + (8 * u * |P| + 2 * |D| * η)) := mul_le_mul_of_nonneg_left a1 hu
  have a3 : |p - P| ≤ 10 * (u * |P|) + 3 * (|D| * η) + η := by
    have := abs_sub_le p w P
    nlinarith
  have a4 : |y + p| ≤ |y| + |P| + |p - P| := by
    have e : y + p = y + P + (p - P) := by ring
    have h1 := abs_add_le (y + P) (p - P)
    have h2 := abs_add_le y P
    rw [e]; linarith
  have a5 : u * |y + p| ≤ u * (|y| + |P| + (10 * (u * |P|) + 3 * (|D| * η) + η)) :=
    mul_le_mul_of_nonneg_left (by linarith) hu
  have a6 : |r - (y + P)| ≤ |r - (y + p)| + |p - P| := by
    have := abs_sub_le r (y + p) (y + P)
    rwa [show y + p - (y + P) = p - P by ring] at this
  have huy : 0 ≤ u * |y| := by positivity
  nlinarith

/-- **C174** (accuracy): the interpolated value is off by a few units in the 49th binary digit of the larger of the two
terms that are added; for the very smallest numbers there is an error that no size can excuse, far below any physical
quantity. -/
theorem C174_accuracy {x1 y1 x2 y2 x : ℝ} (h1 : IsDouble x1) (h2 : IsDouble y1) (h3 : IsDouble x2) (h4 : IsDouble y2)
    (h5 : IsDouble x) :
    |Double.linearY x1 y1 x2 y2 x - (y1 + (x - x1) * ((y2 - y1) / (x2 - x1)))| ≤
      2 ^ (-49 : ℤ) * (|y1| + |(x - x1) * ((y2 - y1) / (x2 - x1))|) + 2 ^ (-1073 : ℤ) * (|x - x1| + 1) := by
  have hu := u_pos
  have hu' : u ≤ 1 / 1000 := by have := u_small; linarith
  have hη : (0 : ℝ) ≤ 2 ^ (-1075 : ℤ) := (two_zpow_pos _).le
  have hq : |rnd (rnd (y2 - y1) / rnd (x2 - x1)) - (y2 - y1) / (x2 - x1)| ≤
      6 * u * |(y2 - y1) / (x2 - x1)| + 2 ^ (-1075 : ℤ) := by
    have hc : Close 2 (rnd (y2 - y1) / rnd (x2 - x1)) ((y2 - y1) / (x2 - x1)) :=
      (close_of_error (rnd_sub_relative h4 h2)).div (close_of_error (rnd_sub_relative h3 h1))
    generalize rnd (y2 - y1) / rnd (x2 - x1) = t at *
    generalize (y2 - y1) / (x2 - x1) = S at *
    have a := hc.error (by norm_num)
    push_cast at a
    have b := rnd_error_le t
    have c := abs_sub_abs_le_abs_sub t S
    have d := abs_sub_le (rnd t) t S
    have hS : 0 ≤ u * |S| := by positivity
    have e : u * (u * |S|) ≤ 1 / 1000 * (u * |S|) := mul_le_mul_of_nonneg_right hu' hS
    have f : u * |t| ≤ u * (|S| + 2 * 2 * u * |S|) := mul_le_mul_of_nonneg_left (by linarith) hu.le
    nlinarith
  have hw := product_error hu.le hu' hη (rnd_sub_relative h5 h1) hq
  have hr := sum_error (y := y1) hu.le hu' hη hw (rnd_error_le _) (rnd_add_relative h2 (rnd_isDouble _))
  refine hr.trans (le_of_eq ?_)
  have e1 : (2 : ℝ) ^ (-49 : ℤ) = 16 * u := by unfold u; norm_num
  have e2 : (2 : ℝ) ^ (-1073 : ℤ) = 4 * 2 ^ (-1075 : ℤ) := by
    rw [show (-1073 : ℤ) = 2 + -1075 by norm_num, zpow_add₀ (by norm_num)]; norm_num
  rw [e1, e2]

/-- Interpolating a tension between two temperatures. -/
example : IsDouble 20 ∧ IsDouble 5000 ∧ IsDouble 50 ∧ IsDouble 4000 ∧ IsDouble 35 ∧
    (5000 : ℝ) + (35 - 20) * ((4000 - 5000) / (50 - 20)) = 4500 := by
  refine ⟨?_, ?_, ?_, ?_, ?_, by norm_num⟩
  · exact_mod_cast isDouble_int (n := 20) (by norm_num)
  · exact_mod_cast isDouble_int (n := 5000) (by norm_num)
  · exact_mod_cast isDouble_int (n := 50) (by norm_num)
  · exact_mod_cast isDouble_int (n := 4000) (by norm_num)
  · exact_mod_cast isDouble_int (n := 35) (by norm_num)

/-- **C174** (between the points, the part that holds): between the two points the value is on the right side of the
first value, and it passes the second by a few units in the 49th binary digit at most.
Missing from the full claim: that it does not pass the second value at all, see `C174_end_fails`. -/
theorem C174_between_partial {x1 y1 x2 y2 x : ℝ} (h1 : IsDouble x1) (h2 : IsDouble y1) (h3 : IsDouble x2)
    (h4 : IsDouble y2) (hx : x1 < x2) (ha : x1 ≤ x) (hb : x ≤ x2) :
    (y1 ≤ y2 → y1 ≤ Double.linearY x1 y1 x2 y2 x ∧ Double.linearY x1 y1 x2 y2 x ≤
      y2 + 2 ^ (-49 : ℤ) * (|y1| + |y2 - y1|) + 2 ^ (-1073 : ℤ) * (|x2 - x1| + 1)) ∧
    (y2 ≤ y1 → Double.linearY x1 y1 x2 y2 x ≤ y1 ∧
      y2 - 2 ^ (-49 : ℤ) * (|y1| + |y2 - y1|) - 2 ^ (-1073 : ℤ) * (|x2 - x1| + 1) ≤
      Double.linearY x1 y1 x2 y2 x) := by
  have hs := C174_start (x1 := x1) (x2 := x2) (y2 := y2) h2
  have he := C174_accuracy h1 h2 h3 h4 h3
  have e : (x2 - x1) * ((y2 - y1) / (x2 - x1)) = y2 - y1 := mul_div_cancel₀ _ (sub_pos.mpr hx).ne'
  rw [e, show y1 + (y2 - y1) = y2 by ring, abs_le] at he
  refine ⟨fun hy => ?_, fun hy => ?_⟩
  · have a := (C174_order (y1 := y1) (y2 := y2) hx.le ha).1 hy
    have b := (C174_order (y1 := y1) (y2 := y2) hx.le hb).1 hy
    rw [hs] at a
    exact ⟨a, by linarith⟩
  · have a := (C174_order (y1 := y1) (y2 := y2) hx.le ha).2 hy
    have b := (C174_order (y1 := y1) (y2 := y2) hx.le hb).2 hy
    rw [hs] at a
    exact ⟨a, by linarith⟩

/-- **C174** (the second point can be passed): on the line through (0, 0) and (7, 29) the value at 7 is
29.000000000000004. -/
theorem C174_end_fails : Double.linearY 0 0 7 29 7 = 29 + 2 ^ (-48 : ℤ) := by
  have i7 : IsDouble 7 := by exact_mod_cast isDouble_int (n := 7) (by norm_num)
  have i29 : IsDouble 29 := by exact_mod_cast isDouble_int (n := 29) (by norm_num)
  have h1 : rnd (29 / 7) = (4664442471205157 : ℤ) * 2 ^ (-50 : ℤ) := by
    apply rnd_eq <;> norm_num [abs_of_pos, abs_lt]
  have h2 : rnd (7 * ((4664442471205157 : ℤ) * 2 ^ (-50 : ℤ))) = (8162774324609025 : ℤ) * 2 ^ (-48 : ℤ) := by
    apply rnd_eq <;> norm_num [abs_of_pos, abs_lt]
  unfold Double.linearY
  rw [sub_zero, sub_zero, rnd_of_isDouble i7, rnd_of_isDouble i29, h1, h2, zero_add, ← h2, rnd_rnd, h2]
  norm_num

/-! ## C175 -/

theorem roundAway_mono {a b : ℝ} (h : a ≤ b) : roundAway a ≤ roundAway b := by
  have := C39_round_mono a b 0 h
  unfold Helper.roundTo at this
  rw [zpow_zero, mul_one, mul_one, div_one, div_one] at this
  exact_mod_cast this

theorem roundAway_eq {z : ℝ} {n : ℤ} (h : |z - n| < 1 / 2) : roundAway z = n := by
  have h1 := roundAway_abs_sub z
  have h2 : |(roundAway z : ℝ) - n| < 1 := by
    have := abs_sub_le (roundAway z : ℝ) z n
    linarith
  have h3 : |roundAway z - n| < 1 := by exact_mod_cast h2
  have := Int.abs_lt_one_iff.mp h3
  omega

/-- Powers of ten up to the 22nd are exact. -/
theorem isDouble_ten_pow {p : ℤ} (h0 : 0 ≤ p) (h1 : p ≤ 22) : IsDouble ((10 : ℝ) ^ p) := by
  obtain ⟨n, rfl⟩ := Int.eq_ofNat_of_zero_le h0
  refine ⟨5 ^ n, n, ?_, by omega, ?_⟩
  · rw [abs_of_pos (by positivity)]
    have : (5 : ℤ) ^ n ≤ 5 ^ 22 := pow_le_pow_right₀ (by norm_num) (by omega)
    exact this.trans (by norm_num)
  · push_cast
    rw [zpow_natCast, zpow_natCast, ← mul_pow]; norm_num

theorem pow_ten (L : Library) {p : ℤ} (h0 : 0 ≤ p) (h1 : p ≤ 22) : L.pow 10 p = 10 ^ p := by
  have i10 : IsDouble 10 := by exact_mod_cast isDouble_int (n := 10) (by norm_num)
  exact (L.pow_faithful 10 p i10 (.inr h0)).exact (isDouble_ten_pow h0 h1)

theorem ten_pow_int {p : ℤ} (h0 : 0 ≤ p) : ∃ n : ℤ, (10 : ℝ) ^ p = n ∧ 1 ≤ n := by
  obtain ⟨n, rfl⟩ := Int.eq_ofNat_of_zero_le h0
  exact ⟨10 ^ n, by push_cast; rw [zpow_natCast], one_le_pow₀ (by norm_num)⟩

theorem ten_pow_bounds {p : ℤ} (h0 : 0 ≤ p) (h1 : p ≤ 22) : (1 : ℝ) ≤ 10 ^ p ∧ (10 : ℝ) ^ p ≤ 10 ^ 22 := by
  constructor
  · exact one_le_zpow₀ (by norm_num) h0
  · have : (10 : ℝ) ^ p ≤ 10 ^ (22 : ℤ) := zpow_le_zpow_right₀ (by norm_num) h1
    exact_mod_cast this

theorem scaled_relative {x : ℝ} (hx : IsDouble x) {p : ℤ} (h0 : 0 ≤ p) :
    |rnd (x * 10 ^ p) - x * 10 ^ p| ≤ u * |x * 10 ^ p| := by
  obtain ⟨n, hn, -⟩ := ten_pow_int h0
  obtain ⟨m, hm⟩ := hx.multiple
  refine rnd_relative_multiple ⟨m * n, ?_⟩
  rw [hn, hm]; push_cast; ring

/-- **C175** (decimals): the result is the `double` nearest to a number with the decimals asked for, and that number is
at most half a unit of its last decimal from the argument, up to the rounding of one product. -/
theorem C175_decimals (L : Library) {x : ℝ} (hx : IsDouble x) {p : ℤ} (h0 : 0 ≤ p) (h1 : p ≤ 22) :
    ∃ n : ℤ, Double.roundTo L x p = rnd (n / 10 ^ p) ∧
      |n / 10 ^ p - x| ≤ 1 / 2 / 10 ^ p + 2 ^ (-53 : ℤ) * |x| := by
  have hp : (0 : ℝ) < 10 ^ p := by positivity
  refine ⟨roundAway (rnd (x * 10 ^ p)), ?_, ?_⟩
  · unfold Double.roundTo; rw [pow_ten L h0 h1]
  · have a := roundAway_abs_sub (rnd (x * 10 ^ p))
    have b := scaled_relative hx h0
    generalize (roundAway (rnd (x * 10 ^ p)) : ℝ) = n at *
    have c := abs_sub_le n (rnd (x * 10 ^ p)) (x * 10 ^ p)
    rw [show n / 10 ^ p - x = (n - x * 10 ^ p) / 10 ^ p by field_simp, abs_div, abs_of_pos hp, div_le_iff₀ hp, add_mul,
      div_mul_cancel₀ _ hp.ne']
    rw [abs_mul, abs_of_pos hp] at b
    change _ ≤ 1 / 2 + u * |x| * 10 ^ p
    linarith

/-- **C175** (error): a number is moved by half a unit of the last decimal at most, up to a few units in the 51st binary
digit. -/
theorem C175_error_partial (L : Library) {x : ℝ} (hx : IsDouble x) {p : ℤ} (h0 : 0 ≤ p) (h1 : p ≤ 22) :
    |Double.roundTo L x p - x| ≤ 1 / 2 / 10 ^ p + 2 ^ (-51 : ℤ) * (|x| + 1 / 10 ^ p) := by
  obtain ⟨n, hn, h⟩ := C175_decimals L hx h0 h1
  have hb := ten_pow_bounds h0 h1
  have hu := u_pos
  have hu' := u_small
  rw [hn]
  have e1 : (2 : ℝ) ^ (-51 : ℤ) = 4 * u := by unfold u; norm_num
  have e2 : (2 : ℝ) ^ (-53 : ℤ) = u := rfl
  rw [e2] at h
  have hη : (2 : ℝ) ^ (-1075 : ℤ) ≤ u * (1 / 10 ^ p) := by
    have h2 : (1 : ℝ) / 10 ^ 22 ≤ 1 / 10 ^ p := one_div_le_one_div_of_le (by linarith) hb.2
    refine le_trans ?_ (mul_le_mul_of_nonneg_left h2 hu.le)
    have h3 : (2 : ℝ) ^ (-1075 : ℤ) ≤ 2 ^ (-150 : ℤ) := two_zpow_le (by norm_num)
    refine h3.trans ?_
    unfold u; norm_num
  have a := rnd_error_le (n / 10 ^ p : ℝ)
  have hg : (0 : ℝ) < 1 / 10 ^ p := by positivity
  have e3 : (1 : ℝ) / 2 / 10 ^ p = 1 / 2 * (1 / 10 ^ p) := by ring
  rw [e1, e3]
  rw [e3] at h
  generalize (n : ℝ) / 10 ^ p = m at *
  generalize (1 : ℝ) / 10 ^ p = g at *
  have b := abs_sub_le (rnd m) m x
  have c := abs_sub_abs_le_abs_sub m x
  have hx0 := abs_nonneg x
  have d : u * |m| ≤ u * (|x| + (1 / 2 * g + u * |x|)) := mul_le_mul_of_nonneg_left (by linarith) hu.le
  have f : u * (u * |x|) ≤ 1 * (u * |x|) := mul_le_mul_of_nonneg_right (by linarith) (by positivity)
  have k : 0 < u * g := by positivity
  nlinarith

/-- **C175** (order): rounding to decimals does not disturb the order. -/
theorem C175_order (L : Library) {x y : ℝ} (h : x ≤ y) {p : ℤ} (h0 : 0 ≤ p) (h1 : p ≤ 22) :
    Double.roundTo L x p ≤ Double.roundTo L y p := by
  have hp : (0 : ℝ) < 10 ^ p := by positivity
  unfold Double.roundTo
  rw [pow_ten L h0 h1]
  refine rnd_mono ((div_le_div_iff_of_pos_right hp).mpr ?_)
  exact_mod_cast roundAway_mono (rnd_mono (mul_le_mul_of_nonneg_right h hp.le))

/-- **C175** (decimals are kept): a number written with the decimals asked for, and with at most fifteen digits, is not
changed. -/
theorem C175_keeps (L : Library) {n p : ℤ} (hn : |n| ≤ 2 ^ 50 + 1) (h0 : 0 ≤ p) (h1 : p ≤ 22) :
    Double.roundTo L (rnd (n / 10 ^ p)) p = rnd (n / 10 ^ p) := by
  have hp : (0 : ℝ) < 10 ^ p := by positivity
  have hb := ten_pow_bounds h0 h1
  have hu := u_pos
  have hn' : |(n : ℝ)| ≤ 2 ^ 50 + 1 := by exact_mod_cast hn
  have hi : IsDouble (n : ℝ) := isDouble_int (hn.trans (by norm_num))
  unfold Double.roundTo
  rw [pow_ten L h0 h1]
  suffices h : roundAway (rnd (rnd (n / 10 ^ p) * 10 ^ p)) = n by rw [h]
  apply roundAway_eq
  have a := rnd_error_le (n / 10 ^ p : ℝ)
  generalize hr : rnd (n / 10 ^ p : ℝ) = r at *
  have b : |r * 10 ^ p - n| ≤ u * |(n : ℝ)| + 2 ^ (-1075 : ℤ) * 10 ^ p := by
    have e : r * 10 ^ p - n = (r - n / 10 ^ p) * 10 ^ p := by field_simp
    have e' : |(n : ℝ)| = |(n / 10 ^ p : ℝ)| * 10 ^ p := by rw [abs_div, abs_of_pos hp]; field_simp
    rw [e, abs_mul, abs_of_pos hp, e', ← mul_assoc, ← add_mul]
    exact mul_le_mul_of_nonneg_right a hp.le
  have c := rnd_nearest (r * 10 ^ p) hi
  have d := abs_sub_le (rnd (r * 10 ^ p)) (r * 10 ^ p) n
  rw [abs_sub_comm (n : ℝ)] at c
  have f : u * |(n : ℝ)| ≤ u * (2 ^ 50 + 1) := mul_le_mul_of_nonneg_left hn' hu.le
  have g : u * (2 ^ 50 + 1) ≤ 1 / 7 := by unfold u; norm_num
  have k : (2 : ℝ) ^ (-1075 : ℤ) * 10 ^ p ≤ 1 / 100 := by
    have h3 : (2 : ℝ) ^ (-1075 : ℤ) ≤ 2 ^ (-150 : ℤ) := two_zpow_le (by norm_num)
    refine (mul_le_mul h3 hb.2 hp.le (two_zpow_pos _).le).trans ?_
    norm_num
  linarith

/-- **C175** (again): rounding a second time changes nothing, for numbers of up to fifteen digits. -/
theorem C175_again (L : Library) {x : ℝ} (hx : IsDouble x) {p : ℤ} (h0 : 0 ≤ p) (h1 : p ≤ 22)
    (hs : |x| * 10 ^ p ≤ 2 ^ 50) : Double.roundTo L (Double.roundTo L x p) p = Double.roundTo L x p := by
  obtain ⟨n, hn, h⟩ := C175_decimals L hx h0 h1
  have hp : (0 : ℝ) < 10 ^ p := by positivity
  rw [hn]
  refine C175_keeps L ?_ h0 h1
  have a := abs_sub_abs_le_abs_sub (n / 10 ^ p : ℝ) x
  have b : |(n : ℝ)| ≤ |x| * 10 ^ p + (1 / 2 + u * (|x| * 10 ^ p)) := by
    have e' : |(n : ℝ)| = |(n / 10 ^ p : ℝ)| * 10 ^ p := by rw [abs_div, abs_of_pos hp]; field_simp
    have h2 : |(n / 10 ^ p : ℝ)| ≤ |x| + (1 / 2 / 10 ^ p + u * |x|) := by
      have : (2 : ℝ) ^ (-53 : ℤ) = u := rfl
      rw [this] at h; linarith
    rw [e']
    refine (mul_le_mul_of_nonneg_right h2 hp.le).trans (le_of_eq ?_)
    field_simp
  have c : u * (|x| * 10 ^ p) ≤ u * 2 ^ 50 := mul_le_mul_of_nonneg_left hs u_pos.le
  have d : u * 2 ^ 50 = 1 / 8 := by unfold u; norm_num
  have f : |(n : ℝ)| ≤ 2 ^ 50 + 1 := by linarith
  exact_mod_cast f

/-- A tension to one decimal. -/
example : IsDouble 1234.5625 ∧ |(1234.5625 : ℝ)| * 10 ^ (1 : ℤ) ≤ 2 ^ 50 ∧
    Double.roundTo roundedLibrary (rnd (12346 / 10 ^ (1 : ℤ))) 1 = rnd (12346 / 10 ^ (1 : ℤ)) := by
  refine ⟨⟨19753, -4, by norm_num, by norm_num, by norm_num⟩, by norm_num [abs_of_pos], ?_⟩
  have := C175_keeps roundedLibrary (n := 12346) (p := 1) (by norm_num) (by norm_num) (by norm_num)
  simpa only [Int.cast_ofNat] using this

/-- **C175** (half a unit is not kept): 2.675, which a `double` holds as a number slightly less than that, is rounded
to 2.68 and not to the nearer 2.67, whatever the library. -/
theorem C175_half_fails (L : Library) :
    rnd 2.675 < 2.675 ∧ Double.roundTo L (rnd 2.675) 2 = rnd 2.68 ∧
      1 / 2 / 10 ^ (2 : ℤ) < |Double.roundTo L (rnd 2.675) 2 - rnd 2.675| := by
  have h1 : rnd 2.675 = (6023564501608038 : ℤ) * 2 ^ (-51 : ℤ) := by
    apply rnd_eq <;> norm_num [abs_of_pos, abs_lt]
  have h2 : rnd ((6023564501608038 : ℤ) * 2 ^ (-51 : ℤ) * 100) = (4705909766881280 : ℤ) * 2 ^ (-44 : ℤ) := by
    apply rnd_eq <;> norm_num [abs_of_pos, abs_lt]
  have h3 : roundAway ((4705909766881280 : ℤ) * 2 ^ (-44 : ℤ)) = 268 := by
    have : ⌊((4705909766881280 : ℤ) * 2 ^ (-44 : ℤ) : ℝ) + 1 / 2⌋ = 268 := by rw [Int.floor_eq_iff]; norm_num
    unfold roundAway
    rw [if_pos (by norm_num)]; exact this
  have h4 : rnd 2.68 = (6034823500676465 : ℤ) * 2 ^ (-51 : ℤ) := by
    apply rnd_eq <;> norm_num [abs_of_pos, abs_lt]
  have h5 : Double.roundTo L (rnd 2.675) 2 = rnd 2.68 := by
    have e : (10 : ℝ) ^ (2 : ℤ) = 100 := by norm_num
    unfold Double.roundTo
    rw [pow_ten L (by norm_num) (by norm_num), e, h1, h2, h3]
    norm_num
  refine ⟨by rw [h1]; norm_num, h5, ?_⟩
  rw [h5, h1, h4]
  norm_num [abs_of_pos]

end Verif.Props
