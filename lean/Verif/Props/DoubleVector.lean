import Verif.DoubleBaseLemmas
import Verif.VectorLemmas
import Verif.Props.DoubleUnits
import Mathlib.Analysis.SpecialFunctions.Trigonometric.ArctanDeriv
import Mathlib.Analysis.Calculus.MeanValue

/-! # Vectors in `double` arithmetic (C177, C178) -/

set_option linter.unusedSectionVars false

namespace Verif.Props

open Verif.Double Verif.Units

/-! ## C177: lengths -/

theorem Close.add_nonneg' {k : ℕ} {a b c d : ℝ} (h : Close k a b) (h' : Close k c d) (hb : 0 ≤ b) (hd : 0 ≤ d) :
    Close k (a + c) (b + d) := by
  obtain ⟨t, rfl, h1, h2⟩ := h
  obtain ⟨s, rfl, h3, h4⟩ := h'
  have pk := pow_pos one_sub_u_pos k
  rcases (add_nonneg hb hd).eq_or_lt with h0 | h0
  · have e1 : b = 0 := by linarith
    have e2 : d = 0 := by linarith
    exact ⟨1, by rw [e1, e2]; simp, by simpa using pow_le_one₀ one_sub_u_pos.le one_sub_u_le,
      by simpa using pow_le_one₀ one_sub_u_pos.le one_sub_u_le⟩
  · refine ⟨(b * t + d * s) / (b + d), by field_simp, ?_, ?_⟩
    · rw [le_div_iff₀ h0]
      nlinarith [mul_le_mul_of_nonneg_left h1 hb, mul_le_mul_of_nonneg_left h3 hd]
    · rw [div_mul_eq_mul_div, div_le_one h0]
      nlinarith [mul_le_mul_of_nonneg_left h2 hb, mul_le_mul_of_nonneg_left h4 hd]

theorem close_sqrt {k : ℕ} {a b : ℝ} (h : Close k a b) (hb : 0 ≤ b) : Close k (√a) (√b) := by
  obtain ⟨t, rfl, h1, h2⟩ := h
  have pk := pow_pos one_sub_u_pos k
  have pk1 : (1 - u) ^ k ≤ 1 := pow_le_one₀ one_sub_u_pos.le one_sub_u_le
  have t0 : 0 < t := pk.trans_le h1
  refine ⟨√t, Real.sqrt_mul hb t, ?_, ?_⟩
  · refine Real.le_sqrt_of_sq_le (le_trans ?_ h1)
    nlinarith
  · rw [← Real.sqrt_sq pk.le, ← Real.sqrt_mul t0.le, Real.sqrt_le_one]
    nlinarith

/-- A component: zero, or of a size whose square is not among the smallest numbers. -/
def Usual (x : ℝ) : Prop := IsDouble x ∧ (x = 0 ∨ 2 ^ (-500 : ℤ) ≤ |x|)

theorem square_close (L : Library) {x : ℝ} (h : Usual x) : Close 3 (L.pow x 2) (x ^ 2) := by
  have hf := L.pow_faithful x 2 h.1 (.inr (by norm_num))
  have e : x ^ (2 : ℤ) = x ^ 2 := by norm_cast
  rw [e] at hf
  rcases h.2 with rfl | hx
  · rw [zero_pow (by norm_num)] at hf ⊢
    rw [hf.exact isDouble_zero]
    exact (Close.refl 0).mono (by norm_num)
  · refine hf.close ?_
    rw [abs_pow]
    calc (2 : ℝ) ^ (-1022 : ℤ) ≤ 2 ^ (-1000 : ℤ) := two_zpow_le (by norm_num)
      _ = (2 ^ (-500 : ℤ)) ^ 2 := by rw [← zpow_natCast, ← zpow_mul]; norm_num
      _ ≤ |x| ^ 2 := by gcongr

theorem square_isDouble (L : Library) {x : ℝ} (h : Usual x) : IsDouble (L.pow x 2) :=
  (L.pow_faithful x 2 h.1 (.inr (by norm_num))).1

theorem rnd_sqrt_close {k : ℕ} {a b : ℝ} (h : Close k a b) (hk : k ≤ 2 ^ 50) (hb : b = 0 ∨ 2 ^ (-1020 : ℤ) ≤ b) :
    Close (k + 1) (rnd (√a)) (√b) := by
  rcases hb with rfl | hb
  · rw [h.zero_iff.mpr rfl, Real.sqrt_zero, rnd_zero]
    exact (Close.refl 0).mono (by omega)
  · have hb0 : 0 < b := (two_zpow_pos _).trans_le hb
    refine (close_sqrt h hb0.le).rnd ?_
    refine le_trans ?_ ((close_sqrt h hb0.le).abs_ge hk)
    rw [abs_of_nonneg (Real.sqrt_nonneg _), le_div_iff₀ (by norm_num)]
    have h1 : (2 : ℝ) ^ (-510 : ℤ) ≤ √b := by
      refine Real.le_sqrt_of_sq_le (le_trans (le_of_eq ?_) hb)
      rw [← zpow_natCast, ← zpow_mul]; norm_num
    refine le_trans ?_ h1
    rw [← zpow_add_one₀ (by norm_num)]
    exact two_zpow_le (by norm_num)

theorem usual_square {x : ℝ} (h : Usual x) : x = 0 ∨ (2 : ℝ) ^ (-1020 : ℤ) ≤ x ^ 2 := by
  refine h.2.imp id fun hx => ?_
  rw [← sq_abs]
  calc (2 : ℝ) ^ (-1020 : ℤ) ≤ 2 ^ (-1000 : ℤ) := two_zpow_le (by norm_num)
    _ = (2 ^ (-500 : ℤ)) ^ 2 := by rw [← zpow_natCast, ← zpow_mul]; norm_num
    _ ≤ |x| ^ 2 := by gcongr

theorem magnitude_close (L : Library) {v : V2} (hx : Usual v.x) (hy : Usual v.y) :
    Close 5 (Double.magnitude L v) (√(v.x ^ 2 + v.y ^ 2)) := by
  have h1 := Close.add_nonneg' (square_close L hx) (square_close L hy) (sq_nonneg _) (sq_nonneg _)
  have h2 := (close_of_error (rnd_add_relative (square_isDouble L hx) (square_isDouble L hy))).trans h1
  refine rnd_sqrt_close h2 (by norm_num) ?_
  rcases usual_square hx with ex | ex
  · rcases usual_square hy with ey | ey
    · left; rw [ex, ey]; norm_num
    · right; nlinarith [sq_nonneg v.x]
  · right; nlinarith [sq_nonneg v.y]

theorem magnitude3_close (L : Library) {v : V3} (hx : Usual v.x) (hy : Usual v.y) (hz : Usual v.z) :
    Close 6 (Double.magnitude3 L v) (√(v.x ^ 2 + v.y ^ 2 + v.z ^ 2)) := by
  have h1 := Close.add_nonneg' (square_close L hx) (square_close L hy) (sq_nonneg _) (sq_nonneg _)
  have h2 := (close_of_error (rnd_add_relative (square_isDouble L hx) (square_isDouble L hy))).trans h1
  have h3 := Close.add_nonneg' h2 ((square_close L hz).mono (by norm_num : 3 ≤ 1 + 3))
    (add_nonneg (sq_nonneg v.x) (sq_nonneg v.y)) (sq_nonneg _)
  have h4 := (close_of_error (rnd_add_relative (rnd_isDouble _) (square_isDouble L hz))).trans h3
  refine rnd_sqrt_close h4 (by norm_num) ?_
  have sx := sq_nonneg v.x
  have sy := sq_nonneg v.y
  have sz := sq_nonneg v.z
  rcases usual_square hx with ex | ex
  · rcases usual_square hy with ey | ey
    · rcases usual_square hz with ez | ez
      · left; rw [ex, ey, ez]; norm_num
      · right; linarith
    · right; linarith
  · right; linarith

/-- **C177** (accuracy): the length of a vector is correct up to a few units in the 49th binary digit. -/
theorem C177_accuracy_partial (L : Library) :
    (∀ v : V2, Usual v.x → Usual v.y →
      |Double.magnitude L v - √(v.x ^ 2 + v.y ^ 2)| ≤ 2 ^ (-49 : ℤ) * √(v.x ^ 2 + v.y ^ 2)) ∧
    (∀ v : V3, Usual v.x → Usual v.y → Usual v.z →
      |Double.magnitude3 L v - √(v.x ^ 2 + v.y ^ 2 + v.z ^ 2)| ≤ 2 ^ (-49 : ℤ) * √(v.x ^ 2 + v.y ^ 2 + v.z ^ 2)) := by
  have e : (2 : ℝ) ^ (-49 : ℤ) = 16 * u := by unfold u; norm_num
  have hu := u_pos
  constructor
  · intro v hx hy
    have h := (magnitude_close L hx hy).error (by norm_num)
    rw [abs_of_nonneg (Real.sqrt_nonneg (v.x ^ 2 + v.y ^ 2))] at h
    refine h.trans (mul_le_mul_of_nonneg_right ?_ (Real.sqrt_nonneg _))
    rw [e]; push_cast; linarith
  · intro v hx hy hz
    have h := (magnitude3_close L hx hy hz).error (by norm_num)
    rw [abs_of_nonneg (Real.sqrt_nonneg (v.x ^ 2 + v.y ^ 2 + v.z ^ 2))] at h
    refine h.trans (mul_le_mul_of_nonneg_right ?_ (Real.sqrt_nonneg _))
    rw [e]; push_cast; linarith

/-- **C177** (zero): of the vectors with components of the usual size only the zero vector has length zero. -/
theorem C177_zero_partial (L : Library) {v : V2} (hx : Usual v.x) (hy : Usual v.y) :
    0 ≤ Double.magnitude L v ∧ (Double.magnitude L v = 0 ↔ v.x = 0 ∧ v.y = 0) := by
  refine ⟨rnd_nonneg (Real.sqrt_nonneg _), ?_⟩
  rw [(magnitude_close L hx hy).zero_iff, Real.sqrt_eq_zero (by positivity)]
  constructor
  · intro h
    have sx := sq_nonneg v.x
    have sy := sq_nonneg v.y
    exact ⟨pow_eq_zero_iff (n := 2) (by norm_num) |>.mp (by linarith), pow_eq_zero_iff (n := 2) (by norm_num) |>.mp (by linarith)⟩
  · rintro ⟨h1, h2⟩; rw [h1, h2]; norm_num

/-- The components of the usual size include everything with a physical meaning. -/
example : Usual 3 ∧ Usual (-4) ∧ Usual 0 ∧ √((3 : ℝ) ^ 2 + (-4) ^ 2) = 5 := by
  have h : ∀ n : ℤ, 1 ≤ |n| → |n| ≤ 2 ^ 53 → Usual n := by
    intro n h1 h2
    refine ⟨isDouble_int h2, .inr (le_trans ?_ (by exact_mod_cast h1 : (1 : ℝ) ≤ |(n : ℝ)|))⟩
    have := two_zpow_le (a := -500) (b := 0) (by norm_num)
    simpa using this
  refine ⟨?_, ?_, ⟨isDouble_zero, .inl rfl⟩, ?_⟩
  · exact_mod_cast h 3 (by norm_num) (by norm_num)
  · exact_mod_cast h (-4) (by norm_num) (by norm_num)
  · rw [show ((3 : ℝ) ^ 2 + (-4) ^ 2) = 5 ^ 2 by norm_num]; exact Real.sqrt_sq (by norm_num)

/-- **C177** (tiny vectors): a vector so short that the square of its length is below the smallest number has length
zero, with a library that rounds correctly. -/
theorem C177_tiny_fails : IsDouble (2 ^ (-600 : ℤ)) ∧ Double.magnitude roundedLibrary ⟨2 ^ (-600 : ℤ), 0⟩ = 0 := by
  refine ⟨⟨1, -600, by norm_num, by norm_num, by norm_num⟩, ?_⟩
  have h : roundedLibrary.pow (2 ^ (-600 : ℤ)) 2 = 0 := by
    show rnd ((2 ^ (-600 : ℤ)) ^ (2 : ℤ)) = 0
    rw [← zpow_mul]
    have hl : lastPlace ((2 : ℝ) ^ (-600 * 2 : ℤ)) = -1074 := by
      unfold lastPlace
      have : Int.log 2 |(2 : ℝ) ^ (-600 * 2 : ℤ)| = -1200 := by
        rw [abs_of_pos (two_zpow_pos _)]
        exact_mod_cast Int.log_zpow (R := ℝ) (b := 2) (by norm_num) (-1200)
      rw [this]; norm_num
    unfold rnd
    rw [hl]
    have : nearestInt ((2 : ℝ) ^ (-600 * 2 : ℤ) / 2 ^ (-1074 : ℤ)) = 0 := by
      apply nearestInt_eq
      rw [← zpow_sub₀ (by norm_num)]
      norm_num [abs_of_pos]
    rw [this]; simp
  have h0 : roundedLibrary.pow 0 2 = 0 := by
    show rnd ((0 : ℝ) ^ (2 : ℤ)) = 0
    rw [zero_zpow _ (by norm_num), rnd_zero]
  unfold Double.magnitude
  simp only [h, h0, add_zero, rnd_zero, Real.sqrt_zero]

/-! ## C178: angles -/

theorem pi_const : rnd 3.14159265358979 = (7074237752028433 : ℤ) * 2 ^ (-51 : ℤ) := by
  apply rnd_eq <;> norm_num [abs_of_pos, abs_lt]

theorem degrees_const : rnd (180 / rnd 3.14159265358979) = (8063664102031872 : ℤ) * 2 ^ (-47 : ℤ) := by
  rw [pi_const]
  apply rnd_eq <;> norm_num [abs_of_pos, abs_lt]

theorem half_pi_const : rnd (rnd 3.14159265358979 / 2) = (7074237752028433 : ℤ) * 2 ^ (-52 : ℤ) := by
  rw [pi_const]
  apply rnd_eq <;> norm_num [abs_of_pos, abs_lt]

theorem toDegrees_rnd (L : Library) (r : ℝ) :
    Double.toDegrees L r = rnd (r * ((8063664102031872 : ℤ) * 2 ^ (-47 : ℤ))) := by
  unfold Double.toDegrees Double.convertAngle Double.convert
  simp only [L.pow_one (rnd_isDouble _)]
  rw [degrees_const]; rfl

theorem degrees_half_pi (L : Library) : Double.toDegrees L (rnd (rnd 3.14159265358979 / 2)) = 90 := by
  rw [toDegrees_rnd, half_pi_const]
  have : rnd ((7074237752028433 : ℤ) * 2 ^ (-52 : ℤ) * ((8063664102031872 : ℤ) * 2 ^ (-47 : ℤ))) =
      (6333186975989760 : ℤ) * 2 ^ (-46 : ℤ) := by
    apply rnd_eq <;> norm_num [abs_of_pos, abs_lt]
  rw [this]; norm_num

theorem degrees_pi (L : Library) : Double.toDegrees L (rnd (2 * rnd (rnd 3.14159265358979 / 2))) = 180 := by
  rw [toDegrees_rnd, half_pi_const]
  have h : rnd (2 * ((7074237752028433 : ℤ) * 2 ^ (-52 : ℤ))) = (7074237752028433 : ℤ) * 2 ^ (-51 : ℤ) := by
    apply rnd_eq <;> norm_num [abs_of_pos, abs_lt]
  have : rnd ((7074237752028433 : ℤ) * 2 ^ (-51 : ℤ) * ((8063664102031872 : ℤ) * 2 ^ (-47 : ℤ))) =
      (6333186975989760 : ℤ) * 2 ^ (-45 : ℤ) := by
    apply rnd_eq <;> norm_num [abs_of_pos, abs_lt]
  rw [h, this]; norm_num

theorem degrees_three (L : Library) : Double.toDegrees L (rnd (3 * rnd (rnd 3.14159265358979 / 2))) = 270 := by
  rw [toDegrees_rnd, half_pi_const]
  have h : rnd (3 * ((7074237752028433 : ℤ) * 2 ^ (-52 : ℤ))) = (5305678314021325 : ℤ) * 2 ^ (-50 : ℤ) := by
    apply rnd_eq <;> norm_num [abs_of_pos, abs_lt]
  have : rnd ((5305678314021325 : ℤ) * 2 ^ (-50 : ℤ) * ((8063664102031872 : ℤ) * 2 ^ (-47 : ℤ))) =
      (4749890231992320 : ℤ) * 2 ^ (-44 : ℤ) := by
    apply rnd_eq <;> norm_num [abs_of_pos, abs_lt]
  rw [h, this]; norm_num

theorem angle_false (L : Library) (v : V2) (hv : ¬ (v.x = 0 ∧ v.y = 0)) : Double.angle L v =
    if v.x = 0 ∨ v.y = 0 then
      if v.x = 0 then if 0 < v.y then 90 else 270 else if 0 < v.x then 0 else 180
    else if 0 ≤ v.y then
      if 0 ≤ v.x then Double.toDegrees L (L.atan (rnd (v.y / v.x)))
      else rnd (180 - Double.toDegrees L |L.atan (rnd (v.y / v.x))|)
    else
      if v.x ≤ 0 then rnd (180 + Double.toDegrees L |L.atan (rnd (v.y / v.x))|)
      else rnd (360 - Double.toDegrees L |L.atan (rnd (v.y / v.x))|) := by
  unfold Double.angle
  simp only [if_neg hv, Bool.false_eq_true, and_false, if_false, degrees_half_pi, degrees_pi, degrees_three]

theorem angle_signed (L : Library) (v : V2) (hv : ¬ (v.x = 0 ∧ v.y = 0)) : Double.angle L v true =
    if 180 < Double.angle L v then rnd (Double.angle L v - 360) else Double.angle L v := by
  unfold Double.angle
  simp only [if_neg hv, and_true, Bool.false_eq_true, and_false, if_false]

/-- **C178** (half axes): on each half axis the angle is 0, 90, 180 or 270 exactly. -/
theorem C178_axes (L : Library) {a : ℝ} (ha : 0 < a) :
    Double.angle L ⟨a, 0⟩ = 0 ∧ Double.angle L ⟨0, a⟩ = 90 ∧ Double.angle L ⟨-a, 0⟩ = 180 ∧
    Double.angle L ⟨0, -a⟩ = 270 := by
  refine ⟨?_, ?_, ?_, ?_⟩
  · rw [angle_false L _ (by simp [ha.ne'])]; simp [ha.ne', ha]
  · rw [angle_false L _ (by simp [ha.ne'])]; simp [ha]
  · rw [angle_false L _ (by simp [ha.ne'])]; simp [ha.ne', ha.le]
  · rw [angle_false L _ (by simp [ha.ne'])]; simp [ha.le]

theorem isDouble_two : IsDouble 2 := by exact_mod_cast isDouble_int (n := 2) (by norm_num)

theorem atan_le_two (L : Library) {t : ℝ} (ht : IsDouble t) : |L.atan t| ≤ 2 := by
  have h := L.atan_faithful t ht
  have h1 := Real.arctan_lt_pi_div_two t
  have h2 := Real.neg_pi_div_two_lt_arctan t
  have h3 := Real.pi_lt_four
  rw [abs_le]
  exact ⟨h.2.1 _ isDouble_two.neg (by linarith), h.2.2 _ isDouble_two (by linarith)⟩

/-- What the arctangent contributes to an angle. -/
theorem degrees_bounds (L : Library) {t : ℝ} (ht : IsDouble t) :
    0 ≤ Double.toDegrees L |L.atan t| ∧ Double.toDegrees L |L.atan t| ≤ 120 := by
  have h := atan_le_two L ht
  have h0 := abs_nonneg (L.atan t)
  rw [toDegrees_rnd]
  refine ⟨rnd_nonneg (by positivity), rnd_le (by exact_mod_cast isDouble_int (n := 120) (by norm_num)) ?_⟩
  have : ((8063664102031872 : ℤ) : ℝ) * 2 ^ (-47 : ℤ) ≤ 60 := by norm_num
  nlinarith

theorem isDouble_angle (L : Library) (v : V2) (hv : ¬ (v.x = 0 ∧ v.y = 0)) : IsDouble (Double.angle L v) := by
  have i : ∀ n : ℤ, |n| ≤ 2 ^ 53 → IsDouble ((n : ℤ) : ℝ) := fun n h => isDouble_int h
  rw [angle_false L v hv]
  split_ifs
  · exact_mod_cast i 90 (by norm_num)
  · exact_mod_cast i 270 (by norm_num)
  · exact isDouble_zero
  · exact_mod_cast i 180 (by norm_num)
  · rw [toDegrees_rnd]; exact rnd_isDouble _
  · exact rnd_isDouble _
  · exact rnd_isDouble _
  · exact rnd_isDouble _

/-- **C178** (range): the angle is in [0, 360], or in (-180, 180] if negative angles are allowed.
Missing from the full claim: that it is less than 360, see `C178_full_turn`. -/
theorem C178_range_partial (L : Library) (v : V2) (hv : ¬ (v.x = 0 ∧ v.y = 0)) :
    (0 ≤ Double.angle L v ∧ Double.angle L v ≤ 360) ∧ -180 < Double.angle L v true ∧ Double.angle L v true ≤ 180 := by
  have i : ∀ n : ℤ, |n| ≤ 2 ^ 53 → IsDouble ((n : ℤ) : ℝ) := fun n h => isDouble_int h
  have i360 : IsDouble 360 := by exact_mod_cast i 360 (by norm_num)
  have h1 : 0 ≤ Double.angle L v ∧ Double.angle L v ≤ 360 := by
    have hb := degrees_bounds L (rnd_isDouble (v.y / v.x))
    rw [angle_false L v hv]
    split_ifs with h1 h2 h3 h3 h3 h4 h4
    · norm_num
    · norm_num
    · norm_num
    · norm_num
    · have hq : 0 ≤ rnd (v.y / v.x) := rnd_nonneg (div_nonneg h3 h4)
      have ha := (L.atan_faithful _ (rnd_isDouble (v.y / v.x))).nonneg (by simpa using Real.arctan_mono hq)
      rw [abs_of_nonneg ha] at hb
      exact ⟨hb.1, by linarith⟩
    · exact ⟨rnd_nonneg (by linarith), rnd_le i360 (by linarith)⟩
    · exact ⟨rnd_nonneg (by linarith), rnd_le i360 (by linarith)⟩
    · exact ⟨rnd_nonneg (by linarith), rnd_le i360 (by linarith)⟩
  refine ⟨h1, ?_⟩
  rw [angle_signed L v hv]
  have hd := isDouble_angle L v hv
  generalize Double.angle L v = a at *
  split_ifs with h
  · refine ⟨?_, rnd_le (by exact_mod_cast i 180 (by norm_num)) (by linarith)⟩
    have hg : 180 + (2 : ℝ) ^ (-45 : ℤ) ≤ a := by
      obtain ⟨n, hn⟩ := isDouble_multiple hd
      have hl : lastPlace 180 = -45 := lastPlace_eq (by norm_num) (by norm_num) (by norm_num)
      have hm : lastPlace 180 ≤ lastPlace a :=
        lastPlace_mono (by norm_num) (by rw [abs_of_pos (by norm_num), abs_of_pos (by linarith)]; exact h.le)
      rw [hl] at hm
      rw [intCast_zpow hm] at hn
      generalize n * 2 ^ (lastPlace a - -45).toNat = k at hn
      have h5 : (6333186975989760 : ℤ) < k := by
        have : ((6333186975989760 : ℤ) : ℝ) < (k : ℝ) := by
          have e : (2 : ℝ) ^ (-45 : ℤ) * 2 ^ (45 : ℤ) = 1 := by rw [← zpow_add₀ (by norm_num)]; norm_num
          have e2 : (k : ℝ) = a * 2 ^ (45 : ℤ) := by rw [hn, mul_assoc, e, mul_one]
          rw [e2]
          norm_num at h ⊢
          linarith
        exact_mod_cast this
      have h6 : ((6333186975989760 + 1 : ℤ) : ℝ) ≤ (k : ℝ) := by exact_mod_cast h5
      rw [hn]
      refine le_trans (le_of_eq ?_) (mul_le_mul_of_nonneg_right h6 (two_zpow_pos _).le)
      norm_num
    have he := rnd_sub_relative hd i360
    rw [abs_le] at he
    have ha : |a - 360| ≤ 180 := by rw [abs_le]; constructor <;> linarith
    have hu : u * |a - 360| ≤ u * 180 := mul_le_mul_of_nonneg_left ha u_pos.le
    have hu2 : u * 180 < 2 ^ (-45 : ℤ) := by unfold u; norm_num
    linarith [he.1]
  · constructor <;> linarith

/-- A vector pointing down and to the left. -/
example : ¬ ((-3 : ℝ) = 0 ∧ (-4 : ℝ) = 0) := by norm_num

theorem arctan_lipschitz (a b : ℝ) : |Real.arctan a - Real.arctan b| ≤ |a - b| := by
  have h := Convex.norm_image_sub_le_of_norm_deriv_le (f := Real.arctan) (s := Set.univ) (x := b) (y := a) (C := 1)
    (fun x _ => Real.differentiable_arctan x) (fun x _ => ?_) convex_univ (Set.mem_univ _) (Set.mem_univ _)
  · simpa using h
  · rw [Real.deriv_arctan, Real.norm_eq_abs, abs_of_pos (by positivity)]
    rw [div_le_one (by positivity)]
    nlinarith [sq_nonneg x]

/-- The arctangent of a rounded quotient. -/
theorem arctan_rnd (t : ℝ) : |Real.arctan (rnd t) - Real.arctan t| ≤ 3 * u := by
  have hu := u_pos
  have hu' := u_small
  have hη : (2 : ℝ) ^ (-1075 : ℤ) ≤ u := two_zpow_le (by norm_num)
  have key : ∀ t : ℝ, 1 < t → |Real.arctan (rnd t) - Real.arctan t| ≤ 3 * u := by
    intro t ht
    have h := rnd_relative (x := t) (((two_zpow_le (by norm_num : (-1022 : ℤ) ≤ 0)).trans (by norm_num)).trans
      (ht.le.trans (le_abs_self t)))
    rw [abs_of_pos (by linarith : 0 < t)] at h
    have h1 : 1 ≤ rnd t := le_rnd isDouble_one ht.le
    have h2 := arctan_lipschitz (rnd t)⁻¹ t⁻¹
    rw [Real.arctan_inv_of_pos (by linarith), Real.arctan_inv_of_pos (by linarith)] at h2
    have h3 : |(rnd t)⁻¹ - t⁻¹| ≤ u := by
      have e : (rnd t)⁻¹ - t⁻¹ = (t - rnd t) / (rnd t * t) := by
        have : rnd t ≠ 0 := by linarith
        field_simp
      rw [e, abs_div, abs_sub_comm, abs_of_pos (by positivity : 0 < rnd t * t), div_le_iff₀ (by positivity)]
      refine h.trans (mul_le_mul_of_nonneg_left ?_ hu.le)
      nlinarith
    have e : Real.arctan (rnd t) - Real.arctan t =
        -(Real.pi / 2 - Real.arctan (rnd t) - (Real.pi / 2 - Real.arctan t)) := by ring
    rw [e, abs_neg]
    linarith
  rcases le_or_gt |t| 1 with h | h
  · refine (arctan_lipschitz _ _).trans ((rnd_error_le t).trans ?_)
    nlinarith
  · rcases lt_abs.mp h with h | h
    · exact key t h
    · have := key (-t) h
      rw [rnd_neg, Real.arctan_neg, Real.arctan_neg] at this
      rw [show Real.arctan (rnd t) - Real.arctan t = -(-Real.arctan (rnd t) - -Real.arctan t) by ring, abs_neg]
      exact this

/-- The arctangent in degrees. -/
theorem degrees_error (L : Library) (t : ℝ) :
    |Double.toDegrees L (|L.atan (rnd t)|) - Verif.toDegrees (|Real.arctan t|)| ≤ 1200 * u := by
  have hu := u_pos
  have hu' := u_small
  have h1 := (L.atan_faithful _ (rnd_isDouble t)).error_le
  have h2 := arctan_rnd t
  have hη : (2 : ℝ) ^ (-1074 : ℤ) ≤ u := two_zpow_le (by norm_num)
  have hη' : (2 : ℝ) ^ (-1075 : ℤ) ≤ u := two_zpow_le (by norm_num)
  have h3 : |Real.arctan (rnd t)| ≤ 2 := by
    rw [abs_le]
    have a := Real.arctan_lt_pi_div_two (rnd t)
    have b := Real.neg_pi_div_two_lt_arctan (rnd t)
    have c := Real.pi_lt_four
    constructor <;> linarith
  have h3' : |Real.arctan t| ≤ 2 := by
    rw [abs_le]
    have a := Real.arctan_lt_pi_div_two t
    have b := Real.neg_pi_div_two_lt_arctan t
    have c := Real.pi_lt_four
    constructor <;> linarith
  have h4 : |(|L.atan (rnd t)|) - (|Real.arctan t|)| ≤ 8 * u := by
    refine (abs_abs_sub_abs_le _ _).trans ?_
    have := abs_sub_le (L.atan (rnd t)) (Real.arctan (rnd t)) (Real.arctan t)
    nlinarith
  rw [toDegrees_rnd, toDegrees_eq]
  have hf : ((8063664102031872 : ℤ) : ℝ) * 2 ^ (-47 : ℤ) ≤ 58 := by norm_num
  have hf0 : 0 ≤ ((8063664102031872 : ℤ) : ℝ) * 2 ^ (-47 : ℤ) := by norm_num
  have hc : |((8063664102031872 : ℤ) : ℝ) * 2 ^ (-47 : ℤ) - 180 / kPi| ≤ 232 * u := by
    rw [← degrees_const]
    have h := goodFactor_degrees.close.error (by norm_num)
    refine h.trans ?_
    have : |180 / kPi| ≤ 58 := by unfold kPi; norm_num [abs_of_pos]
    push_cast
    nlinarith
  generalize ((8063664102031872 : ℤ) : ℝ) * 2 ^ (-47 : ℤ) = f at *
  generalize (180 / kPi : ℝ) = F at *
  have a0 := abs_nonneg (L.atan (rnd t))
  have b0 := abs_nonneg (Real.arctan t)
  generalize |L.atan (rnd t)| = a at *
  generalize |Real.arctan t| = b at *
  have h5 : |a * f - b * F| ≤ 8 * u * 58 + 2 * (232 * u) := by
    have e : a * f - b * F = (a - b) * f + b * (f - F) := by ring
    rw [e]
    refine (abs_add_le _ _).trans (add_le_add ?_ ?_)
    · rw [abs_mul, abs_of_nonneg hf0]; exact mul_le_mul h4 hf hf0 (by positivity)
    · rw [abs_mul, abs_of_nonneg b0]; exact mul_le_mul h3' hc (abs_nonneg _) (by norm_num)
  have h6 := rnd_error_le (a * f)
  have h7 : |a * f| ≤ 120 := by
    rw [abs_of_nonneg (by positivity)]
    have : a ≤ 2 + 8 * u := by have := (abs_le.mp h4).2; linarith
    nlinarith
  have h8 := abs_sub_le (rnd (a * f)) (a * f) (b * F)
  nlinarith

/-- **C178** (accuracy): the angle is within 10⁻¹² degrees of the one computed without rounding; if negative angles are
allowed, it is so up to a full turn. -/
theorem C178_accuracy (L : Library) (v : V2) (hv : ¬ (v.x = 0 ∧ v.y = 0)) :
    |Double.angle L v - v.angle| ≤ 1e-12 ∧
    ∃ k : ℤ, |k| ≤ 1 ∧ |Double.angle L v true - v.angle true - 360 * k| ≤ 1e-12 := by
  have hu := u_pos
  have hu' := u_small
  have hη' : (2 : ℝ) ^ (-1075 : ℤ) ≤ u := two_zpow_le (by norm_num)
  have main : |Double.angle L v - v.angle| ≤ 2000 * u := by
    have hd := degrees_error L (v.y / v.x)
    have hb := degrees_bounds L (rnd_isDouble (v.y / v.x))
    have ex : v.angle = if v.x = 0 ∨ v.y = 0 then
        if v.x = 0 then if 0 < v.y then 90 else 270 else if 0 < v.x then 0 else 180
      else if 0 ≤ v.y then
        if 0 ≤ v.x then Verif.toDegrees (Real.arctan (v.y / v.x))
        else 180 - Verif.toDegrees |Real.arctan (v.y / v.x)|
      else
        if v.x ≤ 0 then 180 + Verif.toDegrees |Real.arctan (v.y / v.x)|
        else 360 - Verif.toDegrees |Real.arctan (v.y / v.x)| := by
      have hk := kPi_pos
      unfold V2.angle
      simp only [if_neg hv, Bool.false_eq_true, and_false, if_false]
      have e1 : Verif.toDegrees (kPi / 2) = 90 := by rw [toDegrees_eq]; field_simp; norm_num
      have e2 : Verif.toDegrees (3 * (kPi / 2)) = 270 := by rw [toDegrees_eq]; field_simp; norm_num
      have e3 : Verif.toDegrees (2 * (kPi / 2)) = 180 := by rw [toDegrees_eq]; field_simp
      rw [e1, e2, e3]
    have three : ∀ c s d e : ℝ, |c| ≤ 360 → |s| ≤ 1 → 0 ≤ d → d ≤ 120 → |d - e| ≤ 1200 * u →
        |rnd (c + s * d) - (c + s * e)| ≤ 2000 * u := by
      intro c s d e hc hs h0 h1 h2
      have a := rnd_error_le (c + s * d)
      have b : |c + s * d| ≤ 480 := by
        refine (abs_add_le _ _).trans ?_
        rw [abs_mul, abs_of_nonneg h0]
        nlinarith
      have c1 := abs_sub_le (rnd (c + s * d)) (c + s * d) (c + s * e)
      have c2 : |c + s * d - (c + s * e)| ≤ 1200 * u := by
        rw [show c + s * d - (c + s * e) = s * (d - e) by ring, abs_mul]
        have := mul_le_mul hs h2 (abs_nonneg _) zero_le_one
        linarith
      nlinarith
    rw [ex, angle_false L v hv]
    split_ifs with h1 h2 h3 h3 h3 h4 h4
    · rw [sub_self, abs_zero]; positivity
    · rw [sub_self, abs_zero]; positivity
    · rw [sub_self, abs_zero]; positivity
    · rw [sub_self, abs_zero]; positivity
    · have hq : 0 ≤ rnd (v.y / v.x) := rnd_nonneg (div_nonneg h3 h4)
      have ha := (L.atan_faithful _ (rnd_isDouble (v.y / v.x))).nonneg (by simpa using Real.arctan_mono hq)
      have hq' : 0 ≤ Real.arctan (v.y / v.x) := by simpa using Real.arctan_mono (div_nonneg h3 h4)
      rw [abs_of_nonneg ha, abs_of_nonneg hq'] at hd
      linarith
    · have := three 180 (-1) _ _ (by norm_num) (by norm_num) hb.1 hb.2 hd
      simpa only [neg_one_mul, ← sub_eq_add_neg] using this
    · have := three 180 1 _ _ (by norm_num) (by norm_num) hb.1 hb.2 hd
      simpa only [one_mul] using this
    · have := three 360 (-1) _ _ (by norm_num [abs_of_pos]) (by norm_num) hb.1 hb.2 hd
      simpa only [neg_one_mul, ← sub_eq_add_neg] using this
  refine ⟨by linarith [main.trans (by linarith : 2000 * u ≤ 1e-12)], ?_⟩
  rw [angle_signed L v hv, v.angle_true hv]
  have hr := (C178_range_partial L v hv).1
  generalize Double.angle L v = a at *
  generalize v.angle = b at *
  have hs : |rnd (a - 360) - (a - 360)| ≤ 400 * u := by
    have := rnd_error_le (a - 360)
    have h2 : |a - 360| ≤ 360 := by rw [abs_le]; constructor <;> linarith
    nlinarith
  have hu2 : 2400 * u ≤ 1e-12 := by linarith
  split_ifs
  · refine ⟨0, by norm_num, ?_⟩
    have := abs_add_le (rnd (a - 360) - (a - 360)) (a - b)
    push_cast
    rw [show rnd (a - 360) - (b - 360) - 360 * 0 = rnd (a - 360) - (a - 360) + (a - b) by ring]
    linarith
  · refine ⟨-1, by norm_num, ?_⟩
    have := abs_add_le (rnd (a - 360) - (a - 360)) (a - b)
    push_cast
    rw [show rnd (a - 360) - b - 360 * -1 = rnd (a - 360) - (a - 360) + (a - b) by ring]
    linarith
  · refine ⟨1, by norm_num, ?_⟩
    push_cast
    rw [show a - (b - 360) - 360 * 1 = a - b by ring]
    linarith
  · refine ⟨0, by norm_num, ?_⟩
    push_cast
    rw [show a - b - 360 * 0 = a - b by ring]
    linarith

/-- **C178** (a full turn): a vector that points almost along the positive first axis, but slightly below it, has the
angle 360 and not an angle less than 360 or 0, whatever the library. -/
theorem C178_full_turn (L : Library) :
    IsDouble (-(2 : ℝ) ^ (-60 : ℤ)) ∧ Double.angle L ⟨1, -2 ^ (-60 : ℤ)⟩ = 360 := by
  have hd : IsDouble (-(2 : ℝ) ^ (-60 : ℤ)) := ⟨-1, -60, by norm_num, by norm_num, by norm_num⟩
  have h0 := two_zpow_pos (-60)
  refine ⟨hd, ?_⟩
  rw [angle_false L _ (by norm_num)]
  simp only [div_one, rnd_of_isDouble hd]
  rw [if_neg (by norm_num), if_neg (by norm_num), if_neg (by norm_num)]
  have h := L.atan_faithful _ hd
  have h1 : L.atan (-2 ^ (-60 : ℤ)) ≤ 0 := h.nonpos (by rw [Real.arctan_neg]; linarith [Real.arctan_pos.mpr h0])
  have h2 : -2 ^ (-60 : ℤ) ≤ L.atan (-2 ^ (-60 : ℤ)) := by
    refine h.2.1 _ hd ?_
    rw [Real.arctan_neg]
    have := arctan_lipschitz (2 ^ (-60 : ℤ)) 0
    rw [Real.arctan_zero, sub_zero, sub_zero, abs_of_pos h0] at this
    linarith [le_abs_self (Real.arctan (2 ^ (-60 : ℤ)))]
  rw [abs_of_nonpos h1]
  generalize L.atan (-2 ^ (-60 : ℤ)) = a at *
  have h3 : 0 ≤ Double.toDegrees L (-a) ∧ Double.toDegrees L (-a) ≤ 2 ^ (-54 : ℤ) := by
    rw [toDegrees_rnd]
    refine ⟨rnd_nonneg (by have : 0 ≤ -a := by linarith
                           positivity), rnd_le ⟨1, -54, by norm_num, by norm_num, by norm_num⟩ ?_⟩
    have h4 : -a ≤ 2 ^ (-60 : ℤ) := by linarith
    refine (mul_le_mul_of_nonneg_right h4 (by norm_num)).trans ?_
    norm_num
  generalize Double.toDegrees L (-a) = d at *
  have h5 : (2 : ℝ) ^ (-54 : ℤ) = 1 / 18014398509481984 := by norm_num
  rw [h5] at h3
  have : rnd (360 - d) = (6333186975989760 : ℤ) * 2 ^ (-44 : ℤ) := by
    have e : |360 - d| = 360 - d := abs_of_pos (by linarith)
    apply rnd_eq
    · norm_num
    · rw [e]; norm_num; linarith
    · rw [e]; norm_num; linarith
    · rw [abs_lt]; norm_num; constructor <;> linarith
  rw [this]; norm_num

end Verif.Props
