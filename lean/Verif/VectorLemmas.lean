import Mathlib.Analysis.Real.Pi.Bounds
import Mathlib.Analysis.SpecialFunctions.Trigonometric.Bounds
import Mathlib.Tactic.FieldSimp
import Mathlib.Tactic.Ring
import Mathlib.Tactic.Linarith
import Verif.Vector

/-! # Lemmas about vectors -/

namespace Verif
open Verif.Units Real

theorem kPi_pos : 0 < kPi := by norm_num [kPi]

theorem kPi_lt_pi : kPi < π := lt_trans (by norm_num [kPi]) pi_gt_d20

theorem pi_sub_kPi : π - kPi < 4e-15 := by
  have := pi_lt_d20
  unfold kPi
  norm_num at this ⊢
  linarith

theorem toDegrees_eq (r : ℝ) : toDegrees r = r * (180 / kPi) := by
  simp [toDegrees, convertAngle, convert]

theorem toRadians_eq (d : ℝ) : toRadians d = d * (kPi / 180) := by
  simp [toRadians, convertAngle, convert]

theorem toRadians_toDegrees (r : ℝ) : toRadians (toDegrees r) = r := by
  rw [toRadians_eq, toDegrees_eq]
  have := kPi_pos.ne'
  field_simp

theorem toRadians_add (a b : ℝ) : toRadians (a + b) = toRadians a + toRadians b := by
  simp only [toRadians_eq]; ring

theorem toRadians_sub (a b : ℝ) : toRadians (a - b) = toRadians a - toRadians b := by
  simp only [toRadians_eq]; ring

theorem toRadians_180 : toRadians 180 = kPi := by rw [toRadians_eq]; ring

theorem toRadians_360 : toRadians 360 = 2 * kPi := by rw [toRadians_eq]; ring

theorem toDegrees_kPi_half : toDegrees (kPi / 2) = 90 := by
  rw [toDegrees_eq]; have := kPi_pos.ne'; field_simp; norm_num

theorem toDegrees_nonneg {r : ℝ} (h : 0 ≤ r) : 0 ≤ toDegrees r := by
  rw [toDegrees_eq]; have := kPi_pos; positivity

theorem toDegrees_pos {r : ℝ} (h : 0 < r) : 0 < toDegrees r := by
  rw [toDegrees_eq]; have := kPi_pos; positivity

theorem toDegrees_lt {r : ℝ} (h : r < π / 2) : toDegrees r < 91 := by
  rw [toDegrees_eq]
  have hk := kPi_pos
  have h2 : r < kPi / 2 + 1e-14 := by have := pi_sub_kPi; norm_num at this ⊢; linarith
  rw [mul_div_assoc', div_lt_iff₀ hk]
  unfold kPi at *
  norm_num at h2 ⊢
  linarith

namespace V2

theorem magnitude_sq (v : V2) : v.magnitude ^ 2 = v.x ^ 2 + v.y ^ 2 :=
  Real.sq_sqrt (by positivity)

theorem magnitude_nonneg (v : V2) : 0 ≤ v.magnitude := Real.sqrt_nonneg _

theorem magnitude_eq_zero (v : V2) : v.magnitude = 0 ↔ v.x = 0 ∧ v.y = 0 := by
  unfold magnitude
  rw [Real.sqrt_eq_zero (by positivity)]
  constructor
  · intro h
    constructor <;> nlinarith [sq_nonneg v.x, sq_nonneg v.y]
  · rintro ⟨h1, h2⟩; simp [h1, h2]

/-- The components of a vector with positive `x` from the arc tangent. -/
theorem polar_of_pos {x y : ℝ} (hx : 0 < x) :
    x = √(x ^ 2 + y ^ 2) * cos (arctan (y / x)) ∧ y = √(x ^ 2 + y ^ 2) * sin (arctan (y / x)) := by
  have h : √(x ^ 2 + y ^ 2) = x * √(1 + (y / x) ^ 2) := by
    rw [← Real.sqrt_sq hx.le, ← Real.sqrt_mul (by positivity), Real.sqrt_sq hx.le]
    congr 1; field_simp
  have hp : 0 < √(1 + (y / x) ^ 2) := Real.sqrt_pos.mpr (by positivity)
  rw [h, cos_arctan, sin_arctan]
  constructor <;> field_simp

/-- Specification of the unsigned angle: its conversion to radians differs from a true polar angle of
the vector by at most `2 (π - kPi)`. -/
theorem angle_spec (v : V2) (hv : ¬ (v.x = 0 ∧ v.y = 0)) :
    0 ≤ v.angle ∧ v.angle < 360 ∧ ∃ φ k : ℝ, 0 ≤ k ∧ k ≤ 2 ∧
      φ = toRadians v.angle + k * (π - kPi) ∧
      v.x = v.magnitude * cos φ ∧ v.y = v.magnitude * sin φ := by
  have hk := kPi_pos
  have red : ∀ a : ℝ, (if 180 < a ∧ false = true then a - 360 else a) = a := by
    intro a; simp
  unfold angle
  rw [if_neg hv]
  simp only [red]
  rcases lt_trichotomy v.x 0 with hx | hx | hx
  · rcases lt_trichotomy v.y 0 with hy | hy | hy
    · -- quadrant III
      rw [if_neg (by simp [hx.ne, hy.ne]), if_neg (by linarith), if_pos hx.le]
      have hpos : 0 < v.y / v.x := div_pos_of_neg_of_neg hy hx
      have ha : 0 < arctan (v.y / v.x) := arctan_pos.mpr hpos
      rw [abs_of_pos ha]
      have h1 := toDegrees_pos ha
      have h2 := toDegrees_lt (arctan_lt_pi_div_two (v.y / v.x))
      refine ⟨by linarith, by linarith, π + arctan (v.y / v.x), 1, by norm_num, by norm_num, ?_, ?_⟩
      · rw [toRadians_add, toRadians_toDegrees, toRadians_180]; ring
      · have := polar_of_pos (x := -v.x) (y := -v.y) (by linarith)
        rw [neg_div_neg_eq, neg_sq, neg_sq] at this
        rw [add_comm, cos_add_pi, sin_add_pi]
        constructor
        · unfold magnitude; linarith [this.1]
        · unfold magnitude; linarith [this.2]
    · -- negative x axis
      rw [if_pos (Or.inr hy), if_neg hx.ne, if_neg (by linarith)]
      have h180 : toDegrees (2 * (kPi / 2)) = 180 := by
        rw [toDegrees_eq]; field_simp
      rw [h180]
      refine ⟨by norm_num, by norm_num, π, 1, by norm_num, by norm_num, ?_, ?_, ?_⟩
      · rw [toRadians_180]; ring
      · unfold magnitude
        rw [hy, cos_pi, zero_pow (by norm_num), add_zero, Real.sqrt_sq_eq_abs, abs_of_neg hx]; ring
      · rw [hy, sin_pi, mul_zero]
    · -- quadrant II
      rw [if_neg (by simp [hx.ne, hy.ne']), if_pos hy.le, if_neg (by linarith)]
      have hneg : v.y / v.x < 0 := div_neg_of_pos_of_neg hy hx
      have ha : arctan (v.y / v.x) < 0 := arctan_lt_zero.mpr hneg
      rw [abs_of_neg ha]
      have h1 := toDegrees_pos (neg_pos.mpr ha)
      have h2 := toDegrees_lt (r := -arctan (v.y / v.x)) (by
        have := neg_pi_div_two_lt_arctan (v.y / v.x); linarith)
      refine ⟨by linarith, by linarith, π + arctan (v.y / v.x), 1, by norm_num, by norm_num, ?_, ?_⟩
      · rw [toRadians_sub, toRadians_toDegrees, toRadians_180]; ring
      · have := polar_of_pos (x := -v.x) (y := -v.y) (by linarith)
        rw [neg_div_neg_eq, neg_sq, neg_sq] at this
        rw [add_comm, cos_add_pi, sin_add_pi]
        constructor
        · unfold magnitude; linarith [this.1]
        · unfold magnitude; linarith [this.2]
  · rw [if_pos (Or.inl hx), if_pos hx]
    have hy0 : v.y ≠ 0 := fun h => hv ⟨hx, h⟩
    rcases lt_or_gt_of_ne hy0 with hy | hy
    · rw [if_neg (by linarith)]
      have h270 : toDegrees (3 * (kPi / 2)) = 270 := by
        rw [toDegrees_eq]; field_simp; norm_num
      rw [h270]
      refine ⟨by norm_num, by norm_num, π / 2 + π, 3 / 2, by norm_num, by norm_num, ?_, ?_, ?_⟩
      · rw [toRadians_eq]; ring
      · rw [cos_add_pi, cos_pi_div_two, hx]; simp
      · unfold magnitude
        rw [sin_add_pi, sin_pi_div_two, hx, zero_pow (by norm_num), zero_add, Real.sqrt_sq_eq_abs,
          abs_of_neg hy]; ring
    · rw [if_pos hy, toDegrees_kPi_half]
      refine ⟨by norm_num, by norm_num, π / 2, 1 / 2, by norm_num, by norm_num, ?_, ?_, ?_⟩
      · rw [toRadians_eq]; ring
      · rw [cos_pi_div_two, hx]; simp
      · unfold magnitude
        rw [sin_pi_div_two, hx, zero_pow (by norm_num), zero_add, Real.sqrt_sq_eq_abs,
          abs_of_pos hy]; ring
  · rcases lt_trichotomy v.y 0 with hy | hy | hy
    · -- quadrant IV
      rw [if_neg (by simp [hx.ne', hy.ne]), if_neg (by linarith), if_neg (by linarith)]
      have hneg : v.y / v.x < 0 := div_neg_of_neg_of_pos hy hx
      have ha : arctan (v.y / v.x) < 0 := arctan_lt_zero.mpr hneg
      rw [abs_of_neg ha]
      have h1 := toDegrees_pos (neg_pos.mpr ha)
      have h2 := toDegrees_lt (r := -arctan (v.y / v.x)) (by
        have := neg_pi_div_two_lt_arctan (v.y / v.x); linarith)
      refine ⟨by linarith, by linarith, arctan (v.y / v.x) + 2 * π, 2, by norm_num, by norm_num, ?_, ?_⟩
      · rw [toRadians_sub, toRadians_toDegrees, toRadians_360]; ring
      · rw [cos_add_two_pi, sin_add_two_pi]
        exact polar_of_pos hx
    · rw [if_pos (Or.inr hy), if_neg hx.ne', if_pos hx]
      refine ⟨by norm_num, by norm_num, 0, 0, by norm_num, by norm_num, ?_, ?_, ?_⟩
      · rw [toRadians_eq]; ring
      · unfold magnitude
        rw [cos_zero, hy, zero_pow (by norm_num), add_zero, Real.sqrt_sq_eq_abs, abs_of_pos hx]; ring
      · rw [sin_zero, hy]; simp
    · rw [if_neg (by simp [hx.ne', hy.ne']), if_pos hy.le, if_pos hx.le]
      have ha : 0 < arctan (v.y / v.x) := arctan_pos.mpr (div_pos hy hx)
      have h1 := toDegrees_pos ha
      have h2 := toDegrees_lt (arctan_lt_pi_div_two (v.y / v.x))
      refine ⟨by linarith, by linarith, arctan (v.y / v.x), 0, by norm_num, by norm_num, ?_, ?_⟩
      · rw [toRadians_toDegrees]; ring
      · exact polar_of_pos hx

/-- The signed angle in terms of the unsigned one. -/
theorem angle_true (v : V2) (hv : ¬ (v.x = 0 ∧ v.y = 0)) :
    v.angle true = if 180 < v.angle then v.angle - 360 else v.angle := by
  unfold angle
  simp only [if_neg hv, and_true, Bool.false_eq_true, and_false, if_false]

/-- Signed angle of a vector pointing right. -/
theorem angle_true_of_pos (v : V2) (hx : 0 < v.x) :
    v.angle true = toDegrees (Real.arctan (v.y / v.x)) := by
  have h0 : ¬ v.x = 0 := hx.ne'
  unfold angle
  simp only [h0, false_and, if_false, false_or, hx, hx.le, if_true, and_true, not_le.2 hx]
  rcases lt_trichotomy v.y 0 with hy | hy | hy
  · have ha : Real.arctan (v.y / v.x) < 0 := Real.arctan_lt_zero.2 (div_neg_of_neg_of_pos hy hx)
    have h1 : toDegrees |Real.arctan (v.y / v.x)| < 91 := by
      apply toDegrees_lt
      rw [abs_of_neg ha]
      linarith [Real.neg_pi_div_two_lt_arctan (v.y / v.x)]
    simp only [hy.ne, not_le.2 hy, if_false]
    rw [if_pos (by linarith), abs_of_neg ha, toDegrees_eq, toDegrees_eq]
    ring
  · simp [hy, toDegrees_eq]
  · have h1 : toDegrees (Real.arctan (v.y / v.x)) < 91 := toDegrees_lt (Real.arctan_lt_pi_div_two _)
    simp only [hy.ne', hy.le, if_false, if_true]
    rw [if_neg (by linarith)]

theorem magnitude_scale (v : V2) {f : ℝ} (hf : 0 ≤ f) : (v.scale f).magnitude = v.magnitude * f := by
  unfold magnitude scale
  have : (v.x * f) ^ 2 + (v.y * f) ^ 2 = (v.x ^ 2 + v.y ^ 2) * f ^ 2 := by ring
  rw [this, Real.sqrt_mul (by positivity), Real.sqrt_sq hf]

theorem angle_scale (v : V2) {f : ℝ} (hf : 0 < f) (b : Bool) : (v.scale f).angle b = v.angle b := by
  have hx : v.x * f = 0 ↔ v.x = 0 := by simp [hf.ne']
  have hy : v.y * f = 0 ↔ v.y = 0 := by simp [hf.ne']
  have hx1 : 0 < v.x * f ↔ 0 < v.x := by simp [hf]
  have hy1 : 0 < v.y * f ↔ 0 < v.y := by simp [hf]
  have hx2 : 0 ≤ v.x * f ↔ 0 ≤ v.x := by simp [hf]
  have hy2 : 0 ≤ v.y * f ↔ 0 ≤ v.y := by simp [hf]
  have hx3 : v.x * f ≤ 0 ↔ v.x ≤ 0 := by rw [mul_nonpos_iff]; constructor <;> grind
  have hd : v.y * f / (v.x * f) = v.y / v.x := mul_div_mul_right _ _ hf.ne'
  unfold angle scale
  simp only [hx, hy, hx1, hy1, hx2, hy2, hx3, hd]

theorem rotate_scale (v : V2) {f : ℝ} (hf : 0 < f) (t : ℝ) :
    (v.scale f).rotate t = (v.rotate t).scale f := by
  unfold rotate
  split
  · rfl
  · simp only [angle_scale v hf, magnitude_scale v hf.le]
    unfold scale
    ext <;> simp only <;> ring

theorem rotate_magnitude (v : V2) (t : ℝ) : (v.rotate t).magnitude = v.magnitude := by
  unfold rotate
  split
  · rfl
  · simp only
    generalize toRadians (v.angle + t) = r
    have h : (v.magnitude * cos r) ^ 2 + (v.magnitude * sin r) ^ 2 = v.magnitude ^ 2 := by
      have := sin_sq_add_cos_sq r
      calc _ = v.magnitude ^ 2 * (sin r ^ 2 + cos r ^ 2) := by ring
        _ = _ := by rw [this, mul_one]
    have : ∀ a b : ℝ, (⟨a, b⟩ : V2).magnitude = √(a ^ 2 + b ^ 2) := fun _ _ => rfl
    rw [this, h, Real.sqrt_sq v.magnitude_nonneg]

/-- Components at nearby angles are near. -/
theorem polar_near (m a b : ℝ) (hm : 0 ≤ m) :
    |m * cos a - m * cos b| ≤ m * |a - b| ∧ |m * sin a - m * sin b| ≤ m * |a - b| := by
  rw [← mul_sub, ← mul_sub, abs_mul, abs_mul, abs_of_nonneg hm]
  exact ⟨mul_le_mul_of_nonneg_left (abs_cos_sub_cos_le a b) hm,
    mul_le_mul_of_nonneg_left (abs_sin_sub_sin_le a b) hm⟩

end V2
end Verif
