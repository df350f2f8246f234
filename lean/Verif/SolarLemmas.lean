import Verif.Solar
import Verif.VectorLemmas
import Mathlib.Analysis.SpecialFunctions.Trigonometric.Arctan
import Mathlib.Tactic.LinearCombination
import Mathlib.Tactic.NormNum

/-! # Lemmas about the solar position and radiation -/

set_option linter.unusedSectionVars false

namespace Verif.Sun

open Verif.Units Real

/-! ## Ranges -/

theorem toDegrees_le {r : ℝ} (h : r ≤ π / 2) : toDegrees r < 91 := by
  rw [toDegrees_eq]
  have hk := kPi_pos
  have h2 : r < kPi / 2 + 1e-14 := by have := pi_sub_kPi; norm_num at this ⊢; linarith
  rw [mul_div_assoc', div_lt_iff₀ hk]
  unfold kPi at *
  norm_num at h2 ⊢
  linarith

theorem toDegrees_neg (r : ℝ) : toDegrees (-r) = -toDegrees r := by
  simp only [toDegrees_eq]; ring

theorem toDegrees_ge {r : ℝ} (h : -(π / 2) ≤ r) : -91 < toDegrees r := by
  have := toDegrees_le (r := -r) (by linarith)
  rw [toDegrees_neg] at this
  linarith

theorem toRadians_abs_le {d b : ℝ} (h : |d| ≤ b) : |toRadians d| ≤ toRadians b := by
  rw [toRadians_eq, toRadians_eq, abs_mul, abs_of_pos (a := kPi / 180) (by have := kPi_pos; positivity)]
  exact mul_le_mul_of_nonneg_right h (by have := kPi_pos; positivity)

theorem declination_abs (day : Int) : |declination day| ≤ 23.46 := by
  rw [declination, abs_mul, abs_of_pos (by norm_num : (0 : ℝ) < 23.46)]
  have := Real.abs_sin_le_one (toRadians (((284 + day : Int) : ℝ) / 365 * 360))
  nlinarith

theorem declination_rad (day : Int) : |toRadians (declination day)| < 0.41 := by
  refine lt_of_le_of_lt (toRadians_abs_le (declination_abs day)) ?_
  rw [toRadians_eq, kPi]; norm_num

theorem cos_declination_pos (day : Int) : 0 < cos (toRadians (declination day)) := by
  have h := abs_lt.1 (declination_rad day)
  have := pi_gt_three
  exact cos_pos_of_mem_Ioo ⟨by norm_num at h ⊢; linarith [h.1], by norm_num at h ⊢; linarith [h.2]⟩

/-- The direction of the sun has length 1. -/
theorem direction_sq (φ δ h : ℝ) :
    (cos φ * cos δ * cos h + sin φ * sin δ) ^ 2 + (cos φ * sin δ - sin φ * cos δ * cos h) ^ 2 +
      (cos δ * sin h) ^ 2 = 1 := by
  have h1 := sin_sq_add_cos_sq φ
  have h2 := sin_sq_add_cos_sq δ
  have h3 := sin_sq_add_cos_sq h
  linear_combination (cos δ ^ 2 * cos h ^ 2 + sin δ ^ 2) * h1 + cos δ ^ 2 * h3 + h2

/-- The height of the sun is the sine of an angle. -/
theorem up_abs_le (φ δ h : ℝ) : |cos φ * cos δ * cos h + sin φ * sin δ| ≤ 1 := by
  rw [abs_le_one_iff_mul_self_le_one]
  have := direction_sq φ δ h
  nlinarith [sq_nonneg (cos δ * sin h), sq_nonneg (cos φ * sin δ - sin φ * cos δ * cos h)]

/-! ## The direction from the quotient -/

/-- What `SolveAzimuthSolar` selects, in radians with the exact number π. -/
noncomputable def exactAzimuth (before : Bool) (c : Bool × ℝ) : ℝ :=
  (if before = true then (if c.1 = true then π else 0) else (if c.1 = true then 2 * π else π)) + c.2

theorem chi_zero {n : ℝ} (h : n = 0) : chi n 0 = none := by simp [chi, h]

theorem chi_some {n d : ℝ} (h : ¬ (n = 0 ∧ d = 0)) : ∃ c, chi n d = some c := by
  unfold chi
  by_cases hd : d = 0
  · rw [if_pos hd]
    rcases lt_trichotomy n 0 with h1 | h1 | h1
    · exact ⟨_, by rw [if_pos h1]⟩
    · exact absurd ⟨h1, hd⟩ h
    · exact ⟨_, by rw [if_neg (not_lt.2 h1.le), if_pos h1]⟩
  · exact ⟨_, by rw [if_neg hd]⟩

theorem chi_range {n d : ℝ} {c : Bool × ℝ} (h : chi n d = some c) :
    (c.1 = true → -(π / 2) ≤ c.2 ∧ c.2 < 0) ∧ (c.1 = false → 0 ≤ c.2 ∧ c.2 ≤ π / 2) := by
  have hp := pi_pos
  unfold chi at h
  split_ifs at h with h1 h2 h3
  · cases h; exact ⟨fun _ => ⟨le_refl _, by simp only; linarith⟩, fun h => by simp at h⟩
  · cases h; exact ⟨fun h => by simp at h, fun _ => ⟨by simp only; linarith, le_refl _⟩⟩
  · cases h
    constructor
    · intro hc
      have hc := of_decide_eq_true hc
      exact ⟨(neg_pi_div_two_lt_arctan _).le, arctan_lt_zero.2 hc⟩
    · intro hc
      have hc := of_decide_eq_false hc
      exact ⟨arctan_nonneg.2 (not_lt.1 hc), (arctan_lt_pi_div_two _).le⟩

theorem cos_arctan_div {n d : ℝ} (hd : d ≠ 0) : cos (arctan (n / d)) = |d| / √(n ^ 2 + d ^ 2) := by
  rw [cos_arctan]
  have h : 1 + (n / d) ^ 2 = (n ^ 2 + d ^ 2) / d ^ 2 := by field_simp; ring
  rw [h, Real.sqrt_div (by positivity), Real.sqrt_sq_eq_abs]
  field_simp

theorem sin_arctan_div {n d : ℝ} (hd : d ≠ 0) :
    sin (arctan (n / d)) = n / d * (|d| / √(n ^ 2 + d ^ 2)) := by
  rw [← cos_arctan_div hd, sin_arctan, cos_arctan]
  ring

/-- The selected angle points to the south-west quarter circle coordinates `(-n, -d)`. -/
theorem exactAzimuth_direction {before : Bool} {n d : ℝ} {c : Bool × ℝ} (h : chi n d = some c)
    (hb : (before = true ∧ n < 0) ∨ (before = false ∧ (0 < n ∨ (n = 0 ∧ 0 < d)))) :
    √(n ^ 2 + d ^ 2) * sin (exactAzimuth before c) = -n ∧
    √(n ^ 2 + d ^ 2) * cos (exactAzimuth before c) = -d := by
  unfold chi at h
  by_cases hd : d = 0
  · subst hd
    rw [if_pos rfl] at h
    have hs : √(n ^ 2 + 0 ^ 2) = |n| := by simp [Real.sqrt_sq_eq_abs]
    rw [hs]
    rcases hb with ⟨rfl, hn⟩ | ⟨rfl, hn | ⟨_, hn⟩⟩
    · rw [if_pos hn] at h; cases h
      have e : exactAzimuth true (true, -(π / 2)) = π / 2 := by simp only [exactAzimuth, if_true]; ring
      rw [e, sin_pi_div_two, cos_pi_div_two, abs_of_neg hn]
      constructor <;> ring
    · rw [if_neg (not_lt.2 hn.le), if_pos hn] at h; cases h
      have e : exactAzimuth false (false, π / 2) = π / 2 + π := by
        simp only [exactAzimuth, Bool.false_eq_true, if_false]; ring
      rw [e, sin_add_pi, cos_add_pi, sin_pi_div_two, cos_pi_div_two, abs_of_pos hn]
      constructor <;> ring
    · exact absurd hn (lt_irrefl _)
  · rw [if_neg hd] at h
    have hr : 0 < √(n ^ 2 + d ^ 2) := Real.sqrt_pos.2 (by positivity)
    have hr' := hr.ne'
    injection h with h
    subst h
    have key : (exactAzimuth before (decide (n / d < 0), arctan (n / d)) = arctan (n / d) ∨
        exactAzimuth before (decide (n / d < 0), arctan (n / d)) = arctan (n / d) + 2 * π) ∧ d < 0 ∨
        exactAzimuth before (decide (n / d < 0), arctan (n / d)) = arctan (n / d) + π ∧ 0 < d := by
      rcases hb with ⟨rfl, hn⟩ | ⟨rfl, hn⟩
      · rcases lt_or_gt_of_ne hd with hd | hd
        · left
          refine ⟨Or.inl ?_, hd⟩
          have : ¬ n / d < 0 := not_lt.2 (div_nonneg_of_nonpos hn.le hd.le)
          simp [exactAzimuth, this]
        · right
          refine ⟨?_, hd⟩
          have : n / d < 0 := div_neg_of_neg_of_pos hn hd
          simp [exactAzimuth, this]; ring
      · rcases lt_or_gt_of_ne hd with hd | hd
        · left
          rcases hn with hn | ⟨_, h⟩
          · refine ⟨Or.inr ?_, hd⟩
            have : n / d < 0 := div_neg_of_pos_of_neg hn hd
            simp [exactAzimuth, this]; ring
          · exact absurd h (not_lt.2 hd.le)
        · right
          refine ⟨?_, hd⟩
          have hn : 0 ≤ n := by rcases hn with hn | ⟨hn, _⟩; exacts [hn.le, hn.ge]
          have : ¬ n / d < 0 := not_lt.2 (div_nonneg hn hd.le)
          simp [exactAzimuth, this]; ring
    rcases key with ⟨hk | hk, hd'⟩ | ⟨hk, hd'⟩
    · rw [hk, sin_arctan_div hd, cos_arctan_div hd, abs_of_neg hd']
      constructor <;> field_simp
    · rw [hk, sin_add_two_pi, cos_add_two_pi, sin_arctan_div hd, cos_arctan_div hd, abs_of_neg hd']
      constructor <;> field_simp
    · rw [hk, sin_add_pi, cos_add_pi, sin_arctan_div hd, cos_arctan_div hd, abs_of_pos hd']
      constructor <;> field_simp

/-! ## Radiation -/

theorem evalY_seven (a b c d e f g x : ℝ) :
    Poly.evalY [a, b, c, d, e, f, g] x =
      a + b * x + c * x ^ 2 + d * x ^ 3 + e * x ^ 4 + f * x ^ 5 + g * x ^ 6 := by
  simp only [Poly.evalY, Poly.yLoop]; ring

theorem evalY_three (a b c x : ℝ) : Poly.evalY [a, b, c] x = a + b * x + c * x ^ 2 := by
  simp only [Poly.evalY, Poly.yLoop]; ring

/-- A clear or industrial sky gives no negative radiation while the sun is between 1 and 91 degrees high. -/
theorem atmosphere_nonneg {u : UnitSystem} {q : Atmosphere} {cs : List ℝ} {x : ℝ} (h : atmosphere u q = some cs)
    (h1 : 1 ≤ x) (h2 : x ≤ 91) : 0 < Poly.evalY cs x := by
  have a : 0 ≤ x - 1 := by linarith
  have b : 0 ≤ 91 - x := by linarith
  have b0 : 0 ≤ (91 - x) ^ 6 := by positivity
  have b1 : 0 ≤ (x - 1) * (91 - x) ^ 5 := by positivity
  have b2 : 0 ≤ (x - 1) ^ 2 * (91 - x) ^ 4 := by positivity
  have b3 : 0 ≤ (x - 1) ^ 3 * (91 - x) ^ 3 := by positivity
  have b4 : 0 ≤ (x - 1) ^ 4 * (91 - x) ^ 2 := by positivity
  have b5 : 0 ≤ (x - 1) ^ 5 * (91 - x) := by positivity
  have b6 : 0 ≤ (x - 1) ^ 6 := by positivity
  cases u <;> cases q <;> simp only [atmosphere, reduceCtorEq, Option.some.injEq] at h <;> subst h <;>
    rw [evalY_seven] <;> norm_num <;> ring_nf at b0 b1 b2 b3 b4 b5 b6 ⊢ <;> linarith

theorem elevation_pos {u : UnitSystem} {e : ℝ} (h0 : 0 ≤ e) (hu : u ≠ .null) (h1 : e ≤ 15000) :
    0 < Poly.evalY (elevation u) e := by
  cases u <;> simp only [elevation, ne_eq, not_true_eq_false] at hu ⊢ <;> rw [evalY_three] <;> norm_num <;>
    nlinarith

end Verif.Sun
