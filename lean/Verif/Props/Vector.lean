import Verif.VectorLemmas

/-! # Properties of vectors (C29 – C31) -/

namespace Verif.Props
open Real

/-! ## C29 -/

/-- C29: the angle of a nonzero vector is in `[0, 360)`. -/
theorem C29_angle_range (v : V2) (hv : ¬ (v.x = 0 ∧ v.y = 0)) : 0 ≤ v.angle ∧ v.angle < 360 :=
  ⟨(v.angle_spec hv).1, (v.angle_spec hv).2.1⟩

/-- C29: with negative angles enabled, it is in `(-180, 180]`. -/
theorem C29_angle_range_signed (v : V2) (hv : ¬ (v.x = 0 ∧ v.y = 0)) :
    -180 < v.angle true ∧ v.angle true ≤ 180 := by
  obtain ⟨h0, h1, -⟩ := v.angle_spec hv
  rw [v.angle_true hv]
  split
  · constructor <;> linarith
  · constructor <;> linarith

/-- C29: the vector of the same length at the returned angle (in degrees, with the exact π) reproduces
the components up to `1e-13` of the length, whether or not negative angles are enabled. -/
theorem C29_angle_reproduces (v : V2) (hv : ¬ (v.x = 0 ∧ v.y = 0)) (negative : Bool) :
    |√(v.x ^ 2 + v.y ^ 2) * cos (v.angle negative * π / 180) - v.x| ≤ 1e-13 * √(v.x ^ 2 + v.y ^ 2) ∧
    |√(v.x ^ 2 + v.y ^ 2) * sin (v.angle negative * π / 180) - v.y| ≤ 1e-13 * √(v.x ^ 2 + v.y ^ 2) := by
  obtain ⟨h0, h1, φ, k, hk0, hk2, hφ, hx, hy⟩ := v.angle_spec hv
  have hcos : cos (v.angle negative * π / 180) = cos (v.angle * π / 180) ∧
      sin (v.angle negative * π / 180) = sin (v.angle * π / 180) := by
    cases negative
    · exact ⟨rfl, rfl⟩
    · rw [v.angle_true hv]
      split
      · have : (v.angle - 360) * π / 180 = v.angle * π / 180 - 2 * π := by ring
        rw [this, cos_sub_two_pi, sin_sub_two_pi]; exact ⟨rfl, rfl⟩
      · exact ⟨rfl, rfl⟩
  rw [hcos.1, hcos.2]
  have hm := v.magnitude_nonneg
  have near := V2.polar_near v.magnitude (v.angle * π / 180) φ hm
  have hd : |v.angle * π / 180 - φ| ≤ 1e-13 := by
    have e1 := kPi_lt_pi
    have e2 := pi_sub_kPi
    have hd : v.angle * π / 180 - φ = (v.angle / 180 - k) * (π - Units.kPi) := by
      rw [hφ, toRadians_eq]; ring
    rw [hd, abs_mul, abs_of_pos (a := π - Units.kPi) (by linarith)]
    have : |v.angle / 180 - k| ≤ 2 := by rw [abs_le]; constructor <;> linarith
    calc _ ≤ 2 * (4e-15 : ℝ) := mul_le_mul this e2.le (by linarith) (by norm_num)
      _ ≤ _ := by norm_num
  change |v.magnitude * _ - _| ≤ 1e-13 * v.magnitude ∧ |v.magnitude * _ - _| ≤ 1e-13 * v.magnitude
  have hb := mul_le_mul_of_nonneg_left hd hm
  constructor
  · rw [hx] at *; exact near.1.trans (by linarith)
  · exact (by rw [← hy] at near; exact near.2.trans (by linarith))

/-- C29: the angle on each half axis is the exact constant. -/
theorem C29_axis_angles (a : ℝ) (ha : 0 < a) :
    (V2.mk a 0).angle = 0 ∧ (V2.mk 0 a).angle = 90 ∧ (V2.mk (-a) 0).angle = 180 ∧
    (V2.mk 0 (-a)).angle = 270 := by
  have hk := kPi_pos
  refine ⟨?_, ?_, ?_, ?_⟩ <;> simp [V2.angle, ha.ne', ha, not_lt.mpr ha.le, toDegrees_eq] <;>
    field_simp <;> norm_num

example : ∃ v : V2, ¬ (v.x = 0 ∧ v.y = 0) ∧ v.angle true = -90 :=
  ⟨⟨0, -1⟩, by norm_num, by
    rw [V2.angle_true _ (by norm_num), (C29_axis_angles 1 one_pos).2.2.2]; norm_num⟩

/-! ## C30 -/

/-- C30: rotating a plane vector keeps its length. -/
theorem C30_rotate_length (v : V2) (t : ℝ) :
    √((v.rotate t).x ^ 2 + (v.rotate t).y ^ 2) = √(v.x ^ 2 + v.y ^ 2) :=
  v.rotate_magnitude t

theorem rotate_sq (v : V2) (t : ℝ) : (v.rotate t).x ^ 2 + (v.rotate t).y ^ 2 = v.x ^ 2 + v.y ^ 2 := by
  rw [← V2.magnitude_sq, ← V2.magnitude_sq, V2.rotate_magnitude]

/-- C30: rotating a space vector in any plane keeps its length. -/
theorem C30_rotate_length_3d (v : V3) (p : Plane) (t : ℝ) :
    √((v.rotate p t).x ^ 2 + (v.rotate p t).y ^ 2 + (v.rotate p t).z ^ 2) =
      √(v.x ^ 2 + v.y ^ 2 + v.z ^ 2) := by
  congr 1
  unfold V3.rotate
  split
  · rfl
  · cases p <;> simp only [V3.planar, V3.setPlanar]
    · have := rotate_sq ⟨v.x, v.y⟩ t; simp only at this; linarith
    · have := rotate_sq ⟨v.x, v.z⟩ t; simp only at this; linarith
    · have := rotate_sq ⟨v.y, v.x⟩ t; simp only at this; linarith
    · have := rotate_sq ⟨v.y, v.z⟩ t; simp only at this; linarith
    · have := rotate_sq ⟨v.z, v.x⟩ t; simp only at this; linarith
    · have := rotate_sq ⟨v.z, v.y⟩ t; simp only at this; linarith

/-- C30: the zero vector stays zero. -/
theorem C30_rotate_zero (t : ℝ) : (V2.mk 0 0).rotate t = ⟨0, 0⟩ := by
  have h := (V2.magnitude_eq_zero ((V2.mk 0 0).rotate t)).mp (by
    rw [V2.rotate_magnitude, V2.magnitude_eq_zero]; exact ⟨rfl, rfl⟩)
  ext
  · exact h.1
  · exact h.2

/-! ## C31 -/

/-- The exact counter-clockwise rotation by `t` degrees. -/
noncomputable def exactRotation (v : V2) (t : ℝ) : V2 :=
  ⟨v.x * cos (t * π / 180) - v.y * sin (t * π / 180), v.x * sin (t * π / 180) + v.y * cos (t * π / 180)⟩

theorem exactRotation_polar (m φ t : ℝ) :
    exactRotation ⟨m * cos φ, m * sin φ⟩ t = ⟨m * cos (φ + t * π / 180), m * sin (φ + t * π / 180)⟩ := by
  unfold exactRotation
  ext
  · simp only; rw [cos_add]; ring
  · simp only; rw [sin_add]; ring

/-- C31: `Rotate` agrees with the exact rotation up to `1e-6` of the length. -/
theorem C31_rotate_accurate (v : V2) (t : ℝ) (ht : |t| ≤ 360) :
    |(v.rotate t).x - (exactRotation v t).x| ≤ 1e-6 * √(v.x ^ 2 + v.y ^ 2) ∧
    |(v.rotate t).y - (exactRotation v t).y| ≤ 1e-6 * √(v.x ^ 2 + v.y ^ 2) := by
  change _ ≤ 1e-6 * v.magnitude ∧ _ ≤ 1e-6 * v.magnitude
  by_cases hv : v.x = 0 ∧ v.y = 0
  · have : v = ⟨0, 0⟩ := V2.ext hv.1 hv.2
    subst this
    rw [C30_rotate_zero]
    simp [exactRotation, V2.magnitude]
  obtain ⟨h0, h1, φ, k, hk0, hk2, hφ, hx, hy⟩ := v.angle_spec hv
  have hm := v.magnitude_nonneg
  have hve : exactRotation v t = ⟨v.magnitude * cos (φ + t * π / 180),
      v.magnitude * sin (φ + t * π / 180)⟩ := by
    rw [← exactRotation_polar, ← hx, ← hy]
  rw [hve]
  have finish : ∀ a : ℝ, |a - (φ + t * π / 180)| ≤ 1e-6 →
      |v.magnitude * cos a - v.magnitude * cos (φ + t * π / 180)| ≤ 1e-6 * v.magnitude ∧
      |v.magnitude * sin a - v.magnitude * sin (φ + t * π / 180)| ≤ 1e-6 * v.magnitude := by
    intro a ha
    have near := V2.polar_near v.magnitude a (φ + t * π / 180) hm
    have hb := mul_le_mul_of_nonneg_left ha hm
    exact ⟨near.1.trans (by linarith), near.2.trans (by linarith)⟩
  have e1 := kPi_lt_pi
  have e2 := pi_sub_kPi
  unfold V2.rotate
  split
  · rename_i hs
    have := finish φ (by
      rw [show φ - (φ + t * π / 180) = -(t * π / 180) by ring, abs_neg, abs_div, abs_mul,
        abs_of_pos pi_pos, abs_of_pos (by norm_num : (0 : ℝ) < 180)]
      have hp := pi_lt_d2
      rw [div_le_iff₀ (by norm_num)]
      have hs' : |t| < 1 / 20000 := by norm_num at hs ⊢; exact hs
      have ha := abs_nonneg t
      have : |t| * π ≤ 1 / 20000 * 3.15 := mul_le_mul hs'.le hp.le pi_pos.le (by norm_num)
      norm_num at this ⊢; linarith)
    rw [← hx, ← hy] at this
    exact this
  · refine finish _ ?_
    have hd : toRadians (v.angle + t) - (φ + t * π / 180) = -((k + t / 180) * (π - Units.kPi)) := by
      rw [hφ, toRadians_add, toRadians_eq t]; ring
    rw [hd, abs_neg, abs_mul, abs_of_pos (a := π - Units.kPi) (by linarith)]
    have hb : |k + t / 180| ≤ 4 := by
      rw [abs_le] at ht ⊢; constructor <;> linarith [ht.1, ht.2]
    calc _ ≤ 4 * (4e-15 : ℝ) := mul_le_mul hb e2.le (by linarith) (by norm_num)
      _ ≤ _ := by norm_num

/-- C31: rotation depends on direction only: scaling before or after is the same. -/
theorem C31_rotate_scale (v : V2) (f : ℝ) (hf : 0 < f) (t : ℝ) :
    (v.scale f).rotate t = (v.rotate t).scale f :=
  v.rotate_scale hf t

example : ∃ t : ℝ, |t| ≤ 360 ∧ ¬ |t| < 0.00005 ∧
    exactRotation ⟨1, 0⟩ t = ⟨0, 1⟩ := by
  refine ⟨90, by norm_num [abs_of_pos], by norm_num [abs_of_pos], ?_⟩
  have : (90 : ℝ) * π / 180 = π / 2 := by ring
  simp [exactRotation, this]

end Verif.Props
