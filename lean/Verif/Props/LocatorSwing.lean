import Verif.Props.Locator

/-!
# Properties of the cable position locator: where the hardware and the cable hang

C121: hardware swings to the inside of the line angle.  C123: the points of a span run from one attachment point to
the next.
-/

set_option linter.unusedSectionVars false

namespace Verif.Props
open Verif Verif.Units Verif.Locator

/-! ## The equilibrium of an attachment point -/

theorem angle_upper (v : V2) (hy : 0 ≤ v.y) (hv : ¬ (v.x = 0 ∧ v.y = 0)) : 0 ≤ v.angle ∧ v.angle ≤ 180 := by
  refine ⟨(C29_angle_range v hv).1, ?_⟩
  unfold V2.angle
  rw [if_neg hv]
  simp only [Bool.false_eq_true, and_false, if_false]
  by_cases h1 : v.x = 0 ∨ v.y = 0
  · rw [if_pos h1]
    by_cases h2 : v.x = 0
    · rw [if_pos h2]
      have : 0 < v.y := lt_of_le_of_ne hy (fun h => hv ⟨h2, h.symm⟩)
      rw [if_pos this, toDegrees_kPi_half]
      norm_num
    · rw [if_neg h2]
      split
      · norm_num
      · rw [show 2 * (kPi / 2) = kPi by ring, toDegrees_eq]
        have := kPi_pos.ne'
        rw [mul_div_cancel₀ _ this]
  · rw [if_neg h1, if_pos hy]
    push Not at h1
    split
    · have := toDegrees_lt (Real.arctan_lt_pi_div_two (v.y / v.x))
      linarith
    · have := toDegrees_nonneg (abs_nonneg (Real.arctan (v.y / v.x)))
      linarith

theorem sin_nonneg_degrees {a : ℝ} (h0 : 0 ≤ a) (h1 : a ≤ 180) : 0 ≤ Real.sin (toRadians a) := by
  rw [toRadians_eq]
  have hk := kPi_pos
  have hp := kPi_lt_pi
  apply Real.sin_nonneg_of_nonneg_of_le_pi (by positivity)
  have : a * (kPi / 180) ≤ 180 * (kPi / 180) := mul_le_mul_of_nonneg_right h1 (by positivity)
  linarith

theorem rotate_xy (v : V3) (t : ℝ) :
    v.rotate .xy t = ⟨((V2.mk v.x v.y).rotate t).x, ((V2.mk v.x v.y).rotate t).y, v.z⟩ := by
  unfold V3.rotate
  split
  · rename_i h
    unfold V2.rotate
    rw [if_pos h]
  · rfl

/-- A forward pull turned by up to 180 degrees. -/
theorem ahead_rotated {h t : ℝ} (hh : 0 < h) (h0 : 0 ≤ t) (h1 : t ≤ 180) :
    0 ≤ ((V2.mk h 0).rotate t).y ∧ (0.00005 ≤ t → ((V2.mk h 0).rotate t).y = h * Real.sin (toRadians t)) := by
  unfold V2.rotate
  have ha := (C29_axis_angles h hh).1
  have hm : (V2.mk h 0).magnitude = h := by
    unfold V2.magnitude
    simp [Real.sqrt_sq hh.le]
  split
  · rename_i hs
    exact ⟨le_refl _, fun hx => by rw [abs_of_nonneg h0] at hs; linarith⟩
  · simp only [ha, hm, zero_add]
    exact ⟨mul_nonneg hh.le (sin_nonneg_degrees h0 h1), fun _ => trivial⟩

/-- A backward pull turned back by up to 180 degrees. -/
theorem back_rotated {h t : ℝ} (hh : 0 < h) (h0 : -180 ≤ t) (h1 : t ≤ 0) : 0 ≤ ((V2.mk (-h) 0).rotate t).y := by
  unfold V2.rotate
  have ha := (C29_axis_angles h hh).2.2.1
  have hm : (V2.mk (-h) 0).magnitude = h := by
    unfold V2.magnitude
    simp [Real.sqrt_sq hh.le]
  split
  · exact le_refl _
  · simp only [ha, hm]
    exact mul_nonneg hh.le (sin_nonneg_degrees (by linarith) (by linarith))

/-- The pulls of a span hanging under its weight alone. -/
theorem vertical_pull {k : Catenary3d} (R : k.Reachable) (P : k.Physical) (hy : k.weightUnit.y = 0) (p : ℝ) :
    ((k.tensionVector p .positive).x = k.tensionHorizontal ∧ (k.tensionVector p .positive).y = 0) ∧
    ((k.tensionVector p .negative).x = -k.tensionHorizontal ∧ (k.tensionVector p .negative).y = 0) := by
  obtain ⟨h1, h2⟩ := C85_longitudinal_partial R P (Or.inr hy) p
  have h3 := (C51_vertical R P hy).2.2.1
  refine ⟨⟨h1, ?_⟩, ⟨h2, ?_⟩⟩
  · unfold Catenary3d.tensionVector
    rw [h3]; simp [V3.scale]
  · unfold Catenary3d.tensionVector
    rw [h3]; simp [V3.scale]

section
variable {d : Direction} {h : ℝ} {w : V3} {p q : P3}

theorem spanBetween_reachable : (spanBetween d h w p q).Reachable :=
  ⟨[.setDirection d, .setTension h, .setWeight w, .setSpacing ⟨(across p q).magnitude, 0, q.z - p.z⟩], rfl⟩

theorem spanBetween_physical (hh : 0 < h) (hx : w.x = 0) (hy : 0 ≤ w.y) (hz : 0 < w.z)
    (hs : (across p q).magnitude ≠ 0) : (spanBetween d h w p q).Physical :=
  ⟨hh, lt_of_le_of_ne (V2.magnitude_nonneg _) (Ne.symm hs), rfl, hx, hy, hz⟩

end

/-- The horizontal pull of both spans on an attachment point is towards the inside of the line angle. -/
theorem pull_inward {d : Direction} {h : ℝ} {w : V3} {b c a : P3} (hh : 0 < h) (hx : w.x = 0) (hy : w.y = 0)
    (hz : 0 < w.z) (h1 : (across b c).magnitude ≠ 0) (h2 : (across c a).magnitude ≠ 0) {t : ℝ} (h0 : 0 ≤ t)
    (h3 : t < 360) :
    0 ≤ (EquilibriumSolver.tensionCable t (lineDirection t) (spanBetween d h w b c) (spanBetween d h w c a)).y ∧
    (180.0001 ≤ t → h * Real.sin (toRadians ((t - 180) / 2)) ≤
      (EquilibriumSolver.tensionCable t (lineDirection t) (spanBetween d h w b c) (spanBetween d h w c a)).y) := by
  have Pb := spanBetween_physical (d := d) hh hx hy.ge hz h1
  have Pa := spanBetween_physical (d := d) hh hx hy.ge hz h2
  obtain ⟨-, b1, b2⟩ := vertical_pull spanBetween_reachable Pb hy 1
  obtain ⟨⟨a1, a2⟩, -⟩ := vertical_pull spanBetween_reachable Pa hy 0
  have eb : (spanBetween d h w b c).tensionHorizontal = h := rfl
  have ea : (spanBetween d h w c a).tensionHorizontal = h := rfl
  rw [eb] at b1
  rw [ea] at a1
  unfold EquilibriumSolver.tensionCable
  simp only [rotate_xy, b1, b2, a1, a2]
  by_cases ht : t ≤ 180
  · have hd : lineDirection t = .positive := if_pos ht
    rw [hd]
    simp only [if_true]
    have := back_rotated hh (t := (180 - t) / 2 * -1) (by linarith) (by linarith)
    have := (ahead_rotated hh (t := (180 - t) / 2) (by linarith) (by linarith)).1
    exact ⟨by linarith, fun hc => by linarith⟩
  · have hd : lineDirection t = .negative := if_neg ht
    rw [hd]
    simp only [reduceCtorEq, if_false]
    push Not at ht
    have i1 := back_rotated hh (t := (180 - t) / 2) (by linarith) (by linarith)
    have i2 := ahead_rotated hh (t := (180 - t) / 2 * -1) (by linarith) (by linarith)
    refine ⟨by linarith [i2.1], fun hc => ?_⟩
    rw [i2.2 (by linarith)]
    rw [show (180 - t) / 2 * -1 = (t - 180) / 2 by ring]
    linarith

theorem sin_unset : 0 < Real.sin (toRadians (-999999)) := by
  have h1 : toRadians (-999999) = (5556 * (Real.pi - kPi) + 81 * (kPi / 180)) - (2778 : ℕ) * (2 * Real.pi) := by
    rw [toRadians_eq]; push_cast; ring
  rw [h1, Real.sin_sub_nat_mul_two_pi]
  have h2 := pi_sub_kPi
  have h3 := kPi_lt_pi
  have h4 := kPi_pos
  have h5 : (3:ℝ) < kPi := by norm_num [kPi]
  apply Real.sin_pos_of_pos_of_lt_pi
  · have : 0 < 5556 * (Real.pi - kPi) := by linarith
    positivity
  · norm_num at h2 ⊢
    linarith

theorem sin_unset' : Real.sin (toRadians (360 - -999999)) < 0 := by
  have h1 : toRadians (360 - -999999) =
      -(5558 * (Real.pi - kPi) + 81 * (kPi / 180)) + (2779 : ℕ) * (2 * Real.pi) := by
    rw [toRadians_eq]; push_cast; ring
  rw [h1, Real.sin_add_nat_mul_two_pi, Real.sin_neg, neg_lt_zero]
  have h2 := pi_sub_kPi
  have h3 := kPi_lt_pi
  have h4 := kPi_pos
  have h5 : (3:ℝ) < kPi := by norm_num [kPi]
  apply Real.sin_pos_of_pos_of_lt_pi
  · have : 0 < 5558 * (Real.pi - kPi) := by linarith
    positivity
  · norm_num at h2 ⊢
    linarith

theorem swing_positive {t : V3} (h : 0 ≤ t.y) : 0 ≤ Real.sin (toRadians (t.angle .zy)) := by
  show 0 ≤ Real.sin (toRadians ((V2.mk t.z t.y).angle))
  by_cases hv : t.z = 0 ∧ t.y = 0
  · have : (V2.mk t.z t.y).angle = -999999 := by
      unfold V2.angle; rw [if_pos hv]
    rw [this]
    exact sin_unset.le
  · obtain ⟨h0, h1⟩ := angle_upper ⟨t.z, t.y⟩ h hv
    exact sin_nonneg_degrees h0 h1

theorem swing_negative {t : V3} (h : 0 ≤ t.y) : Real.sin (toRadians (360 - t.angle .zy)) ≤ 1e-14 ∧
    (0 < t.y → Real.sin (toRadians (360 - t.angle .zy)) * √(t.z ^ 2 + t.y ^ 2) ≤
      -t.y + 1e-14 * √(t.z ^ 2 + t.y ^ 2)) := by
  show Real.sin (toRadians (360 - (V2.mk t.z t.y).angle)) ≤ _ ∧ (0 < t.y →
    Real.sin (toRadians (360 - (V2.mk t.z t.y).angle)) * (V2.mk t.z t.y).magnitude ≤
      -t.y + 1e-14 * (V2.mk t.z t.y).magnitude)
  by_cases hv : t.z = 0 ∧ t.y = 0
  · have : (V2.mk t.z t.y).angle = -999999 := by
      unfold V2.angle; rw [if_pos hv]
    rw [this]
    exact ⟨sin_unset'.le.trans (by norm_num), fun hp => absurd hv.2 hp.ne'⟩
  · obtain ⟨-, -, φ, k, k0, k2, e, ex, ey⟩ := V2.angle_spec ⟨t.z, t.y⟩ hv
    set m := (V2.mk t.z t.y).magnitude with hm
    have hm0 : 0 ≤ m := V2.magnitude_nonneg _
    have hmp : 0 < m := by
      refine lt_of_le_of_ne hm0 (fun hx => hv ?_)
      exact (V2.magnitude_eq_zero ⟨t.z, t.y⟩).1 hx.symm
    simp only at ey
    have h2 := pi_sub_kPi
    have h3 := kPi_lt_pi
    have hs : Real.sin (toRadians (360 - (V2.mk t.z t.y).angle)) ≤ -Real.sin φ + 1e-14 := by
      rw [toRadians_sub, toRadians_360]
      have e1 : 2 * kPi - toRadians (V2.mk t.z t.y).angle = (-φ + (k - 2) * (Real.pi - kPi)) + 2 * Real.pi := by
        rw [e]; ring
      rw [e1, Real.sin_add_two_pi, ← Real.sin_neg]
      have := Real.abs_sin_sub_sin_le (-φ + (k - 2) * (Real.pi - kPi)) (-φ)
      rw [add_sub_cancel_left, abs_mul, abs_of_pos (by linarith : 0 < Real.pi - kPi)] at this
      have i1 : |k - 2| ≤ 2 := by rw [abs_le]; constructor <;> linarith
      have i2 : |k - 2| * (Real.pi - kPi) ≤ 1e-14 := by
        calc |k - 2| * (Real.pi - kPi) ≤ 2 * 4e-15 :=
              mul_le_mul i1 h2.le (by linarith) (by norm_num)
          _ ≤ 1e-14 := by norm_num
      have := (abs_le.1 (this.trans i2)).2
      linarith
    refine ⟨?_, fun _ => ?_⟩
    · have : 0 ≤ Real.sin φ := by
        by_contra hc
        push Not at hc
        nlinarith [mul_pos hmp (neg_pos.2 hc)]
      linarith
    · have := mul_le_mul_of_nonneg_right hs hm0
      nlinarith

theorem equilibrium_angle {d : Direction} {h : ℝ} {w : V3} {b c a : P3} {z0 z : ℝ} {s : EquilibriumSolver}
    (he : (equilibriumAt d h w b c a z0).angleEquilibriumQ = .ok s z) :
    z = (if lineDirection (angleBetween b c a) = .positive then
      (EquilibriumSolver.tensionCable (angleBetween b c a) (lineDirection (angleBetween b c a))
        (spanBetween d h w b c) (spanBetween d h w c a)).angle .zy
      else 360 - (EquilibriumSolver.tensionCable (angleBetween b c a) (lineDirection (angleBetween b c a))
        (spanBetween d h w b c) (spanBetween d h w c a)).angle .zy) := by
  unfold EquilibriumSolver.angleEquilibriumQ EquilibriumSolver.ask at he
  have hu : (equilibriumAt d h w b c a z0).isUpdated = false := rfl
  rw [hu, if_neg (by simp)] at he
  have hup : (equilibriumAt d h w b c a z0).update = _ := rfl
  conv at hup =>
    rhs
    unfold EquilibriumSolver.update
  simp only [equilibriumAt, EquilibriumSolver.setDirection, EquilibriumSolver.setAhead, EquilibriumSolver.setBack,
    EquilibriumSolver.setAngleHardware, EquilibriumSolver.setAngleCatenaries] at hup he
  rw [hup] at he
  cases he
  rfl

/-! ## C121 -/

/-- The sum of the unit vectors from `c` to `b` and to `a`, seen from above: it points to the inside of the angle. -/
noncomputable def inside (b c a : P3) : V2 :=
  ⟨(b.x - c.x) / √((b.x - c.x) ^ 2 + (b.y - c.y) ^ 2) + (a.x - c.x) / √((a.x - c.x) ^ 2 + (a.y - c.y) ^ 2),
   (b.y - c.y) / √((b.x - c.x) ^ 2 + (b.y - c.y) ^ 2) + (a.y - c.y) / √((a.x - c.x) ^ 2 + (a.y - c.y) ^ 2)⟩

/-- The difference of the compass headings from `c` to `a` and to `b`. -/
noncomputable def headings (b c a : P3) : ℝ :=
  |(V2.mk (a.x - c.x) (a.y - c.y)).angle - (V2.mk (b.x - c.x) (b.y - c.y)).angle|

/-- The points within a distance of a point. -/
def Within (p : P3) (l : ℝ) (q : P3) : Prop := sqDist p q ≤ l ^ 2

theorem bisector_inside {b c a : P3} {v : V2} (h : bisector b c a = some v) : v = inside b c a := by
  unfold bisector at h
  simp only at h
  split at h
  · cases h
  · cases h
    unfold inside across V2.scale V2.magnitude
    ext <;> simp only <;> ring

theorem angleBetween_headings {b c a : P3} (h : (across c a).magnitude ≠ 0) : angleBetween b c a = headings b c a := by
  unfold angleBetween headings
  have : 0 < (across c a).magnitude := lt_of_le_of_ne (V2.magnitude_nonneg _) (Ne.symm h)
  rw [V2.angle_scale _ (by positivity)]
  rfl

theorem headings_range {b c a : P3} (h1 : (across b c).magnitude ≠ 0) (h2 : (across c a).magnitude ≠ 0) :
    0 ≤ headings b c a ∧ headings b c a < 360 := by
  refine ⟨abs_nonneg _, ?_⟩
  have k1 : ¬ ((V2.mk (b.x - c.x) (b.y - c.y)).x = 0 ∧ (V2.mk (b.x - c.x) (b.y - c.y)).y = 0) := by
    rintro ⟨x, y⟩
    simp only at x y
    apply h1
    rw [V2.magnitude_eq_zero]
    unfold across
    constructor <;> simp only <;> linarith
  have k2 : ¬ ((V2.mk (a.x - c.x) (a.y - c.y)).x = 0 ∧ (V2.mk (a.x - c.x) (a.y - c.y)).y = 0) := by
    intro hx
    exact h2 ((V2.magnitude_eq_zero _).2 hx)
  obtain ⟨p1, p2⟩ := C29_angle_range _ k1
  obtain ⟨p3, p4⟩ := C29_angle_range _ k2
  unfold headings
  rw [abs_lt]
  constructor <;> linarith

/-- The displacement of an attachment point along the inside direction has the sign of the sine of its angle. -/
theorem displacement_inside (c : P3) (k : Spherical) (v : V2) (hk : k.angleX = v.angle) :
    ∃ f, 1 / 2 ≤ f ∧ f ≤ 1 ∧ ((place c k).x - c.x) * v.x + ((place c k).y - c.y) * v.y =
      k.radius * Real.sin (toRadians k.angleZ) * (v.magnitude * f) := by
  by_cases hv : v.x = 0 ∧ v.y = 0
  · refine ⟨1, by norm_num, le_refl _, ?_⟩
    rw [(V2.magnitude_eq_zero v).2 hv, hv.1, hv.2]; ring
  · obtain ⟨-, -, φ, n, n0, n2, e, ex, ey⟩ := V2.angle_spec v hv
    refine ⟨Real.cos (n * (Real.pi - kPi)), ?_, Real.cos_le_one _, ?_⟩
    · have h2 := pi_sub_kPi
      have h3 := kPi_lt_pi
      have h0 : 0 ≤ n * (Real.pi - kPi) := mul_nonneg n0 (by linarith)
      have h1 : n * (Real.pi - kPi) ≤ 1 := by
        calc n * (Real.pi - kPi) ≤ 2 * 4e-15 := mul_le_mul n2 h2.le (by linarith) (by norm_num)
          _ ≤ 1 := by norm_num
      have := Real.one_sub_sq_div_two_le_cos (x := n * (Real.pi - kPi))
      nlinarith
    · unfold place Spherical.offset
      simp only [add_sub_cancel_right]
      rw [hk]
      have e2 : toRadians v.angle = φ - n * (Real.pi - kPi) := by rw [e]; ring
      rw [e2]
      generalize n * (Real.pi - kPi) = ε
      set m := v.magnitude
      rw [ex, ey]
      generalize Real.sin (toRadians k.angleZ) = z
      have : Real.cos ε = Real.cos (φ - ε) * Real.cos φ + Real.sin (φ - ε) * Real.sin φ := by
        rw [← Real.cos_sub, show φ - ε - φ = -ε by ring, Real.cos_neg]
      rw [this]; ring

theorem inside_magnitude (b c a : P3) : (inside b c a).magnitude ≤ 2 := by
  have key : ∀ x y : ℝ, |x / √(x ^ 2 + y ^ 2)| ^ 2 + |y / √(x ^ 2 + y ^ 2)| ^ 2 ≤ 1 := by
    intro x y
    rw [sq_abs, sq_abs, div_pow, div_pow, Real.sq_sqrt (by positivity), ← add_div]
    exact div_self_le_one _
  unfold V2.magnitude
  rw [show (2:ℝ) = √(2 ^ 2) by rw [Real.sqrt_sq (by norm_num)]]
  apply Real.sqrt_le_sqrt
  unfold inside
  simp only
  have k1 := key (b.x - c.x) (b.y - c.y)
  have k2 := key (a.x - c.x) (a.y - c.y)
  rw [sq_abs, sq_abs] at k1 k2
  set p := (b.x - c.x) / √((b.x - c.x) ^ 2 + (b.y - c.y) ^ 2)
  set q := (b.y - c.y) / √((b.x - c.x) ^ 2 + (b.y - c.y) ^ 2)
  set r := (a.x - c.x) / √((a.x - c.x) ^ 2 + (a.y - c.y) ^ 2)
  set u := (a.y - c.y) / √((a.x - c.x) ^ 2 + (a.y - c.y) ^ 2)
  nlinarith [sq_nonneg (p - r), sq_nonneg (q - u)]

/-- What is known of an intermediate attachment point of a located cable: the last adjustment found it, from attachment
points within reach of the hardware. -/
theorem located_swing {as : Assemblies} {s : Locator} (hl : Locator.Located as s) {w : V3} (hw : s.weight = some w)
    {i : ℕ} (h0 : 0 < i) {b c a : P3} {lb lc la : ℝ} (eb : s.structures[i - 1]? = some b)
    (ec : s.structures[i]? = some c) (ea : s.structures[i + 1]? = some a) (fb : s.lengths[i - 1]? = some lb)
    (fc : s.lengths[i]? = some lc) (fa : s.lengths[i + 1]? = some la) {q : P3} (hq : s.points[i]? = some q) :
    ∃ b' c' a' k, Within b lb b' ∧ Within c lc c' ∧ Within a la a' ∧
      s.tension ≠ 0 ∧ w.magnitude ≠ 0 ∧ (across b' c').magnitude ≠ 0 ∧ (across c' a').magnitude ≠ 0 ∧
      q = place c k ∧ k.radius = lc ∧ k.angleX = (inside b c a).angle ∧
      k.angleZ = (if lineDirection (headings b' c' a') = .positive then
        (EquilibriumSolver.tensionCable (headings b' c' a') (lineDirection (headings b' c' a'))
          (spanBetween s.direction s.tension w b' c') (spanBetween s.direction s.tension w c' a')).angle .zy
        else 360 - (EquilibriumSolver.tensionCable (headings b' c' a') (lineDirection (headings b' c' a'))
          (spanBetween s.direction s.tension w b' c') (spanBetween s.direction s.tension w c' a')).angle .zy) := by
  obtain ⟨-, hf, hp, w', hw', hs0, m, hf0, hm, ha⟩ := hl
  rw [hw] at hw'
  cases hw'
  rw [hp] at hq
  obtain ⟨c1, k, g1, g2, g3⟩ := placed_get hq
  rw [ec] at g1
  cases g1
  obtain ⟨l1, l2⟩ := adjusted_some ha
  obtain ⟨t, ht⟩ := l2 i k g2
  have hn : ¬ (i = 0 ∨ i = s.structures.length - 1) := by
    have := (List.getElem?_eq_some_iff.1 ea).1
    omega
  obtain ⟨p0, -, hc⟩ := adjustAt_some ht
  rw [placed_length hf0.1] at hc
  rcases hc with ⟨hc, -⟩ | ⟨-, b', c', a', q1, q2, q3, z1, z2, z3, z4, s1, s2, y1, -, -⟩
  · exact absurd hc hn
  have hk := hf.2 i k g2
  unfold Fixed at hk
  rw [if_neg hn] at hk
  obtain ⟨b2, c2, a2, v, x1, x2, x3, x4, x5, x6⟩ := hk
  rw [eb] at x1; rw [ec] at x2; rw [ea] at x3
  cases x1; cases x2; cases x3
  rw [fc] at x5
  have near : ∀ {j : ℕ} {p p' : P3} {l : ℝ}, s.structures[j]? = some p → s.lengths[j]? = some l →
      (placed s.structures hs0)[j]? = some p' → Within p l p' := by
    intro j p p' l e1 e2 e3
    obtain ⟨p1, e4, e5⟩ := fits_dist hf0 e3
    rw [e1] at e4
    cases e4
    unfold Within
    rcases e5 with ⟨-, rfl⟩ | ⟨-, l1, e5, e6⟩
    · simp [sqDist, sq_nonneg]
    · rw [e2] at e5
      cases e5
      exact e6.le
  refine ⟨b', c', a', k, near eb fb q1, near ec fc q2, near ea fa q3, z1, z2, z3, z4, g3, ?_, ?_, ?_⟩
  · cases x5; rfl
  · rw [x6, bisector_inside x4]
  · have := equilibrium_angle y1
    rw [angleBetween_headings z4] at this
    exact this

/-- The data of a located cable as the line gives them: attachment points of the structures and hardware lengths. -/
theorem located_data {as : Assemblies} {s : Locator} (hl : Locator.Located as s) {g : GLine} (hg : s.line = some g)
    {k : LineCable} (hk : g.line.cables[s.index.toNat]? = some k) {i : ℕ} {c : Connection}
    (hc : k.connections[i]? = some c) {p : P3} {g' : GLine}
    (hp : g.pointXyzLineStructureAttachment (g.line.indexLineStructure c.ptr) c.attachment = .ok g' (some p)) :
    s.structures[i]? = some p ∧ s.lengths[i]? = some (as c.ptr c.attachment.toNat) := by
  obtain ⟨g1, k1, e1, -, e2, ds, e3, e4, e5⟩ := hl.line
  rw [hg] at e1
  cases e1
  rw [hk] at e2
  cases e2
  have hi : i < k.connections.length := (List.getElem?_eq_some_iff.1 hc).1
  have hld : ds.length = k.connections.length := e3.length_eq.symm
  have hd := (List.forall₂_iff_get.1 e3).2 i hi (by omega)
  simp only [List.get_eq_getElem] at hd
  rw [List.getElem?_eq_getElem hi] at hc
  cases hc
  obtain ⟨d1, -, g2, d2⟩ := hd
  rw [hp] at d2
  have hb : p = (ds[i]'(by omega)).1 := by cases d2; rfl
  rw [e4, e5, List.getElem?_map, List.getElem?_map, List.getElem?_eq_getElem (by omega)]
  exact ⟨by rw [hb]; rfl, by rw [← d1]; rfl⟩

section
variable {as : Assemblies} {s s' : Locator} {qs : List P3} {g : GLine} {k : LineCable}

/-- **C121** (partial). In still air, let a locator hand out attachment points, and let, at an intermediate structure,
the compass headings to the two neighbours differ by at most 180 degrees wherever within reach of the hardware they are
measured.  Then the attachment point is displaced to the inside of the line angle.  Missing: headings that differ by
more, see `C121_outside` and `C121_fails`. -/
theorem C121_inside_partial (hr : Located.Reached as s) (h : s.pointsAttachment as = .ok s' (some qs))
    (hg : s'.line = some g) (hk : g.line.cables[s.index.toNat]? = some k) {w : V3} (hw : s.weight = some w)
    (ht : 0 < s.tension) (hx : w.x = 0) (hy : w.y = 0) (hz : 0 < w.z) {i : ℕ} (hi : 0 < i) {cb cc ca : Connection}
    (eb : k.connections[i - 1]? = some cb) (ec : k.connections[i]? = some cc) (ea : k.connections[i + 1]? = some ca)
    {b c a : P3} {gb gc ga : GLine}
    (pb : g.pointXyzLineStructureAttachment (g.line.indexLineStructure cb.ptr) cb.attachment = .ok gb (some b))
    (pc : g.pointXyzLineStructureAttachment (g.line.indexLineStructure cc.ptr) cc.attachment = .ok gc (some c))
    (pa : g.pointXyzLineStructureAttachment (g.line.indexLineStructure ca.ptr) ca.attachment = .ok ga (some a))
    (hlen : 0 ≤ as cc.ptr cc.attachment.toNat)
    (hside : ∀ b' c' a', Within b (as cb.ptr cb.attachment.toNat) b' → Within c (as cc.ptr cc.attachment.toNat) c' →
      Within a (as ca.ptr ca.attachment.toNat) a' → headings b' c' a' ≤ 180) {q : P3} (hq : qs[i]? = some q) :
    0 ≤ (q.x - c.x) * (inside b c a).x + (q.y - c.y) * (inside b c a).y := by
  obtain ⟨h1, h2, h3, -⟩ := located_points (reached_sound hr) h
  obtain ⟨i1, i2, i3, i4⟩ := h2
  rw [← i2] at hk
  rw [← i4] at hw
  rw [← i3] at ht
  rw [← h3] at hq
  obtain ⟨b1, b2⟩ := located_data h1 hg hk eb pb
  obtain ⟨c1, c2⟩ := located_data h1 hg hk ec pc
  obtain ⟨a1, a2⟩ := located_data h1 hg hk ea pa
  obtain ⟨b', c', a', n, nb, nc, na, -, -, m1, m2, rfl, r, x, z⟩ := located_swing h1 hw hi b1 c1 a1 b2 c2 a2 hq
  obtain ⟨f, f0, -, e⟩ := displacement_inside c n (inside b c a) x
  rw [e, r]
  have hd := hside b' c' a' nb nc na
  have hpos : lineDirection (headings b' c' a') = .positive := if_pos hd
  rw [if_pos hpos] at z
  obtain ⟨r0, r1⟩ := headings_range m1 m2
  have hpull := (pull_inward (d := s'.direction) ht hx hy hz m1 m2 r0 r1).1
  have hsin := swing_positive hpull
  rw [← z] at hsin
  exact mul_nonneg (mul_nonneg hlen hsin) (mul_nonneg (V2.magnitude_nonneg _) (by linarith))

/-- **C121** is false: where the compass headings to the two neighbours differ by more than 180 degrees, the attachment
point is displaced to the outside of the line angle, or not at all, up to `2e-14` of the hardware length. -/
theorem C121_outside (hr : Located.Reached as s) (h : s.pointsAttachment as = .ok s' (some qs))
    (hg : s'.line = some g) (hk : g.line.cables[s.index.toNat]? = some k) {w : V3} (hw : s.weight = some w)
    (ht : 0 < s.tension) (hx : w.x = 0) (hy : w.y = 0) (hz : 0 < w.z) {i : ℕ} (hi : 0 < i) {cb cc ca : Connection}
    (eb : k.connections[i - 1]? = some cb) (ec : k.connections[i]? = some cc) (ea : k.connections[i + 1]? = some ca)
    {b c a : P3} {gb gc ga : GLine}
    (pb : g.pointXyzLineStructureAttachment (g.line.indexLineStructure cb.ptr) cb.attachment = .ok gb (some b))
    (pc : g.pointXyzLineStructureAttachment (g.line.indexLineStructure cc.ptr) cc.attachment = .ok gc (some c))
    (pa : g.pointXyzLineStructureAttachment (g.line.indexLineStructure ca.ptr) ca.attachment = .ok ga (some a))
    (hlen : 0 ≤ as cc.ptr cc.attachment.toNat)
    (hside : ∀ b' c' a', Within b (as cb.ptr cb.attachment.toNat) b' → Within c (as cc.ptr cc.attachment.toNat) c' →
      Within a (as ca.ptr ca.attachment.toNat) a' → 180 < headings b' c' a') {q : P3} (hq : qs[i]? = some q) :
    (q.x - c.x) * (inside b c a).x + (q.y - c.y) * (inside b c a).y ≤ 2e-14 * as cc.ptr cc.attachment.toNat := by
  obtain ⟨h1, h2, h3, -⟩ := located_points (reached_sound hr) h
  obtain ⟨i1, i2, i3, i4⟩ := h2
  rw [← i2] at hk
  rw [← i4] at hw
  rw [← i3] at ht
  rw [← h3] at hq
  obtain ⟨b1, b2⟩ := located_data h1 hg hk eb pb
  obtain ⟨c1, c2⟩ := located_data h1 hg hk ec pc
  obtain ⟨a1, a2⟩ := located_data h1 hg hk ea pa
  obtain ⟨b', c', a', n, nb, nc, na, -, -, m1, m2, rfl, r, x, z⟩ := located_swing h1 hw hi b1 c1 a1 b2 c2 a2 hq
  obtain ⟨f, f0, f1, e⟩ := displacement_inside c n (inside b c a) x
  rw [e, r]
  have hd := hside b' c' a' nb nc na
  have hneg : lineDirection (headings b' c' a') = .negative := if_neg (not_le.2 hd)
  rw [hneg, if_neg (by simp)] at z
  obtain ⟨r0, r1⟩ := headings_range m1 m2
  have hpull := (pull_inward (d := s'.direction) ht hx hy hz m1 m2 r0 r1).1
  rw [hneg] at hpull
  have hsin := (swing_negative hpull).1
  rw [← z] at hsin
  set l := as cc.ptr cc.attachment.toNat
  have hm := inside_magnitude b c a
  have hm0 := V2.magnitude_nonneg (inside b c a)
  have hmf0 : 0 ≤ (inside b c a).magnitude * f := mul_nonneg hm0 (by linarith)
  have hmf : (inside b c a).magnitude * f ≤ 2 := by nlinarith
  calc l * Real.sin (toRadians n.angleZ) * ((inside b c a).magnitude * f)
      ≤ l * 1e-14 * ((inside b c a).magnitude * f) :=
        mul_le_mul_of_nonneg_right (mul_le_mul_of_nonneg_left hsin hlen) hmf0
    _ ≤ l * 1e-14 * 2 := mul_le_mul_of_nonneg_left hmf (by positivity)
    _ = 2e-14 * l := by ring

/-! ## C123 -/

/-- **C123**. The points of a span of a located cable are as many as asked for; the first is the attachment point
behind, and the last is the attachment point ahead up to `5e-6` of their distance. -/
theorem C123_span (hr : Located.Reached as s) (h : s.pointsAttachment as = .ok s' (some qs)) {w : V3}
    (hw : s.weight = some w) (ht : 0 < s.tension) (hx : w.x = 0) (hy : 0 ≤ w.y) (hz : 0 < w.z) {i : ℕ} {p q : P3}
    (hp : qs[i]? = some p) (hq : qs[i + 1]? = some q) (hpq : ¬ (q.x = p.x ∧ q.y = p.y)) (num : ℤ) :
    ∃ rs, s.pointsCable as i num = .ok s' rs ∧ rs.length = num.toNat ∧ (1 ≤ num → rs[0]? = some p) ∧
      (2 ≤ num → ∃ r, rs.getLast? = some r ∧ |r.x - q.x| ≤ 5e-6 * √(sqDist p q) ∧
        |r.y - q.y| ≤ 5e-6 * √(sqDist p q) ∧ |r.z - q.z| ≤ 5e-6 * √(sqDist p q)) := by
  obtain ⟨h1, h2, h3, h4⟩ := located_points (reached_sound hr) h
  obtain ⟨i1, i2, i3, i4⟩ := h2
  have hlen := (List.getElem?_eq_some_iff.1 hq).1
  have hm : (across p q).magnitude ≠ 0 := by
    rw [Ne, V2.magnitude_eq_zero]
    unfold across
    rintro ⟨e1, e2⟩
    exact hpq ⟨by simp only at e1; linarith, by simp only at e2; linarith⟩
  have P := spanBetween_physical (d := s'.direction) ht hx hy hz hm
  have R : (spanBetween s'.direction s.tension w p q).Reachable := spanBetween_reachable
  have hwm : w.magnitude ≠ 0 := P.w_pos.ne'
  have hz0 : (spanBetween s'.direction s.tension w p q).coordinate 0 = ⟨0, 0, 0⟩ := C52_start R P
  have hend := C52_end R P
  refine ⟨tracePoints (spanBetween s'.direction s.tension w p q) p (across p q).angle num, ?_, ?_, ?_, ?_⟩
  · unfold pointsCable
    rw [h4, h3, if_neg (by push Not; constructor <;> omega), Int.toNat_natCast, hp, hq, i4, hw, i3]
    simp only
    rw [if_neg (by rintro ⟨-, e | e | e⟩; exacts [ht.ne' e, hwm e, hm e])]
  · simp [tracePoints]
  · intro h1
    have : 0 < num.toNat := by omega
    simp only [tracePoints, List.getElem?_map, List.getElem?_range this, Option.map_some, Nat.cast_zero, zero_mul]
    unfold pointAt
    rw [hz0]
    simp only [C30_rotate_zero, add_zero]
  · intro h2
    have hn : 0 < num.toNat := by omega
    have hlast : (num.toNat - 1 : ℕ) * (1 / ((num : ℝ) - 1)) = 1 := by
      have e1 : ((num.toNat - 1 : ℕ) : ℝ) = (num : ℝ) - 1 := by
        have : ((num.toNat - 1 : ℕ) : ℤ) = num - 1 := by omega
        have := congrArg (Int.cast : ℤ → ℝ) this
        push_cast at this
        exact_mod_cast this
      have h3 : (2:ℝ) ≤ num := by exact_mod_cast h2
      rw [e1]
      field_simp
      rw [div_self (by linarith)]
    set K := spanBetween s'.direction s.tension w p q with hK
    refine ⟨pointAt K p (across p q).angle 1, ?_, ?_⟩
    · have : num.toNat = (num.toNat - 1) + 1 := by omega
      unfold tracePoints
      rw [this, List.range_succ, List.map_append, List.map_singleton, List.getLast?_append]
      simp only [List.getLast?_singleton, Option.some_or]
      rw [hlast]
    · obtain ⟨x1, x2, x3⟩ := hend
      have hM : K.spacing.magnitude = √(sqDist p q) := by
        show √((across p q).magnitude ^ 2 + 0 ^ 2 + (q.z - p.z) ^ 2) = _
        rw [V2.magnitude_sq]
        unfold across sqDist
        simp only
        congr 1; ring
      have sx : K.spacing.x = (across p q).magnitude := rfl
      have sy : K.spacing.y = 0 := rfl
      have sz : K.spacing.z = q.z - p.z := rfl
      rw [hM] at x1 x2 x3
      rw [sx] at x1
      rw [sy, sub_zero] at x2
      rw [sz] at x3
      set M := √(sqDist p q)
      have hM0 : 0 ≤ M := Real.sqrt_nonneg _
      set u := K.coordinate 1
      set D := across p q with hD
      have hDM : D.magnitude ≤ M := by
        unfold V2.magnitude
        apply Real.sqrt_le_sqrt
        unfold sqDist
        show (q.x - p.x) ^ 2 + (q.y - p.y) ^ 2 ≤ _
        nlinarith [sq_nonneg (q.z - p.z)]
      have hD0 : ¬ (D.x = 0 ∧ D.y = 0) := fun hx => hm ((V2.magnitude_eq_zero D).2 hx)
      obtain ⟨a0, a1⟩ := C29_angle_range D hD0
      obtain ⟨b0, b1⟩ := C29_angle_reproduces D hD0 false
      obtain ⟨r0, r1⟩ := C31_rotate_accurate ⟨u.x, u.y⟩ D.angle (by rw [abs_of_nonneg a0]; linarith)
      change |D.magnitude * _ - _| ≤ _ * D.magnitude at b0
      change |D.magnitude * _ - _| ≤ _ * D.magnitude at b1
      have hun : √(u.x ^ 2 + u.y ^ 2) ≤ 1.1 * M := by
        have y1 := abs_le.1 x1
        have y2 := abs_le.1 x2
        apply Real.sqrt_le_iff.2
        refine ⟨by positivity, ?_⟩
        have z1 : |u.x| ≤ 1.01 * M := by
          have hd0 : 0 ≤ D.magnitude := V2.magnitude_nonneg _
          rw [abs_le]; constructor <;> linarith
        have z2 : |u.y| ≤ 0.01 * M := by rw [abs_le]; constructor <;> linarith
        have w1 : u.x ^ 2 ≤ (1.01 * M) ^ 2 := sq_le_sq' (by linarith [abs_le.1 z1]) (abs_le.1 z1).2
        have w2 : u.y ^ 2 ≤ (0.01 * M) ^ 2 := sq_le_sq' (by linarith [abs_le.1 z2]) (abs_le.1 z2).2
        nlinarith
      simp only [exactRotation] at r0 r1
      set C := Real.cos (D.angle * Real.pi / 180)
      set S := Real.sin (D.angle * Real.pi / 180)
      have hC : |C| ≤ 1 := Real.abs_cos_le_one _
      have hS : |S| ≤ 1 := Real.abs_sin_le_one _
      have dx : D.x = q.x - p.x := rfl
      have dy : D.y = q.y - p.y := rfl
      have prod : ∀ {e f B : ℝ}, |e| ≤ B → |f| ≤ 1 → |e * f| ≤ B := by
        intro e f B he hf
        rw [abs_mul]
        calc |e| * |f| ≤ |e| * 1 := mul_le_mul_of_nonneg_left hf (abs_nonneg _)
          _ ≤ B := by rw [mul_one]; exact he
      have p1 := abs_le.1 (prod x1 hC)
      have p2 := abs_le.1 (prod x2 hS)
      have p3 := abs_le.1 (prod x1 hS)
      have p4 := abs_le.1 (prod x2 hC)
      have q0 := abs_le.1 r0
      have q1 := abs_le.1 r1
      have t0 := abs_le.1 b0
      have t1 := abs_le.1 b1
      have hd0 : 0 ≤ D.magnitude := V2.magnitude_nonneg _
      refine ⟨?_, ?_, ?_⟩
      · show |p.x + ((V2.mk u.x u.y).rotate D.angle).x - q.x| ≤ _
        rw [abs_le]
        constructor <;> linarith
      · show |p.y + ((V2.mk u.x u.y).rotate D.angle).y - q.y| ≤ _
        rw [abs_le]
        constructor <;> linarith
      · show |p.z + u.z - q.z| ≤ _
        have := abs_le.1 x3
        rw [abs_le]
        constructor <;> linarith

end

end Verif.Props
