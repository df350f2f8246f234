import Verif.Props.Catenary3d

/-!
# C139: the answers of a catenary do not depend on the units

Lengths are measured in a unit `a` times smaller and forces in a unit `b` times smaller.
-/

set_option linter.unusedSectionVars false

namespace Verif.Props

open Verif.Units

section Vectors

variable {a : ℝ}

theorem v2_angle_scale (ha : 0 < a) (v : V2) (n : Bool) : (v.scale a).angle n = v.angle n := by
  have hz : ∀ x : ℝ, x * a = 0 ↔ x = 0 := fun x => by simp [ha.ne']
  have hp : ∀ x : ℝ, 0 < x * a ↔ 0 < x := fun x => mul_pos_iff_of_pos_right ha
  have hn : ∀ x : ℝ, 0 ≤ x * a ↔ 0 ≤ x := fun x => mul_nonneg_iff_of_pos_right ha
  have hl : ∀ x : ℝ, x * a ≤ 0 ↔ x ≤ 0 := fun x => by
    rw [← not_lt, ← not_lt, hp]
  have hd : v.y * a / (v.x * a) = v.y / v.x := mul_div_mul_right _ _ ha.ne'
  simp only [V2.angle, V2.scale, hz, hp, hn, hl, hd]

theorem v2_magnitude_scale (ha : 0 < a) (v : V2) : (v.scale a).magnitude = v.magnitude * a := by
  unfold V2.magnitude V2.scale
  rw [show (v.x * a) ^ 2 + (v.y * a) ^ 2 = (v.x ^ 2 + v.y ^ 2) * a ^ 2 by ring, Real.sqrt_mul (by positivity),
    Real.sqrt_sq ha.le]

theorem v2_rotate_scale (ha : 0 < a) (v : V2) (t : ℝ) : (v.scale a).rotate t = (v.rotate t).scale a := by
  unfold V2.rotate
  split_ifs
  · rfl
  · rw [v2_angle_scale ha, v2_magnitude_scale ha]
    unfold V2.scale
    ext <;> simp only <;> ring

theorem planar_scale (v : V3) (p : Plane) : (v.scale a).planar p = (v.planar p).map fun w => w.scale a := by
  cases p <;> rfl

theorem setPlanar_scale (v : V3) (w : V2) (p : Plane) :
    (v.scale a).setPlanar (w.scale a) p = (v.setPlanar w p).scale a := by
  cases p <;> rfl

theorem v3_angle_scale (ha : 0 < a) (v : V3) (p : Plane) (n : Bool) : (v.scale a).angle p n = v.angle p n := by
  unfold V3.angle
  rw [planar_scale]
  cases v.planar p with
  | none => rfl
  | some w => exact v2_angle_scale ha w n

theorem v3_rotate_scale (ha : 0 < a) (v : V3) (p : Plane) (t : ℝ) :
    (v.scale a).rotate p t = (v.rotate p t).scale a := by
  unfold V3.rotate
  split_ifs
  · rfl
  · rw [planar_scale]
    cases v.planar p with
    | none => rfl
    | some w =>
      show (v.scale a).setPlanar ((w.scale a).rotate t) p = (v.setPlanar (w.rotate t) p).scale a
      rw [v2_rotate_scale ha, setPlanar_scale]

end Vectors

/-! ## Two dimensions -/

/-- Parameters and results of a catenary in other units. -/
structure Scaled2 (a b : ℝ) (k k' : Catenary2d) : Prop where
  c : k'.tensionHorizontal / k'.weightUnit = k.tensionHorizontal / k.weightUnit * a
  h : k'.tensionHorizontal = k.tensionHorizontal * b
  w : k'.weightUnit = k.weightUnit * (b / a)
  spacing : k'.spacing = k.spacing.scale a
  length : k'.length = k.length * a
  lengthLeft : k'.lengthLeft = k.lengthLeft * a
  left : k'.left = k.left.scale a
  right : k'.right = k.right.scale a

variable {a b : ℝ}

theorem constant_scale (ha : 0 < a) (hb : 0 < b) (h w : ℝ) : h * b / (w * (b / a)) = h / w * a := by
  rcases eq_or_ne w 0 with rfl | hw
  · simp
  · field_simp

theorem coordinateY_scale (ha : 0 < a) {k k' : Catenary2d}
    (hc : k'.tensionHorizontal / k'.weightUnit = k.tensionHorizontal / k.weightUnit * a) (x : ℝ) :
    k'.coordinateY (x * a) = k.coordinateY x * a := by
  unfold Catenary2d.coordinateY
  rw [hc, mul_div_mul_right _ _ ha.ne']
  ring

theorem lengthFromOrigin_scale (ha : 0 < a) {k k' : Catenary2d}
    (hc : k'.tensionHorizontal / k'.weightUnit = k.tensionHorizontal / k.weightUnit * a) (x : ℝ) :
    k'.lengthFromOrigin (x * a) = k.lengthFromOrigin x * a := by
  unfold Catenary2d.lengthFromOrigin
  rw [hc, mul_div_mul_right _ _ ha.ne']
  ring

theorem update_scaled (ha : 0 < a) (hb : 0 < b) {k k' : Catenary2d} (h : k'.tensionHorizontal = k.tensionHorizontal * b)
    (w : k'.weightUnit = k.weightUnit * (b / a)) (s : k'.spacing = k.spacing.scale a) :
    Scaled2 a b k.update k'.update := by
  have c : k'.tensionHorizontal / k'.weightUnit = k.tensionHorizontal / k.weightUnit * a := by
    rw [h, w, constant_scale ha hb]
  have cy := coordinateY_scale ha c
  have cl := lengthFromOrigin_scale ha c
  have sx : k'.spacing.x = k.spacing.x * a := by rw [s]; rfl
  have sy : k'.spacing.y = k.spacing.y * a := by rw [s]; rfl
  have hz : k'.spacing.x / 2 / (k'.tensionHorizontal / k'.weightUnit) =
      k.spacing.x / 2 / (k.tensionHorizontal / k.weightUnit) := by
    rw [c, sx, show k.spacing.x * a / 2 = k.spacing.x / 2 * a by ring, mul_div_mul_right _ _ ha.ne']
  have hr : ∀ z y : ℝ, k'.spacing.y * z / (k'.spacing.x * y) = k.spacing.y * z / (k.spacing.x * y) := by
    intro z y
    rw [sx, sy, show k.spacing.y * a * z = k.spacing.y * z * a by ring, show k.spacing.x * a * y = k.spacing.x * y * a by ring,
      mul_div_mul_right _ _ ha.ne']
  have hl : k'.update.left.x = k.update.left.x * a := by
    simp only [Catenary2d.update, Catenary2d.updateLengths, Catenary2d.updateEndPoints]
    rw [hz, hr, c]
    ring
  have hr' : k'.update.right.x = k.update.right.x * a := by
    simp only [Catenary2d.update, Catenary2d.updateLengths, Catenary2d.updateEndPoints]
    rw [hz, hr, c]
    ring
  refine ⟨c, h, w, s, ?_, ?_, ?_, ?_⟩
  · show k'.lengthFromOrigin k'.update.right.x - k'.lengthFromOrigin k'.update.left.x = _
    rw [hl, hr', cl, cl, ← sub_mul]
    rfl
  · show k'.lengthFromOrigin k'.update.left.x = _
    rw [hl, cl]
    rfl
  · refine V2.ext hl ?_
    show k'.coordinateY k'.update.left.x = _
    rw [hl, cy]
    rfl
  · refine V2.ext hr' ?_
    show k'.coordinateY k'.update.right.x = _
    rw [hr', cy]
    rfl

section Bodies

variable (ha : 0 < a) (hb : 0 < b) {k k' : Catenary2d} (S : Scaled2 a b k k')
include ha hb S

theorem coordinateX_scale (p : ℝ) : k'.coordinateX p = k.coordinateX p * a := by
  simp only [Catenary2d.coordinateX]
  rw [S.c, S.length, S.lengthLeft, show p * (k.length * a) + k.lengthLeft * a = (p * k.length + k.lengthLeft) * a by ring,
    mul_div_mul_right _ _ ha.ne']
  ring

theorem coordinateBody_scale (p : ℝ) (n : Bool) : k'.coordinateBody p n = (k.coordinateBody p n).scale a := by
  simp only [Catenary2d.coordinateBody]
  rw [coordinateX_scale ha hb S, coordinateY_scale ha S.c, S.left]
  split_ifs
  · exact V2.ext (by simp only [V2.scale]; ring) (by simp only [V2.scale]; ring)
  · rfl

theorem coordinateChordBody_scale (p : ℝ) (n : Bool) :
    k'.coordinateChordBody p n = (k.coordinateChordBody p n).scale a := by
  simp only [Catenary2d.coordinateChordBody]
  rw [coordinateBody_scale ha hb S, S.left, S.spacing]
  have e : (k.spacing.scale a).y / (k.spacing.scale a).x = k.spacing.y / k.spacing.x := mul_div_mul_right _ _ ha.ne'
  rw [e]
  split_ifs
  · exact V2.ext (by simp only [V2.scale]; ring) (by simp only [V2.scale]; ring)
  · exact V2.ext rfl (by simp only [V2.scale]; ring)

theorem positionFraction_scale (t : ℝ) : k'.positionFractionBody t = k.positionFractionBody t := by
  simp only [Catenary2d.positionFractionBody, Catenary2d.convertToPositionFraction]
  rw [S.c, show ∀ x y : ℝ, x * a * y = x * y * a from fun x y => by ring, lengthFromOrigin_scale ha S.c, S.lengthLeft,
    S.length, ← sub_mul, mul_div_mul_right _ _ ha.ne']

theorem sagPoint_scale : k'.positionFractionSagPointBody = k.positionFractionSagPointBody := by
  unfold Catenary2d.positionFractionSagPointBody
  rw [positionFraction_scale ha hb S, S.spacing, v2_angle_scale ha]

theorem sagBody_scale (p : ℝ) : k'.sagBody p = k.sagBody p * a := by
  unfold Catenary2d.sagBody
  rw [coordinateBody_scale ha hb S, coordinateChordBody_scale ha hb S]
  simp only [V2.scale]
  ring

theorem tangentVectorBody_scale (p : ℝ) (d : Direction) : k'.tangentVectorBody p d = k.tangentVectorBody p d := by
  simp only [Catenary2d.tangentVectorBody, Catenary2d.tangentAngleBody]
  rw [coordinateX_scale ha hb S, S.c, mul_div_mul_right _ _ ha.ne']

theorem tensionBody_scale (p : ℝ) : k'.tensionBody p = k.tensionBody p * b := by
  simp only [Catenary2d.tensionBody]
  rw [coordinateX_scale ha hb S, S.c, mul_div_mul_right _ _ ha.ne', S.h]
  ring

theorem tensionAverageBody_scale {n : Int} (hn : 0 ≤ n) : k'.tensionAverageBody n = k.tensionAverageBody n * b := by
  simp only [Catenary2d.tensionAverageBody]
  split_ifs with h1 h2
  · have hr : k'.right.x = k.right.x * a := by rw [S.right]; rfl
    have hl : k'.left.x = k.left.x * a := by rw [S.left]; rfl
    rw [S.c, hr, hl, ← sub_mul, mul_div_mul_right _ _ ha.ne', mul_div_mul_right _ _ ha.ne',
      mul_div_mul_right _ _ ha.ne', S.h, S.w, S.length]
    have e : (k.tensionHorizontal * b) ^ 2 / (2 * (k.weightUnit * (b / a)) * (k.length * a)) =
        k.tensionHorizontal ^ 2 / (2 * k.weightUnit * k.length) * b := by
      rw [show (k.tensionHorizontal * b) ^ 2 = k.tensionHorizontal ^ 2 * b * b by ring,
        show 2 * (k.weightUnit * (b / a)) * (k.length * a) = 2 * k.weightUnit * k.length * b by field_simp,
        mul_div_mul_right _ _ hb.ne']
      ring
    rw [e]
    ring
  · rw [show (fun i : ℕ => k'.tensionBody ((i : ℝ) / (n : ℝ))) = fun i : ℕ => k.tensionBody ((i : ℝ) / (n : ℝ)) * b from
      funext fun i => tensionBody_scale ha hb S _, List.sum_map_mul_right]
    ring
  · omega

theorem tensionMaxBody_scale : k'.tensionMaxBody = k.tensionMaxBody * b := by
  have e : k'.spacing.y ≤ 0 ↔ k.spacing.y ≤ 0 := by
    rw [S.spacing]
    show k.spacing.y * a ≤ 0 ↔ _
    rw [← not_lt, ← not_lt, mul_pos_iff_of_pos_right ha]
  simp only [Catenary2d.tensionMaxBody, e, tensionBody_scale ha hb S]
  split_ifs <;> rfl

end Bodies

/-! ## Three dimensions -/

/-- `k'` is `k` with lengths in a unit `a` times smaller and forces in a unit `b` times smaller. -/
structure OtherUnits (a b : ℝ) (k k' : Catenary3d) : Prop where
  direction : k'.direction = k.direction
  spacing : k'.spacing = k.spacing.scale a
  tension : k'.tensionHorizontal = k.tensionHorizontal * b
  weight : k'.weightUnit = k.weightUnit.scale (b / a)

section Spatial

variable (ha : 0 < a) (hb : 0 < b) {k k' : Catenary3d} (R : k.Reachable) (R' : k'.Reachable) (S : OtherUnits a b k k')
include ha hb S

theorem spacing2d_scale : k'.spacing2d = k.spacing2d.scale a := by
  have hq : 0 < b / a := by positivity
  have e1 : |k'.weightUnit.z| / k'.weightUnit.magnitude = |k.weightUnit.z| / k.weightUnit.magnitude := by
    rw [S.weight, V3.magnitude_scale _ hq.le]
    show |k.weightUnit.z * (b / a)| / _ = _
    rw [abs_mul, abs_of_pos hq, mul_div_mul_right _ _ hq.ne']
  have e2 : k'.spacing.z = k.spacing.z * a := by rw [S.spacing]; rfl
  simp only [Catenary3d.spacing2d]
  rw [e1, e2, S.spacing, V3.magnitude_scale _ ha.le]
  refine V2.ext ?_ ?_
  · simp only [V2.scale]
    rw [show (k.spacing.magnitude * a) ^ 2 - (k.spacing.z * a * (|k.weightUnit.z| / k.weightUnit.magnitude)) ^ 2 =
      (k.spacing.magnitude ^ 2 - (k.spacing.z * (|k.weightUnit.z| / k.weightUnit.magnitude)) ^ 2) * a ^ 2 by ring,
      Real.sqrt_mul' _ (by positivity), Real.sqrt_sq ha.le]
  · simp only [V2.scale]
    ring

include R R'

theorem inner_scaled : Scaled2 a b k.refresh.catenary2d.refresh k'.refresh.catenary2d.refresh := by
  obtain ⟨r1, s1, w1⟩ := R.inner
  obtain ⟨r2, s2, w2⟩ := R'.inner
  rw [r1.refresh_eq, r2.refresh_eq]
  refine update_scaled ha hb ?_ ?_ ?_
  · rw [(Catenary3d.refresh_params k).2.2.2, (Catenary3d.refresh_params k').2.2.2, S.tension]
  · rw [w1, w2, S.weight, V3.magnitude_scale _ (by positivity)]
  · rw [s1, s2, spacing2d_scale ha hb S]

theorem tangent3_scale (p : ℝ) (d : Direction) : k'.tangentVector p d = k.tangentVector p d := by
  have hq : 0 < b / a := by positivity
  have I := inner_scaled ha hb R R' S
  obtain ⟨d1, sp1, wt1, -⟩ := Catenary3d.refresh_params k
  obtain ⟨d2, sp2, wt2, -⟩ := Catenary3d.refresh_params k'
  have s1 := R.inner.2.1
  have s2 := R'.inner.2.1
  have hz : k'.spacing.z ≠ 0 ↔ k.spacing.z ≠ 0 := by
    rw [S.spacing]; show k.spacing.z * a ≠ 0 ↔ _; simp [ha.ne']
  have hy : k'.weightUnit.y ≠ 0 ↔ k.weightUnit.y ≠ 0 := by
    rw [S.weight]; show k.weightUnit.y * (b / a) ≠ 0 ↔ _; simp [hb.ne', ha.ne']
  have hsw : k'.weightUnit.y / k'.weightUnit.z = k.weightUnit.y / k.weightUnit.z := by
    rw [S.weight]; exact mul_div_mul_right _ _ hq.ne'
  simp only [Catenary3d.tangentVector, Catenary3d.tangentVectorBody, Catenary3d.swingAngleBody, Catenary2d.tangentVector]
  rw [tangentVectorBody_scale ha hb I, d1, d2, sp1, sp2, wt1, wt2, s1, s2, hsw, spacing2d_scale ha hb S,
    v2_angle_scale ha, S.direction]
  have hang : k'.spacing.angle .xz true = k.spacing.angle .xz true := by rw [S.spacing, v3_angle_scale ha]
  simp only [hz, hy, hang]

theorem chord3_scale (p : ℝ) : k'.coordinateChord p = (k.coordinateChord p).scale a := by
  have I := inner_scaled ha hb R R' S
  obtain ⟨-, sp1, -, -⟩ := Catenary3d.refresh_params k
  obtain ⟨-, sp2, -, -⟩ := Catenary3d.refresh_params k'
  have s1 := R.inner.2.1
  have s2 := R'.inner.2.1
  simp only [Catenary3d.coordinateChord, Catenary3d.coordinateChordBody, Catenary2d.coordinateChord]
  rw [coordinateChordBody_scale ha hb I, sp1, sp2, s1, s2, spacing2d_scale ha hb S, v2_angle_scale ha, S.spacing,
    v3_angle_scale ha, ← v3_rotate_scale ha]
  congr 1
  simp only [V2.scale, V3.scale, sub_zero, zero_mul]

theorem coordinate3_scale (p : ℝ) : k'.coordinate p = (k.coordinate p).scale a := by
  have hq : 0 < b / a := by positivity
  have I := inner_scaled ha hb R R' S
  obtain ⟨d1, sp1, wt1, -⟩ := Catenary3d.refresh_params k
  obtain ⟨d2, sp2, wt2, -⟩ := Catenary3d.refresh_params k'
  have s1 := R.inner.2.1
  have s2 := R'.inner.2.1
  have hc : k'.refresh.coordinateChordBody p = (k.refresh.coordinateChordBody p).scale a := chord3_scale ha hb R R' S p
  simp only [Catenary3d.coordinate, Catenary3d.coordinateBody, Catenary2d.coordinateChord, Catenary2d.coordinate]
  rw [hc, coordinateChordBody_scale ha hb I, coordinateBody_scale ha hb I, sp1, sp2, s1, s2, wt1, wt2, d1, d2,
    spacing2d_scale ha hb S, v2_angle_scale ha, S.spacing, S.weight, S.direction, v3_angle_scale ha, v3_angle_scale hq]
  have e : ∀ u v : V2, (V3.mk ((u.scale a).x - (v.scale a).x) 0 ((u.scale a).y - (v.scale a).y)) =
      (V3.mk (u.x - v.x) 0 (u.y - v.y)).scale a := fun u v => by
    simp only [V2.scale, V3.scale, zero_mul, sub_mul]
  rw [e, v3_rotate_scale ha, v3_rotate_scale ha]
  simp only [V3.scale, add_mul]

/-- **C139**: the same span in other units, whatever the histories of the two catenaries: lengths, sags and coordinates
are the same lengths, tensions are the same forces, and angles, position fractions and directions are equal. -/
theorem C139_same_span :
    k'.constant = k.constant * a ∧ k'.length = k.length * a ∧ k'.lengthSlack = k.lengthSlack * a ∧
    k'.sag = k.sag * a ∧ (∀ p, k'.sagAt p = k.sagAt p * a) ∧
    (∀ p, k'.coordinate p = (k.coordinate p).scale a) ∧ (∀ p, k'.coordinateChord p = (k.coordinateChord p).scale a) ∧
    k'.positionFractionOrigin = k.positionFractionOrigin ∧ k'.positionFractionSagPoint = k.positionFractionSagPoint ∧
    k'.swingAngle = k.swingAngle ∧ (∀ p d, k'.tangentVector p d = k.tangentVector p d) ∧
    (∀ p d, k'.tangentAngleTransverse p d = k.tangentAngleTransverse p d) ∧
    (∀ p d, k'.tangentAngleVertical p d = k.tangentAngleVertical p d) ∧
    (∀ p, k'.tension p = k.tension p * b) ∧ (∀ p d, k'.tensionVector p d = (k.tensionVector p d).scale b) ∧
    (∀ n, 0 ≤ n → k'.tensionAverage n = k.tensionAverage n * b) ∧ k'.tensionMax = k.tensionMax * b := by
  have hq : 0 < b / a := by positivity
  have I := inner_scaled ha hb R R' S
  have T := tangent3_scale ha hb R R' S
  have hsp : k'.refresh.catenary2d.refresh.spacing.magnitude = k.refresh.catenary2d.refresh.spacing.magnitude * a := by
    rw [I.spacing, v2_magnitude_scale ha]
  refine ⟨?_, I.length, ?_, ?_, sagBody_scale ha hb I, coordinate3_scale ha hb R R' S, chord3_scale ha hb R R' S,
    positionFraction_scale ha hb I 0, sagPoint_scale ha hb I, ?_, T, fun p d => ?_, fun p d => ?_,
    tensionBody_scale ha hb I, fun p d => ?_, fun n hn => tensionAverageBody_scale ha hb I hn,
    tensionMaxBody_scale ha hb I⟩
  · have c := I.c
    obtain ⟨q1, q2, q3⟩ := Catenary2d.refresh_params k.refresh.catenary2d
    obtain ⟨q4, q5, q6⟩ := Catenary2d.refresh_params k'.refresh.catenary2d
    show k'.refresh.catenary2d.tensionHorizontal / k'.refresh.catenary2d.weightUnit =
      k.refresh.catenary2d.tensionHorizontal / k.refresh.catenary2d.weightUnit * a
    simpa only [q1, q2, q3, q4, q5, q6] using c
  · show k'.refresh.catenary2d.refresh.length - _ = (k.refresh.catenary2d.refresh.length - _) * a
    rw [hsp, I.length, sub_mul]
  · show k'.refresh.catenary2d.refresh.sagBody _ = k.refresh.catenary2d.refresh.sagBody _ * a
    rw [sagPoint_scale ha hb I, sagBody_scale ha hb I]
  · simp only [Catenary3d.swingAngle, Catenary3d.swingAngleBody]
    rw [(Catenary3d.refresh_params k).2.2.1, (Catenary3d.refresh_params k').2.2.1, S.weight]
    show toDegrees (Real.arctan (k.weightUnit.y * (b / a) / (k.weightUnit.z * (b / a)))) = _
    rw [mul_div_mul_right _ _ hq.ne']
  · simp only [Catenary3d.tangentAngleTransverse, T]
  · simp only [Catenary3d.tangentAngleVertical, T]
  · simp only [Catenary3d.tensionVector, T]
    rw [show k'.tension p = k.tension p * b from tensionBody_scale ha hb I p]
    simp only [V3.scale]
    ext <;> simp only <;> ring

end Spatial

/-- A span in feet and pounds. -/
noncomputable def inFeetAndPounds (k : Catenary3d) : Catenary3d :=
  ((k.setSpacing (k.spacing.scale (1 / 0.3048))).setTension (k.tensionHorizontal * (1 / 4.4482216152605))).setWeight
    (k.weightUnit.scale (1 / 4.4482216152605 / (1 / 0.3048)))

theorem inFeetAndPounds_units {k : Catenary3d} (R : k.Reachable) :
    (inFeetAndPounds k).Reachable ∧ OtherUnits (1 / 0.3048) (1 / 4.4482216152605) k (inFeetAndPounds k) := by
  refine ⟨?_, rfl, rfl, rfl, rfl⟩
  obtain ⟨es, rfl⟩ := R
  set k := es.foldl Catenary3d.Event.next Catenary3d.new with hk
  refine ⟨es ++ [.setSpacing (k.spacing.scale (1 / 0.3048)), .setTension (k.tensionHorizontal * (1 / 4.4482216152605)),
    .setWeight (k.weightUnit.scale (1 / 4.4482216152605 / (1 / 0.3048)))], ?_⟩
  rw [List.foldl_append]
  rfl

example : exCat3.Reachable ∧ exCat3.Physical ∧ (inFeetAndPounds exCat3).Reachable ∧
    OtherUnits (1 / 0.3048) (1 / 4.4482216152605) exCat3 (inFeetAndPounds exCat3) :=
  ⟨exCat3_reachable, exCat3_physical, inFeetAndPounds_units exCat3_reachable⟩

/-! ## Validation -/

/-- **C139** (partial: the vertical spacing must be below 2000 in both units; see `C139_validate_fails`): `Validate`
accepts the span in both units or in none. -/
theorem C139_validate_partial (ha : 0 < a) (hb : 0 < b) {k k' : Catenary3d} (R : k.Reachable) (R' : k'.Reachable)
    (S : OtherUnits a b k k') (hz : |k.spacing.z| < 2000) (hz' : |k'.spacing.z| < 2000) :
    k'.validate.1 = k.validate.1 := by
  have hq : 0 < b / a := by positivity
  rw [Bool.eq_iff_iff, (C54_validate_3d R).1, (C54_validate_3d R').1]
  simp only [hz, hz', true_and]
  rw [S.tension, S.spacing, S.weight, V3.magnitude_scale _ ha.le, V3.magnitude_scale _ hq.le, constant_scale ha hb]
  simp only [V3.scale]
  rw [mul_pos_iff_of_pos_right hb, mul_pos_iff_of_pos_right ha, mul_pos_iff_of_pos_right hq,
    mul_nonneg_iff_of_pos_right hq, mul_eq_zero_iff_right ha.ne', mul_eq_zero_iff_right hq.ne',
    show k.spacing.magnitude * a / 2 = k.spacing.magnitude / 2 * a by ring, mul_le_mul_iff_of_pos_right ha]

/-- A span that rises 700 meters. -/
noncomputable def exSteep : Catenary3d :=
  [Catenary3d.Event.setSpacing ⟨2400, 0, 700⟩, .setTension 5000, .setWeight ⟨0, 0, 1⟩].foldl Catenary3d.Event.next .new

theorem exSteep_reachable : exSteep.Reachable := ⟨_, rfl⟩

/-- **C139** fails for `Validate`: a span of 2400 meters that rises 700 meters is accepted in meters and rejected in
feet. -/
theorem C139_validate_fails : ∃ k : Catenary3d, k.Reachable ∧ k.validate.1 = true ∧
    (inFeetAndPounds k).validate.1 = false := by
  obtain ⟨R', S⟩ := inFeetAndPounds_units exSteep_reachable
  refine ⟨exSteep, exSteep_reachable, ?_, ?_⟩
  · rw [(C54_validate_3d exSteep_reachable).1]
    have e1 : exSteep.spacing.magnitude = 2500 := by
      show √((2400:ℝ) ^ 2 + 0 ^ 2 + 700 ^ 2) = 2500
      rw [show ((2400:ℝ) ^ 2 + 0 ^ 2 + 700 ^ 2) = 2500 ^ 2 by norm_num, Real.sqrt_sq (by norm_num)]
    have e2 : exSteep.weightUnit.magnitude = 1 := by
      show √((0:ℝ) ^ 2 + 0 ^ 2 + 1 ^ 2) = 1
      norm_num
    rw [e1, e2]
    show (0:ℝ) < 5000 ∧ (0:ℝ) < 2400 ∧ (0:ℝ) = 0 ∧ |(700:ℝ)| < 2000 ∧ (0:ℝ) = 0 ∧ (0:ℝ) ≤ 0 ∧ (0:ℝ) < 1 ∧
      (2500:ℝ) / 2 ≤ 5000 / 1
    norm_num [abs_of_pos]
  · rw [Bool.eq_false_iff, Ne, (C54_validate_3d R').1]
    rintro ⟨-, -, -, h, -⟩
    rw [S.spacing] at h
    change |(700:ℝ) * (1 / 0.3048)| < 2000 at h
    rw [abs_of_pos (by norm_num)] at h
    norm_num at h

example : |exCat3.spacing.z| < 2000 ∧ |(inFeetAndPounds exCat3).spacing.z| < 2000 := by
  refine ⟨?_, ?_⟩
  · show |(400:ℝ)| < 2000
    norm_num
  · show |(400:ℝ) * (1 / 0.3048)| < 2000
    rw [abs_of_pos (by norm_num)]
    norm_num

end Verif.Props
