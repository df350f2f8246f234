import Verif.Props.Catenary3d

/-!
# C145: a span looks the same from both ends

A catenary and the catenary of the same cable seen from the other support: the vertical spacing has the
opposite sign, and the position fraction `p` becomes `1 - p`.
-/

set_option linter.unusedSectionVars false

namespace Verif.Props

open Real

/-! ## Two dimensions -/

/-- The same span seen from the other support. -/
structure Mirrored2 (k k' : Catenary2d) : Prop where
  h : k'.tensionHorizontal = k.tensionHorizontal
  w : k'.weightUnit = k.weightUnit
  x : k'.spacing.x = k.spacing.x
  y : k'.spacing.y = -k.spacing.y

section
variable {k k' : Catenary2d} (M : Mirrored2 k k')
include M

theorem mirror_symm : Mirrored2 k' k := ⟨M.h.symm, M.w.symm, M.x.symm, by rw [M.y, neg_neg]⟩

theorem mirror_c : k'.tensionHorizontal / k'.weightUnit = k.tensionHorizontal / k.weightUnit := by
  rw [M.h, M.w]

theorem mirror_left : k'.update.left.x = -k.update.right.x := by
  simp only [Catenary2d.update, Catenary2d.updateLengths, Catenary2d.updateEndPoints, mirror_c M, M.x, M.y,
    neg_mul, neg_div, arsinh_neg]
  ring

theorem mirror_right : k'.update.right.x = -k.update.left.x := by
  rw [mirror_left (mirror_symm M), neg_neg]

theorem mirror_lfo (x : ℝ) : k'.lengthFromOrigin (-x) = -k.lengthFromOrigin x := by
  unfold Catenary2d.lengthFromOrigin
  rw [mirror_c M, neg_div, sinh_neg]; ring

theorem mirror_coordinateY (x : ℝ) : k'.coordinateY (-x) = k.coordinateY x := by
  unfold Catenary2d.coordinateY
  rw [mirror_c M, neg_div, cosh_neg]

theorem mirror_lengthLeft : k'.update.lengthLeft = -(k.update.lengthLeft + k.update.length) := by
  rw [Catenary2d.update_lengthLeft, Catenary2d.update_lengthLeft, Catenary2d.update_length, mirror_left M,
    mirror_lfo M]
  ring

theorem mirror_length : k'.update.length = k.update.length := by
  rw [Catenary2d.update_length, Catenary2d.update_length, mirror_left M, mirror_right M,
    mirror_lfo M, mirror_lfo M]
  ring

theorem mirror_coordinateX (p : ℝ) : k'.update.coordinateX p = -k.update.coordinateX (1 - p) := by
  simp only [Catenary2d.coordinateX, Catenary2d.update_h, Catenary2d.update_w, mirror_c M,
    mirror_length M, mirror_lengthLeft M]
  rw [show p * k.update.length + -(k.update.lengthLeft + k.update.length) =
    -((1 - p) * k.update.length + k.update.lengthLeft) by ring, neg_div, arsinh_neg]
  ring

theorem mirror_tension (p : ℝ) : k'.update.tensionBody p = k.update.tensionBody (1 - p) := by
  simp only [Catenary2d.tensionBody, Catenary2d.update_h, Catenary2d.update_w, mirror_coordinateX M,
    M.h, M.w, neg_div, cosh_neg]

theorem mirror_coordinate (p : ℝ) : k'.update.coordinateBody p false =
    ⟨-(k.update.coordinateBody (1 - p) false).x, (k.update.coordinateBody (1 - p) false).y⟩ := by
  simp only [Catenary2d.coordinateBody, mirror_coordinateX M, Catenary2d.update_coordinateY,
    mirror_coordinateY M, Bool.false_eq_true, if_false]

theorem mirror_angle (p : ℝ) (d d' : Direction)
    (hd : d = .positive ∧ d' = .negative ∨ d = .negative ∧ d' = .positive) :
    k'.update.tangentAngleBody p d = k.update.tangentAngleBody (1 - p) d' := by
  have hD : ∀ r : ℝ, toDegrees (-r) = -toDegrees r := fun r => by rw [toDegrees_eq, toDegrees_eq]; ring
  rcases hd with ⟨rfl, rfl⟩ | ⟨rfl, rfl⟩ <;>
  · simp only [Catenary2d.tangentAngleBody, Catenary2d.update_h, Catenary2d.update_w, mirror_coordinateX M,
      mirror_c M, neg_div, sinh_neg, arctan_neg, hD, if_true, reduceCtorEq, if_false]
    ring

theorem mirror_tangent (p : ℝ) (d d' : Direction)
    (hd : d = .positive ∧ d' = .negative ∨ d = .negative ∧ d' = .positive) :
    k'.update.tangentVectorBody p d =
      ⟨-(k.update.tangentVectorBody (1 - p) d').x, (k.update.tangentVectorBody (1 - p) d').y⟩ := by
  have ha := mirror_angle M p d d' hd
  rcases hd with ⟨rfl, rfl⟩ | ⟨rfl, rfl⟩ <;>
  · simp only [Catenary2d.tangentVectorBody, ha, one_mul, neg_neg]

theorem mirror_average (n : Int) : k'.update.tensionAverageBody n = k.update.tensionAverageBody n := by
  unfold Catenary2d.tensionAverageBody
  split_ifs with h0 h1
  · simp only [Catenary2d.update_h, Catenary2d.update_w, mirror_length M, mirror_left M,
      mirror_right M, neg_div, sinh_neg, cosh_neg, M.h, M.w]
    ring
  · obtain ⟨m, rfl⟩ := Int.eq_ofNat_of_zero_le h1.le
    have hm : 0 < m := by simpa using h1
    simp only [Int.toNat_natCast, Int.cast_natCast]
    congr 1
    have e : ∀ f : ℕ → ℝ, ((List.range (m + 1)).map f).sum = ∑ i ∈ Finset.range (m + 1), f i :=
      fun f => rfl
    rw [e, e, ← Finset.sum_range_reflect]
    refine Finset.sum_congr rfl fun i hi => ?_
    have hi' : i ≤ m := by have := Finset.mem_range.1 hi; omega
    rw [mirror_tension M]
    congr 1
    have hm' : (m : ℝ) ≠ 0 := by positivity
    rw [show m + 1 - 1 - i = m - i by omega, Nat.cast_sub hi']
    field_simp
    ring
  · rfl

theorem mirror_max : k'.update.tensionMaxBody = k.update.tensionMaxBody := by
  unfold Catenary2d.tensionMaxBody
  rw [Catenary2d.update_sp, Catenary2d.update_sp, M.y]
  rcases lt_trichotomy k.spacing.y 0 with h | h | h
  · rw [if_neg (by linarith), if_pos h.le, mirror_tension M]; norm_num
  · have hs : Mirrored2 k k := ⟨rfl, rfl, rfl, by rw [h]; simp⟩
    rw [if_pos (by linarith), if_pos h.le, mirror_tension M, mirror_tension hs]; norm_num
  · rw [if_pos (by linarith), if_neg (by linarith), mirror_tension M]; norm_num

variable (P : k.Positive)
include P

theorem mirror_sagAt (p : ℝ) : k'.update.sagBody p = k.update.sagBody (1 - p) := by
  have hy := Catenary2d.rise_right P
  have hx := Catenary2d.span_eq P
  have hne : k.spacing.x ≠ 0 := P.a.ne'
  unfold Catenary2d.sagBody Catenary2d.coordinateChordBody
  simp only [mirror_coordinate M, Catenary2d.update_sp, M.x, M.y, Catenary2d.update_left_y, mirror_left M,
    mirror_coordinateY M, Bool.false_eq_true, if_false]
  have : k.coordinateY k.update.right.x = k.coordinateY k.update.left.x + k.spacing.y := by linarith
  rw [this, show k.update.right.x = k.update.left.x + k.spacing.x by linarith]
  field_simp
  ring

theorem mirror_fraction (a : ℝ) : k'.update.positionFractionBody (-a) = 1 - k.update.positionFractionBody a := by
  have hL := (Catenary2d.length_pos P).ne'
  unfold Catenary2d.positionFractionBody Catenary2d.convertToPositionFraction
  have hr : toRadians (-a) = -toRadians a := by rw [toRadians_eq, toRadians_eq]; ring
  simp only [Catenary2d.update_h, Catenary2d.update_w, mirror_c M, Catenary2d.update_lengthFromOrigin, hr,
    tan_neg, arsinh_neg, mul_neg, mirror_lfo M, mirror_length M, mirror_lengthLeft M]
  field_simp
  ring

theorem mirror_sagPoint :
    k'.update.positionFractionSagPointBody = 1 - k.update.positionFractionSagPointBody := by
  unfold Catenary2d.positionFractionSagPointBody
  rw [← mirror_fraction M P]
  congr 1
  rw [Catenary2d.update_sp, Catenary2d.update_sp, V2.angle_true_of_pos _ P.a,
    V2.angle_true_of_pos _ (by rw [M.x]; exact P.a), M.x, M.y, neg_div, arctan_neg, toDegrees_eq, toDegrees_eq]
  ring

end

/-- C145 in two dimensions: for any two catenaries, whatever was called on them before, with the same
horizontal tension, unit weight and horizontal spacing and with opposite vertical spacings, every answer of
the one at `p` is the answer of the other at `1 - p`, reflected: curve coordinates and tangents have the
opposite horizontal component, the tangent angle in one direction is the tangent angle in the other
direction, position fractions count from the other end, and tensions, lengths and sags are equal. -/
theorem C145_mirror_2d {k k' : Catenary2d} (R : k.Reachable) (R' : k'.Reachable) (P : k.Positive)
    (h : k'.tensionHorizontal = k.tensionHorizontal) (w : k'.weightUnit = k.weightUnit)
    (x : k'.spacing.x = k.spacing.x) (y : k'.spacing.y = -k.spacing.y) (p : ℝ) (n : Int) :
    k'.lengthQ = k.lengthQ ∧ k'.sag = k.sag ∧ k'.tensionMax = k.tensionMax ∧
    k'.tensionAverage n = k.tensionAverage n ∧
    k'.tension p = k.tension (1 - p) ∧ k'.sagAt p = k.sagAt (1 - p) ∧
    k'.coordinate p = ⟨-(k.coordinate (1 - p)).x, (k.coordinate (1 - p)).y⟩ ∧
    k'.tangentAngle p .positive = k.tangentAngle (1 - p) .negative ∧
    k'.tangentAngle p .negative = k.tangentAngle (1 - p) .positive ∧
    k'.tangentVector p .positive =
      ⟨-(k.tangentVector (1 - p) .negative).x, (k.tangentVector (1 - p) .negative).y⟩ ∧
    k'.positionFractionOrigin = 1 - k.positionFractionOrigin ∧
    k'.positionFractionSagPoint = 1 - k.positionFractionSagPoint := by
  have M : Mirrored2 k k' := ⟨h, w, x, y⟩
  simp only [Catenary2d.lengthQ, Catenary2d.sag, Catenary2d.tensionMax, Catenary2d.tensionAverage,
    Catenary2d.tension, Catenary2d.sagAt, Catenary2d.coordinate, Catenary2d.tangentAngle,
    Catenary2d.tangentVector, Catenary2d.positionFractionOrigin, Catenary2d.positionFractionSagPoint,
    R.refresh_eq, R'.refresh_eq]
  refine ⟨mirror_length M, ?_, mirror_max M, mirror_average M n, mirror_tension M p, mirror_sagAt M P p,
    mirror_coordinate M p, mirror_angle M p _ _ (.inl ⟨rfl, rfl⟩), mirror_angle M p _ _ (.inr ⟨rfl, rfl⟩),
    mirror_tangent M p _ _ (.inl ⟨rfl, rfl⟩), ?_, mirror_sagPoint M P⟩
  · rw [mirror_sagPoint M P, mirror_sagAt M P, sub_sub_cancel]
  · have := mirror_fraction M P 0
    rwa [neg_zero] at this

/-! ## Three dimensions -/

/-- C145 in three dimensions: for any two catenaries, whatever was called on them before, with the same
horizontal tension, unit weight and horizontal and transverse spacing and with opposite vertical spacings,
lengths, sags, the catenary constant, the swing, the largest and the average tension are equal, tension and
sag at `p` are those of the other at `1 - p`, and position fractions count from the other end. -/
theorem C145_mirror_3d {k k' : Catenary3d} (R : k.Reachable) (R' : k'.Reachable) (P : k.Physical)
    (h : k'.tensionHorizontal = k.tensionHorizontal) (w : k'.weightUnit = k.weightUnit)
    (s : k'.spacing = ⟨k.spacing.x, k.spacing.y, -k.spacing.z⟩) (p : ℝ) (n : Int) :
    k'.length = k.length ∧ k'.lengthSlack = k.lengthSlack ∧ k'.sag = k.sag ∧ k'.constant = k.constant ∧
    k'.swingAngle = k.swingAngle ∧ k'.tensionMax = k.tensionMax ∧
    k'.tensionAverage n = k.tensionAverage n ∧
    k'.tension p = k.tension (1 - p) ∧ k'.sagAt p = k.sagAt (1 - p) ∧
    k'.positionFractionOrigin = 1 - k.positionFractionOrigin ∧
    k'.positionFractionSagPoint = 1 - k.positionFractionSagPoint := by
  obtain ⟨r, rs, rw'⟩ := R.inner
  obtain ⟨r', rs', rw''⟩ := R'.inner
  have hm : k'.spacing.magnitude = k.spacing.magnitude := by
    rw [s]; unfold V3.magnitude; congr 1; ring
  have hy : k'.spacing2d.y = -k.spacing2d.y := by
    show k'.spacing.z * _ = -(k.spacing.z * _)
    rw [s, w]; simp only; ring
  have hx : k'.spacing2d.x = k.spacing2d.x := by
    show √(k'.spacing.magnitude ^ 2 - k'.spacing2d.y ^ 2) = √(k.spacing.magnitude ^ 2 - k.spacing2d.y ^ 2)
    rw [hm, hy, neg_sq]
  have th : k'.refresh.catenary2d.tensionHorizontal = k.refresh.catenary2d.tensionHorizontal := by
    rw [(Catenary3d.refresh_params k).2.2.2, (Catenary3d.refresh_params k').2.2.2, h]
  have tw : k'.refresh.catenary2d.weightUnit = k.refresh.catenary2d.weightUnit := by rw [rw', rw'', w]
  obtain ⟨a1, a2, a3, a4, a5, a6, -, -, -, -, a7, a8⟩ := C145_mirror_2d r r' (P.inner_positive R) th tw
    (by rw [rs, rs', hx]) (by rw [rs, rs', hy]) p n
  refine ⟨a1, ?_, a2, ?_, ?_, a3, a4, a5, a6, a7, a8⟩
  · show k'.refresh.catenary2d.lengthSlack = k.refresh.catenary2d.lengthSlack
    unfold Catenary2d.lengthSlack
    have b1 : k'.refresh.catenary2d.refresh.length = k.refresh.catenary2d.refresh.length := a1
    have b2 : k'.refresh.catenary2d.refresh.spacing = k'.spacing2d := by
      rw [r'.refresh_eq, Catenary2d.update_sp, rs']
    have b3 : k.refresh.catenary2d.refresh.spacing = k.spacing2d := by
      rw [r.refresh_eq, Catenary2d.update_sp, rs]
    rw [b1, b2, b3]
    unfold V2.magnitude
    rw [hx, hy, neg_sq]
  · show k'.refresh.catenary2d.constant = k.refresh.catenary2d.constant
    unfold Catenary2d.constant
    rw [th, tw]
  · show k'.refresh.swingAngleBody = k.refresh.swingAngleBody
    unfold Catenary3d.swingAngleBody
    rw [(Catenary3d.refresh_params k).2.2.1, (Catenary3d.refresh_params k').2.2.1, w]

/-- Non-vacuity of C145: the inclined example span and the same span seen from the other end. -/
example : exCat3.Reachable ∧ exCat3.Physical ∧
    (exCat3.setSpacing ⟨exCat3.spacing.x, exCat3.spacing.y, -exCat3.spacing.z⟩).Reachable ∧
    exCat3.spacing.z = 400 := by
  refine ⟨exCat3_reachable, exCat3_physical, ?_, rfl⟩
  obtain ⟨es, e⟩ := exCat3_reachable
  exact ⟨es ++ [.setSpacing ⟨exCat3.spacing.x, exCat3.spacing.y, -exCat3.spacing.z⟩], by
    rw [List.foldl_append, ← e]; rfl⟩

end Verif.Props
