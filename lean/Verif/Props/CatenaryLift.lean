import Verif.Props.SaggingTighter
import Mathlib.Analysis.Calculus.Deriv.MeanValue

/-!
# Pulling a cable tighter lifts every point of it (C207)
-/

set_option linter.unusedSectionVars false

namespace Verif.Props

/-- Height above the left end of a catenary with constant `c` whose low point is `l` before the left end. -/
noncomputable def heightFn (c l x : ℝ) : ℝ := c * (Real.cosh ((x + l) / c) - Real.cosh (l / c))

theorem heightFn_deriv {c : ℝ} (hc : 0 < c) (l x : ℝ) : HasDerivAt (heightFn c l) (Real.sinh ((x + l) / c)) x := by
  have h1 : HasDerivAt (fun x : ℝ => (x + l) / c) (1 / c) x := ((hasDerivAt_id x).add_const l).div_const c
  have h2 := ((h1.cosh).sub_const (Real.cosh (l / c))).const_mul c
  exact h2.congr_deriv (by rw [mul_left_comm, mul_one_div_cancel hc.ne', mul_one])

/-- Of two catenaries through the same two points the flatter is above the other in between. -/
theorem flatter_above {c c' l l' s : ℝ} (hc : 0 < c) (hcc : c < c') (he : heightFn c' l' s = heightFn c l s) {x : ℝ}
    (h0 : 0 < x) (h1 : x < s) : heightFn c l x < heightFn c' l' x := by
  have hc' : 0 < c' := hc.trans hcc
  have D : ∀ y, HasDerivAt (fun y => heightFn c' l' y - heightFn c l y) (Real.sinh ((y + l') / c') - Real.sinh ((y + l) / c)) y :=
    fun y => (heightFn_deriv hc' l' y).sub (heightFn_deriv hc l y)
  have cont : Continuous fun y => heightFn c' l' y - heightFn c l y :=
    continuous_iff_continuousAt.2 fun y => (D y).continuousAt
  have z : heightFn c' l' 0 - heightFn c l 0 = 0 := by unfold heightFn; simp
  have step : ∀ y, (y + l') / c' - (y + l) / c = ((x + l') / c' - (x + l) / c) + (x - y) * (1 / c - 1 / c') := by
    intro y
    field_simp
    ring
  have q : 0 < 1 / c - 1 / c' := sub_pos.2 (one_div_lt_one_div_of_lt hc hcc)
  rcases le_or_gt ((x + l) / c) ((x + l') / c') with h | h
  · have m : StrictMonoOn (fun y => heightFn c' l' y - heightFn c l y) (Set.Icc 0 x) := by
      refine strictMonoOn_of_deriv_pos (convex_Icc 0 x) cont.continuousOn fun y hy => ?_
      rw [interior_Icc] at hy
      rw [(D y).deriv, sub_pos, Real.sinh_lt_sinh]
      have := mul_pos (sub_pos.2 hy.2) q
      linarith [step y]
    have := m ⟨le_rfl, h0.le⟩ ⟨h0.le, le_rfl⟩ h0
    simp only [z] at this
    linarith
  · have m : StrictAntiOn (fun y => heightFn c' l' y - heightFn c l y) (Set.Icc x s) := by
      refine strictAntiOn_of_deriv_neg (convex_Icc x s) cont.continuousOn fun y hy => ?_
      rw [interior_Icc] at hy
      rw [(D y).deriv, sub_neg, Real.sinh_lt_sinh]
      have := mul_pos (sub_pos.2 hy.1) q
      linarith [step y]
    have := m ⟨le_rfl, h1.le⟩ ⟨h1.le, le_rfl⟩ h1
    simp only [he, sub_self] at this
    linarith

/-- Of two catenaries through the same two points the flatter leaves both points at a smaller slope. -/
theorem flatter_ends {c c' l l' s : ℝ} (hc : 0 < c) (hcc : c < c') (he : heightFn c' l' s = heightFn c l s) (h0 : 0 < s) :
    l / c < l' / c' ∧ (s + l') / c' < (s + l) / c := by
  have hc' : 0 < c' := hc.trans hcc
  have D : ∀ y, HasDerivAt (fun y => heightFn c' l' y - heightFn c l y) (Real.sinh ((y + l') / c') - Real.sinh ((y + l) / c)) y :=
    fun y => (heightFn_deriv hc' l' y).sub (heightFn_deriv hc l y)
  have cont : Continuous fun y => heightFn c' l' y - heightFn c l y :=
    continuous_iff_continuousAt.2 fun y => (D y).continuousAt
  have z : heightFn c' l' 0 - heightFn c l 0 = 0 := by unfold heightFn; simp
  have step : ∀ x y, (y + l') / c' - (y + l) / c = ((x + l') / c' - (x + l) / c) + (x - y) * (1 / c - 1 / c') := by
    intro x y
    field_simp
    ring
  have q : 0 < 1 / c - 1 / c' := sub_pos.2 (one_div_lt_one_div_of_lt hc hcc)
  constructor
  · by_contra hn
    push Not at hn
    have m : StrictAntiOn (fun y => heightFn c' l' y - heightFn c l y) (Set.Icc 0 s) := by
      refine strictAntiOn_of_deriv_neg (convex_Icc 0 s) cont.continuousOn fun y hy => ?_
      rw [interior_Icc] at hy
      rw [(D y).deriv, sub_neg, Real.sinh_lt_sinh]
      have := mul_pos hy.1 q
      have := step 0 y
      rw [zero_add, zero_add] at this
      linarith
    have := m ⟨le_rfl, h0.le⟩ ⟨h0.le, le_rfl⟩ h0
    simp only [z, he, sub_self] at this
    exact lt_irrefl _ this
  · by_contra hn
    push Not at hn
    have m : StrictMonoOn (fun y => heightFn c' l' y - heightFn c l y) (Set.Icc 0 s) := by
      refine strictMonoOn_of_deriv_pos (convex_Icc 0 s) cont.continuousOn fun y hy => ?_
      rw [interior_Icc] at hy
      rw [(D y).deriv, sub_pos, Real.sinh_lt_sinh]
      have := mul_pos (sub_pos.2 hy.2) q
      linarith [step s y]
    have := m ⟨le_rfl, h0.le⟩ ⟨h0.le, le_rfl⟩ h0
    simp only [z, he, sub_self] at this
    exact lt_irrefl _ this

open Catenary2d in
theorem planar_height {k : Catenary2d} (R : k.Reachable) (p : ℝ) :
    (k.coordinate p true).y = heightFn (k.tensionHorizontal / k.weightUnit) k.update.left.x (k.coordinate p true).x ∧
    (k.coordinate p true).x = k.update.coordinateX p - k.update.left.x := by
  unfold Catenary2d.coordinate
  rw [R.refresh_eq]
  refine ⟨?_, rfl⟩
  show k.coordinateY (k.update.coordinateX p) - k.coordinateY k.update.left.x =
    heightFn _ _ (k.update.coordinateX p - k.update.left.x)
  unfold heightFn Catenary2d.coordinateY
  rw [sub_add_cancel]
  ring

open Catenary2d in
theorem planar_end {k : Catenary2d} (P : k.Positive) :
    heightFn (k.tensionHorizontal / k.weightUnit) k.update.left.x k.spacing.x = k.spacing.y := by
  have a := rise_right P
  have b := span_eq P
  rw [← b, ← a]
  unfold heightFn Catenary2d.coordinateY
  rw [sub_add_cancel]
  ring

/-- **C207**. Two planar catenaries between the same supports: strictly between the supports, at every horizontal distance,
the one with the larger constant, that is tension over weight, is higher. -/
theorem C207_planar {k k' : Catenary2d} (R : k.Reachable) (R' : k'.Reachable) (P : k.Positive) (P' : k'.Positive)
    (s : k'.spacing = k.spacing) (h : k.constant < k'.constant) {p p' : ℝ} (h0 : 0 < p) (h1 : p < 1) (hx : (k'.coordinate p' true).x = (k.coordinate p true).x) :
    (k.coordinate p true).y < (k'.coordinate p' true).y := by
  obtain ⟨e, ex⟩ := planar_height R p
  obtain ⟨e', -⟩ := planar_height R' p'
  rw [e, e', hx, ex]
  have m0 := Catenary2d.coordinateX_strictMono P h0
  have m1 := Catenary2d.coordinateX_strictMono P h1
  rw [Catenary2d.coordinateX_zero P] at m0
  rw [Catenary2d.coordinateX_one P] at m1
  have b := Catenary2d.span_eq P
  refine flatter_above P.c ?_ (s := k.spacing.x) ?_ (by linarith) (by linarith)
  · exact h
  · rw [planar_end P, ← s, planar_end P', s]

/-- **C207**. The sag of the tighter planar catenary is therefore smaller at every horizontal distance, not only the largest
one. -/
theorem C207_planar_sag {k k' : Catenary2d} (R : k.Reachable) (R' : k'.Reachable) (P : k.Positive) (P' : k'.Positive)
    (s : k'.spacing = k.spacing) (h : k.constant < k'.constant) {p p' : ℝ} (h0 : 0 < p) (h1 : p < 1)
    (hx : (k'.coordinate p' true).x = (k.coordinate p true).x) : k'.sagAt p' < k.sagAt p := by
  have e : ∀ {m : Catenary2d}, m.Reachable → m.Positive → ∀ q, m.sagAt q =
      (m.coordinate q true).x * (m.spacing.y / m.spacing.x) - (m.coordinate q true).y := by
    intro m r P q
    rw [sagAt_eq r P]
    unfold Catenary2d.coordinate
    rw [r.refresh_eq]
    show _ = (m.update.coordinateX q - m.update.left.x) * (m.spacing.y / m.spacing.x) -
      (m.coordinateY (m.update.coordinateX q) - m.coordinateY m.update.left.x)
    ring
  rw [e R P, e R' P', hx, s]
  linarith [C207_planar R R' P P' s h h0 h1 hx]

/-- The tangent of a planar catenary in the direction of the span. -/
theorem planar_tangent {k : Catenary2d} (R : k.Reachable) (p : ℝ) : (k.tangentVector p .positive).y =
    Real.sin (Real.arctan (Real.sinh (k.update.coordinateX p / (k.tensionHorizontal / k.weightUnit)))) := by
  unfold Catenary2d.tangentVector
  rw [R.refresh_eq]
  show Real.sin (toRadians (toDegrees (Real.arctan _))) = _
  rw [toRadians_toDegrees]
  rfl

theorem sin_arctan_lt {a b : ℝ} (h : a < b) : Real.sin (Real.arctan a) < Real.sin (Real.arctan b) :=
  Real.strictMonoOn_sin ⟨(Real.neg_pi_div_two_lt_arctan a).le, (Real.arctan_lt_pi_div_two a).le⟩
    ⟨(Real.neg_pi_div_two_lt_arctan b).le, (Real.arctan_lt_pi_div_two b).le⟩ (Real.arctan_strictMono h)

/-- **C207**. Two planar catenaries between the same supports: the one with the larger constant leaves the left support
less steeply downwards and arrives at the right support less steeply upwards. -/
theorem C207_planar_ends {k k' : Catenary2d} (R : k.Reachable) (R' : k'.Reachable) (P : k.Positive) (P' : k'.Positive)
    (s : k'.spacing = k.spacing) (h : k.constant < k'.constant) :
    (k.tangentVector 0 .positive).y < (k'.tangentVector 0 .positive).y ∧
    (k'.tangentVector 1 .positive).y < (k.tangentVector 1 .positive).y := by
  have b := Catenary2d.span_eq P
  have b' := Catenary2d.span_eq P'
  obtain ⟨f0, f1⟩ := flatter_ends (l := k.update.left.x) (l' := k'.update.left.x) (s := k.spacing.x)
    (c' := k'.tensionHorizontal / k'.weightUnit) P.c h
    (by rw [planar_end P, ← s, planar_end P', s]) P.a
  rw [planar_tangent R, planar_tangent R', planar_tangent R, planar_tangent R', Catenary2d.coordinateX_zero P,
    Catenary2d.coordinateX_zero P', Catenary2d.coordinateX_one P, Catenary2d.coordinateX_one P']
  refine ⟨sin_arctan_lt (Real.sinh_lt_sinh.2 f0), sin_arctan_lt (Real.sinh_lt_sinh.2 ?_)⟩
  rw [← b, sub_add_cancel, b, ← s, ← b', sub_add_cancel] at f1
  exact f1

theorem vertical_end {k : Catenary3d} (R : k.Reachable) (P : k.Physical) (hy : k.weightUnit.y = 0) :
    (k.coordinate 1).z = k.spacing.z := by
  obtain ⟨c, -⟩ := C51_vertical R P hy
  rw [c]
  set k2 := ((Catenary2d.new.setSpacing ⟨k.spacing.x, k.spacing.z⟩).setTension
      k.tensionHorizontal).setWeight k.weightUnit.z with hk2
  have R2 : k2.Reachable := ⟨[.setSpacing _, .setTension _, .setWeight _], rfl, rfl⟩
  have P2 : k2.Positive := ⟨P.h, P.wz, P.sx⟩
  obtain ⟨a, b⟩ := planar_height R2 1
  rw [Catenary2d.coordinateX_one P2, Catenary2d.span_eq P2] at b
  rw [b, planar_end P2] at a
  exact a

section
variable {k k' : Catenary3d} (R : k.Reachable) (R' : k'.Reachable) (V : k.validate.1 = true)
  (V' : k'.validate.1 = true) (s : k'.spacing = k.spacing)
  (hy : k.weightUnit.y = 0) (hy' : k'.weightUnit.y = 0) (h : k.constant < k'.constant)
include R R' V V' s hy hy' h

theorem planar_constant : k.tensionHorizontal / k.weightUnit.z < k'.tensionHorizontal / k'.weightUnit.z := by
  have e : ∀ {m : Catenary3d}, m.Physical → m.weightUnit.y = 0 → m.weightUnit.magnitude = m.weightUnit.z := by
    intro m P q
    unfold V3.magnitude
    rw [P.wx, q, show (0:ℝ) ^ 2 + 0 ^ 2 + m.weightUnit.z ^ 2 = m.weightUnit.z ^ 2 by ring, Real.sqrt_sq P.wz.le]
  rw [← e (C54_validate_physical R V) hy, ← e (C54_validate_physical R' V') hy', ← (valid_constant R V).1,
    ← (valid_constant R' V').1]
  exact h

/-- **C207**. Two accepted catenaries between the same supports under vertical loads: strictly between the supports the
one with the larger constant is higher, point by point. -/
theorem C207_coordinate {p p' : ℝ} (h0 : 0 < p) (h1 : p < 1) (hx : (k'.coordinate p').x = (k.coordinate p).x) :
    (k.coordinate p).z < (k'.coordinate p').z := by
  have P := C54_validate_physical R V
  have P' := C54_validate_physical R' V'
  obtain ⟨c, -⟩ := C51_vertical R P hy
  obtain ⟨c', -⟩ := C51_vertical R' P' hy'
  rw [c, c'] at hx ⊢
  refine C207_planar ⟨[.setSpacing _, .setTension _, .setWeight _], rfl, rfl⟩ ⟨[.setSpacing _, .setTension _, .setWeight _], rfl, rfl⟩
    ?_ ?_ ?_ (planar_constant R R' V V' s hy hy' h) h0 h1 hx
  · exact ⟨P.h, P.wz, P.sx⟩
  · exact ⟨P'.h, P'.wz, P'.sx⟩
  · show V2.mk k'.spacing.x k'.spacing.z = ⟨k.spacing.x, k.spacing.z⟩
    rw [s]

/-- **C207**. And so is the sag, at every horizontal distance. -/
theorem C207_sag {p p' : ℝ} (h0 : 0 < p) (h1 : p < 1) (hx : (k'.coordinate p').x = (k.coordinate p).x) :
    k'.sagAt p' < k.sagAt p := by
  have P := C54_validate_physical R V
  have P' := C54_validate_physical R' V'
  obtain ⟨c, -, -, -, -, d, -⟩ := C51_vertical R P hy
  obtain ⟨c', -, -, -, -, d', -⟩ := C51_vertical R' P' hy'
  rw [c, c'] at hx
  rw [d, d']
  refine C207_planar_sag ⟨[.setSpacing _, .setTension _, .setWeight _], rfl, rfl⟩
    ⟨[.setSpacing _, .setTension _, .setWeight _], rfl, rfl⟩ ?_ ?_ ?_
    (planar_constant R R' V V' s hy hy' h) h0 h1 hx
  · exact ⟨P.h, P.wz, P.sx⟩
  · exact ⟨P'.h, P'.wz, P'.sx⟩
  show V2.mk k'.spacing.x k'.spacing.z = ⟨k.spacing.x, k.spacing.z⟩
  rw [s]

/-- **C207**. And so in space: the tangents at the supports of the tighter cable are less steep. -/
theorem C207_ends : (k.tangentVector 0 .positive).z < (k'.tangentVector 0 .positive).z ∧
    (k'.tangentVector 1 .positive).z < (k.tangentVector 1 .positive).z := by
  have P := C54_validate_physical R V
  have P' := C54_validate_physical R' V'
  obtain ⟨-, -, c, -⟩ := C51_vertical R P hy
  obtain ⟨-, -, c', -⟩ := C51_vertical R' P' hy'
  rw [c, c', c, c']
  refine C207_planar_ends ⟨[.setSpacing _, .setTension _, .setWeight _], rfl, rfl⟩
    ⟨[.setSpacing _, .setTension _, .setWeight _], rfl, rfl⟩ ⟨P.h, P.wz, P.sx⟩ ⟨P'.h, P'.wz, P'.sx⟩ ?_
    (planar_constant R R' V V' s hy hy' h)
  show V2.mk k'.spacing.x k'.spacing.z = ⟨k.spacing.x, k.spacing.z⟩
  rw [s]

/-- Every point of the tighter cable has one of the other straight below it. -/
theorem point_below {p' : ℝ} (h0 : 0 ≤ p') (h1 : p' ≤ 1) : ∃ p, 0 ≤ p ∧ p ≤ 1 ∧ (k'.coordinate p').x = (k.coordinate p).x ∧
    (k.coordinate p).y = 0 ∧ (k'.coordinate p').y = 0 ∧ (k.coordinate p).z ≤ (k'.coordinate p').z ∧
    (0 < p' → p' < 1 → (k.coordinate p).z < (k'.coordinate p').z) := by
  obtain ⟨X, Z, hX, hm, a0, a1, hc, -⟩ := plane_curve R (C54_validate_physical R V) hy
  obtain ⟨X', Z', hX', hm', b0, b1, -⟩ := plane_curve R' (C54_validate_physical R' V') hy'
  have r0 : X 0 ≤ X' p' := by rw [a0, ← b0]; exact hm'.monotone h0
  have r1 : X' p' ≤ X 1 := by rw [a1, ← s, ← b1]; exact hm'.monotone h1
  obtain ⟨p, ⟨p0, p1⟩, e⟩ := intermediate_value_Icc zero_le_one hc.continuousOn ⟨r0, r1⟩
  have ex : (k'.coordinate p').x = (k.coordinate p).x := by rw [hX, hX']; exact e.symm
  have strict : 0 < p' → p' < 1 → (k.coordinate p).z < (k'.coordinate p').z := by
    intro q0 q1
    refine C207_coordinate R R' V V' s hy hy' h ?_ ?_ ex
    · refine hm.lt_iff_lt.1 ?_
      rw [e, a0, ← b0]
      exact hm' q0
    · refine hm.lt_iff_lt.1 ?_
      rw [e, a1, ← s, ← b1]
      exact hm' q1
  refine ⟨p, p0, p1, ex, by rw [hX], by rw [hX'], ?_, strict⟩
  rcases h0.eq_or_lt with q | q
  · have : p = 0 := hm.injective (by rw [e, ← q, a0, b0])
    rw [this, ← q, C52_start R (C54_validate_physical R V), C52_start R' (C54_validate_physical R' V')]
  rcases h1.eq_or_lt with q' | q'
  · have : p = 1 := hm.injective (by rw [e, q', a1, b1, s])
    rw [this, q', vertical_end R (C54_validate_physical R V) hy, vertical_end R' (C54_validate_physical R' V') hy', s]
  · exact (strict q q').le

/-- **C207**. Seen from any point that is not straight above or below, every point of the tighter cable is above some
point of the other, as measured by the angle of the sight line; so the lowest sight line rises with the tension. -/
theorem C207_sight (a : V3) {p' : ℝ} (h0 : 0 ≤ p') (h1 : p' ≤ 1)
    (ha : (k'.coordinate p').x ≠ a.x ∨ a.y ≠ 0) : ∃ p, 0 ≤ p ∧ p ≤ 1 ∧
    sightAngle a (k.coordinate p) ≤ sightAngle a (k'.coordinate p') ∧
    (0 < p' → p' < 1 → sightAngle a (k.coordinate p) < sightAngle a (k'.coordinate p')) := by
  obtain ⟨p, p0, p1, ex, y, y', le, lt⟩ := point_below R R' V V' s hy hy' h h0 h1
  have r : 0 < √(((k'.coordinate p').x - a.x) ^ 2 + ((k'.coordinate p').y - a.y) ^ 2) := by
    apply Real.sqrt_pos.2
    rcases ha with q | q
    · have := sq_pos_of_ne_zero (sub_ne_zero.2 q)
      positivity
    · have : 0 < ((k'.coordinate p').y - a.y) ^ 2 := by rw [y', zero_sub, neg_sq]; exact sq_pos_of_ne_zero q
      positivity
  have er : √(((k.coordinate p).x - a.x) ^ 2 + ((k.coordinate p).y - a.y) ^ 2) =
      √(((k'.coordinate p').x - a.x) ^ 2 + ((k'.coordinate p').y - a.y) ^ 2) := by rw [ex, y, y']
  have r' := r
  rw [← er] at r'
  refine ⟨p, p0, p1, ?_⟩
  rw [sightAngle_eq r, sightAngle_eq r', er]
  refine ⟨?_, fun q q' => ?_⟩
  · rw [toDegrees_le]
    exact Real.arctan_strictMono.monotone (div_le_div_of_nonneg_right (by linarith) r.le)
  · rw [toDegrees_lt]
    exact Real.arctan_strictMono (div_lt_div_of_pos_right (by linarith [lt q q']) r)

end

/-- The level span of 1000 pulled from 6000 to 7000, seen from a point ahead of the back support. -/
example : ∃ p, 0 ≤ p ∧ p ≤ 1 ∧ sightAngle ⟨-100, 0, -50⟩ (exSpan.coordinate p) <
    sightAngle ⟨-100, 0, -50⟩ ((exSpan.setTension 7000).coordinate (1 / 2)) := by
  obtain ⟨R, V⟩ := exSpan_tighter
  obtain ⟨X, Z, hX, hm, a0, -⟩ := plane_curve R (C54_validate_physical R V) rfl
  obtain ⟨p, h0, h1, -, lt⟩ := C207_sight exSpan_reachable R exSpan_valid V rfl rfl rfl (by
    rw [(valid_constant exSpan_reachable exSpan_valid).1, (valid_constant R V).1]
    exact div_lt_div_of_pos_right (show (6000:ℝ) < 7000 by norm_num) (C54_validate_physical R V).w_pos) ⟨-100, 0, -50⟩ (p' := 1 / 2) (by norm_num) (by norm_num) (Or.inl (by
      rw [hX]
      have : X 0 < X (1 / 2) := hm (by norm_num)
      rw [a0] at this
      show X (1 / 2) ≠ -100
      linarith))
  exact ⟨p, h0, h1, lt (by norm_num) (by norm_num)⟩

end Verif.Props
