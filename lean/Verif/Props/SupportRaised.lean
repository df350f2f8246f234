import Verif.Props.CatenaryLift

/-!
# Raising a support lifts every point of the cable, by less (C210)
-/

set_option linter.unusedSectionVars false

namespace Verif.Props

theorem raised_mono {c l l' : ℝ} (hc : 0 < c) (h : l < l') : StrictMono fun y => heightFn c l' y - heightFn c l y := by
  refine strictMono_of_deriv_pos fun y => ?_
  have D : HasDerivAt (fun y => heightFn c l' y - heightFn c l y) (Real.sinh ((y + l') / c) - Real.sinh ((y + l) / c)) y :=
    (heightFn_deriv hc l' y).sub (heightFn_deriv hc l y)
  rw [D.deriv, sub_pos, Real.sinh_lt_sinh]
  exact div_lt_div_of_pos_right (by linarith) hc

theorem raised_low {c l l' s : ℝ} (hc : 0 < c) (hs : 0 < s) (h : heightFn c l s < heightFn c l' s) : l < l' := by
  by_contra hn
  have z : ∀ l, heightFn c l 0 = 0 := fun l => by unfold heightFn; simp
  rcases (not_lt.1 hn).lt_or_eq with q | q
  · have := raised_mono hc q hs
    simp only [z, sub_self] at this
    linarith
  · rw [q] at h
    exact lt_irrefl _ h

/-- **C210**. Two planar catenaries with the same constant and horizontal spacing, the second with its far support higher:
strictly between the supports, at every horizontal distance, the second is higher, but by less than its support. -/
theorem C210_planar {k k' : Catenary2d} (R : k.Reachable) (R' : k'.Reachable) (P : k.Positive) (P' : k'.Positive)
    (s : k'.spacing.x = k.spacing.x) (r : k.spacing.y < k'.spacing.y) (h : k'.constant = k.constant) {p p' : ℝ}
    (h0 : 0 < p) (h1 : p < 1) (hx : (k'.coordinate p' true).x = (k.coordinate p true).x) :
    (k.coordinate p true).y < (k'.coordinate p' true).y ∧
    (k'.coordinate p' true).y - (k.coordinate p true).y < k'.spacing.y - k.spacing.y := by
  obtain ⟨e, ex⟩ := planar_height R p
  obtain ⟨e', -⟩ := planar_height R' p'
  have hc : k'.tensionHorizontal / k'.weightUnit = k.tensionHorizontal / k.weightUnit := h
  have q := planar_end P
  have q' := planar_end P'
  rw [hc, s] at q'
  have hl := raised_low (l := k.update.left.x) (l' := k'.update.left.x) (s := k.spacing.x) P.c P.a (by rw [q, q']; exact r)
  have m := raised_mono P.c hl
  have m0 := Catenary2d.coordinateX_strictMono P h0
  have m1 := Catenary2d.coordinateX_strictMono P h1
  rw [Catenary2d.coordinateX_zero P] at m0
  rw [Catenary2d.coordinateX_one P] at m1
  have b := Catenary2d.span_eq P
  rw [e, e', hx, ex, hc]
  have a0 := m (show 0 < k.update.coordinateX p - k.update.left.x by linarith)
  have a1 := m (show k.update.coordinateX p - k.update.left.x < k.spacing.x by linarith)
  have z : ∀ l, heightFn (k.tensionHorizontal / k.weightUnit) l 0 = 0 := fun l => by unfold heightFn; simp
  simp only [z, sub_self, q, q'] at a0 a1
  exact ⟨by linarith, a1⟩

/-- **C210**. The tangents at both supports turn upwards. -/
theorem C210_planar_ends {k k' : Catenary2d} (R : k.Reachable) (R' : k'.Reachable) (P : k.Positive) (P' : k'.Positive)
    (s : k'.spacing.x = k.spacing.x) (r : k.spacing.y < k'.spacing.y) (h : k'.constant = k.constant) :
    (k.tangentVector 0 .positive).y < (k'.tangentVector 0 .positive).y ∧
    (k.tangentVector 1 .positive).y < (k'.tangentVector 1 .positive).y := by
  have hc : k'.tensionHorizontal / k'.weightUnit = k.tensionHorizontal / k.weightUnit := h
  have q := planar_end P
  have q' := planar_end P'
  rw [hc, s] at q'
  have hl := raised_low (l := k.update.left.x) (l' := k'.update.left.x) (s := k.spacing.x) P.c P.a (by rw [q, q']; exact r)
  have b := Catenary2d.span_eq P
  have b' := Catenary2d.span_eq P'
  rw [planar_tangent R, planar_tangent R', planar_tangent R, planar_tangent R', Catenary2d.coordinateX_zero P,
    Catenary2d.coordinateX_zero P', Catenary2d.coordinateX_one P, Catenary2d.coordinateX_one P', hc]
  exact ⟨sin_arctan_lt (Real.sinh_lt_sinh.2 (div_lt_div_of_pos_right hl P.c)),
    sin_arctan_lt (Real.sinh_lt_sinh.2 (div_lt_div_of_pos_right (by linarith) P.c))⟩

section
variable {k k' : Catenary3d} (R : k.Reachable) (R' : k'.Reachable) (V : k.validate.1 = true)
  (V' : k'.validate.1 = true) (s : k'.spacing.x = k.spacing.x) (r : k.spacing.z < k'.spacing.z)
  (hy : k.weightUnit.y = 0) (hy' : k'.weightUnit.y = 0) (h : k'.constant = k.constant)
include R R' V V' s r hy hy' h

theorem planar_same : k'.tensionHorizontal / k'.weightUnit.z = k.tensionHorizontal / k.weightUnit.z := by
  have e : ∀ {m : Catenary3d}, m.Physical → m.weightUnit.y = 0 → m.weightUnit.magnitude = m.weightUnit.z := by
    intro m P q
    unfold V3.magnitude
    rw [P.wx, q, show (0:ℝ) ^ 2 + 0 ^ 2 + m.weightUnit.z ^ 2 = m.weightUnit.z ^ 2 by ring, Real.sqrt_sq P.wz.le]
  rw [← e (C54_validate_physical R V) hy, ← e (C54_validate_physical R' V') hy', ← (valid_constant R V).1,
    ← (valid_constant R' V').1]
  exact h

/-- **C210**. Two accepted catenaries under vertical loads with the same constant and horizontal spacing, the second with its
far support higher: strictly between the supports the second is higher, point by point, but by less than its support. -/
theorem C210_coordinate {p p' : ℝ} (h0 : 0 < p) (h1 : p < 1) (hx : (k'.coordinate p').x = (k.coordinate p).x) :
    (k.coordinate p).z < (k'.coordinate p').z ∧
    (k'.coordinate p').z - (k.coordinate p).z < k'.spacing.z - k.spacing.z := by
  have P := C54_validate_physical R V
  have P' := C54_validate_physical R' V'
  obtain ⟨c, -⟩ := C51_vertical R P hy
  obtain ⟨c', -⟩ := C51_vertical R' P' hy'
  rw [c, c'] at hx ⊢
  exact C210_planar
    (k := ((Catenary2d.new.setSpacing ⟨k.spacing.x, k.spacing.z⟩).setTension k.tensionHorizontal).setWeight k.weightUnit.z)
    (k' := ((Catenary2d.new.setSpacing ⟨k'.spacing.x, k'.spacing.z⟩).setTension k'.tensionHorizontal).setWeight
      k'.weightUnit.z) ⟨[.setSpacing _, .setTension _, .setWeight _], rfl, rfl⟩
    ⟨[.setSpacing _, .setTension _, .setWeight _], rfl, rfl⟩ ⟨P.h, P.wz, P.sx⟩ ⟨P'.h, P'.wz, P'.sx⟩ s r
    (planar_same R R' V V' s r hy hy' h) h0 h1 hx

/-- **C210**. And so in space: the tangents at both supports turn upwards. -/
theorem C210_ends : (k.tangentVector 0 .positive).z < (k'.tangentVector 0 .positive).z ∧
    (k.tangentVector 1 .positive).z < (k'.tangentVector 1 .positive).z := by
  have P := C54_validate_physical R V
  have P' := C54_validate_physical R' V'
  obtain ⟨-, -, c, -⟩ := C51_vertical R P hy
  obtain ⟨-, -, c', -⟩ := C51_vertical R' P' hy'
  rw [c, c', c, c']
  exact C210_planar_ends
    (k := ((Catenary2d.new.setSpacing ⟨k.spacing.x, k.spacing.z⟩).setTension k.tensionHorizontal).setWeight k.weightUnit.z)
    (k' := ((Catenary2d.new.setSpacing ⟨k'.spacing.x, k'.spacing.z⟩).setTension k'.tensionHorizontal).setWeight
      k'.weightUnit.z) ⟨[.setSpacing _, .setTension _, .setWeight _], rfl, rfl⟩
    ⟨[.setSpacing _, .setTension _, .setWeight _], rfl, rfl⟩ ⟨P.h, P.wz, P.sx⟩ ⟨P'.h, P'.wz, P'.sx⟩ s r
    (planar_same R R' V V' s r hy hy' h)

end

/-- The level span of 1000 with its far support raised by 50. -/
example : (exSpan.tangentVector 1 .positive).z < ((exSpan.setSpacing ⟨1000, 0, 50⟩).tangentVector 1 .positive).z := by
  have R : (exSpan.setSpacing ⟨1000, 0, 50⟩).Reachable := exSpan_reachable.step (.setSpacing _)
  have V : (exSpan.setSpacing ⟨1000, 0, 50⟩).validate.1 = true := by
    have old := (C54_validate_3d exSpan_reachable).1.1 exSpan_valid
    obtain ⟨a, b, c, d, e, f, g, i⟩ := old
    refine (C54_validate_3d R).1.2 ⟨a, ?_, rfl, ?_, e, f, g, ?_⟩
    · show (0:ℝ) < 1000; norm_num
    · show |(50:ℝ)| < 2000; rw [abs_of_pos] <;> norm_num
    · show √((1000:ℝ) ^ 2 + 0 ^ 2 + 50 ^ 2) / 2 ≤ 6000 / √((0:ℝ) ^ 2 + 0 ^ 2 + 1 ^ 2)
      have a1 : √((1000:ℝ) ^ 2 + 0 ^ 2 + 50 ^ 2) ≤ 1010 := Real.sqrt_le_iff.2 ⟨by norm_num, by norm_num⟩
      have a2 : √((0:ℝ) ^ 2 + 0 ^ 2 + 1 ^ 2) = 1 := by norm_num
      rw [a2]
      exact (div_le_div_of_nonneg_right a1 (by norm_num)).trans (by norm_num)
  exact (C210_ends exSpan_reachable R exSpan_valid V rfl (show (0:ℝ) < 50 by norm_num) rfl rfl (by
    rw [(valid_constant exSpan_reachable exSpan_valid).1, (valid_constant R V).1]; rfl)).2

end Verif.Props
