import Mathlib.Tactic.NormNum
import Verif.Catenary2dLemmas

/-! # Properties of the 2D catenary (C41-C50, C54) -/

set_option linter.unusedSectionVars false

namespace Verif.Props

open Verif.Units Catenary2d

/-- A span of 1200 x -200 at tension 6000. -/
noncomputable def exCat : Catenary2d := ((new.setSpacing ⟨1200, -200⟩).setTension 6000).setWeight 1

theorem exCat_reachable : exCat.Reachable :=
  ⟨[.setSpacing ⟨1200, -200⟩, .setTension 6000, .setWeight 1], rfl, rfl⟩

theorem exCat_positive : exCat.Positive := by
  refine ⟨?_, ?_, ?_⟩ <;> simp [exCat, setSpacing, setTension, setWeight]

section
variable {k : Catenary2d} (R : k.Reachable) (P : k.Positive)
include R P

/-- C41: the far end minus the near end is the requested spacing. -/
theorem C41_endpoints :
    (k.coordinate 1).x - (k.coordinate 0).x = k.spacing.x ∧
      (k.coordinate 1).y - (k.coordinate 0).y = k.spacing.y := by
  unfold coordinate
  rw [R.refresh_eq]
  simp only [coordinateBody, Bool.false_eq_true, if_false, coordinateX_zero P, coordinateX_one P,
    update_coordinateY]
  exact ⟨span_eq P, rise_right P⟩

/-- C41: with the shifted origin the near end is at the origin and the far end at the spacing. -/
theorem C41_shifted :
    k.coordinate 0 true = ⟨0, 0⟩ ∧ k.coordinate 1 true = k.spacing := by
  unfold coordinate
  rw [R.refresh_eq]
  simp only [coordinateBody, if_true, coordinateX_zero P, coordinateX_one P, update_coordinateY,
    update_left_y, sub_self]
  refine ⟨trivial, ?_⟩
  ext
  · exact span_eq P
  · exact rise_right P

/-- C42: coordinates lie on the curve `y = c (cosh (x/c) - 1)` and the part of the curve from the left
end to position `p` has arc length `p * Length()`. -/
theorem C42_arc_length (p : ℝ) :
    let c := k.tensionHorizontal / k.weightUnit
    let curve := fun x : ℝ => c * (Real.cosh (x / c) - 1)
    (k.coordinate p).y = curve (k.coordinate p).x ∧
    ∫ x in (k.coordinate 0).x..(k.coordinate p).x, Real.sqrt (1 + deriv curve x ^ 2) = p * k.lengthQ := by
  intro c curve
  have hc : 0 < c := P.c
  have hd : ∀ x, HasDerivAt curve (Real.sinh (x / c)) x := by
    intro x
    have h1 : HasDerivAt (fun x : ℝ => x / c) (1 / c) x := (hasDerivAt_id x).div_const c
    have := ((h1.cosh).sub_const 1).const_mul c
    refine this.congr_deriv ?_
    clear_value c
    field_simp
  have hs : ∀ x, Real.sqrt (1 + deriv curve x ^ 2) = Real.cosh (x / c) := by
    intro x
    rw [(hd x).deriv, add_comm, ← Real.cosh_sq]
    exact Real.sqrt_sq (Real.cosh_pos _).le
  have hF : ∀ x, HasDerivAt (fun x : ℝ => c * Real.sinh (x / c)) (Real.cosh (x / c)) x := by
    intro x
    have h1 : HasDerivAt (fun x : ℝ => x / c) (1 / c) x := (hasDerivAt_id x).div_const c
    have := (h1.sinh).const_mul c
    refine this.congr_deriv ?_
    clear_value c
    field_simp
  constructor
  · unfold coordinate
    rw [R.refresh_eq]
    rfl
  · simp only [hs]
    rw [intervalIntegral.integral_eq_sub_of_hasDerivAt (fun x _ => hF x)]
    · unfold coordinate lengthQ
      rw [R.refresh_eq]
      simp only [coordinateBody, Bool.false_eq_true, if_false]
      have h1 := lengthFromOrigin_coordinateX P p
      have h2 := lengthFromOrigin_coordinateX P 0
      unfold lengthFromOrigin at h1 h2
      rw [h1, h2]; ring
    · exact (Real.continuous_cosh.comp (continuous_id.div_const c)).intervalIntegrable _ _

/-- C42: `Length()` is the arc length of the whole span. -/
theorem C42_length :
    let c := k.tensionHorizontal / k.weightUnit
    ∫ x in (k.coordinate 0).x..(k.coordinate 1).x,
      Real.sqrt (1 + deriv (fun x : ℝ => c * (Real.cosh (x / c) - 1)) x ^ 2) = k.lengthQ := by
  have := (C42_arc_length R P 1).2
  rw [one_mul] at this
  exact this

/-- C43: squared length. -/
theorem C43_length_sq : k.lengthQ ^ 2 = k.spacing.y ^ 2 +
    (2 * (k.tensionHorizontal / k.weightUnit) *
      Real.sinh (k.spacing.x / (2 * (k.tensionHorizontal / k.weightUnit)))) ^ 2 := by
  unfold lengthQ
  rw [R.refresh_eq, length_eq P, ← rise_eq P]
  have e : k.spacing.x / (2 * (k.tensionHorizontal / k.weightUnit)) = k.z := by
    unfold z; rw [div_div]
  rw [e]
  have := Real.cosh_sq k.mid
  rw [mul_pow, mul_pow, mul_pow, this]; ring

/-- C43: the cable is longer than the straight line between its ends. -/
theorem C43_slack_pos : 0 < k.lengthSlack := by
  have h := C43_length_sq R P
  unfold lengthQ at h
  unfold lengthSlack
  rw [(refresh_params k).2.2]
  have hc := P.c
  have ha := P.a
  set c := k.tensionHorizontal / k.weightUnit with hcdef
  have hL : 0 < k.refresh.length := by rw [R.refresh_eq]; exact length_pos P
  have hz : 0 < k.spacing.x / (2 * c) := by positivity
  have hsz := Real.self_lt_sinh_iff.2 hz
  have h1 : k.spacing.x < 2 * c * Real.sinh (k.spacing.x / (2 * c)) := by
    calc k.spacing.x = 2 * c * (k.spacing.x / (2 * c)) := by field_simp
      _ < _ := mul_lt_mul_of_pos_left hsz (by positivity)
  have h2 : k.spacing.magnitude ^ 2 < k.refresh.length ^ 2 := by
    rw [h, V2.magnitude_sq]
    have := pow_lt_pow_left₀ h1 ha.le (by norm_num : 2 ≠ 0)
    linarith
  have := lt_of_pow_lt_pow_left₀ 2 hL.le h2
  linarith

/-- The low point has abscissa 0. -/
theorem low_point : k.coordinate k.positionFractionOrigin = ⟨0, 0⟩ := by
  unfold coordinate positionFractionOrigin
  rw [R.refresh_eq]
  have e : k.update.coordinateX (k.update.positionFractionBody 0) = 0 := by
    have := coordinateX_convert P 0
    have e : k.update.positionFractionBody 0 = k.update.convertToPositionFraction 0 := by
      simp [positionFractionBody, toRadians_eq]
    rw [e]; exact this
  simp only [coordinateBody, Bool.false_eq_true, if_false, e]
  simp [coordinateY]

/-- C44: `PositionFractionOrigin` is the lowest point of the curve. -/
theorem C44_low_point (p : ℝ) : (k.coordinate k.positionFractionOrigin).y ≤ (k.coordinate p).y := by
  rw [low_point R P]
  unfold coordinate
  rw [R.refresh_eq]
  simp only [coordinateBody, Bool.false_eq_true, if_false, coordinateY, update_h, update_w]
  have := Real.one_le_cosh (k.update.coordinateX p / (k.tensionHorizontal / k.weightUnit))
  exact mul_nonneg P.c.le (by linarith)

/-- C44: tension is horizontal tension plus weight times height above the low point. -/
theorem C44_tension_height (p : ℝ) :
    k.tension p = k.tensionHorizontal +
      k.weightUnit * ((k.coordinate p).y - (k.coordinate k.positionFractionOrigin).y) := by
  rw [low_point R P]
  unfold tension coordinate
  rw [R.refresh_eq]
  simp only [coordinateBody, Bool.false_eq_true, if_false, coordinateY, update_h, update_w,
    tensionBody_update P]
  have e : k.weightUnit * (k.tensionHorizontal / k.weightUnit) = k.tensionHorizontal :=
    mul_div_cancel₀ _ P.w.ne'
  rw [sub_zero, ← mul_assoc, e]; ring

/-- C44: tension is at least the horizontal tension. -/
theorem C44_tension_ge (p : ℝ) : k.tensionHorizontal ≤ k.tension p := by
  rw [C44_tension_height R P]
  have := C44_low_point R P p
  have := mul_nonneg P.w.le (sub_nonneg.2 this)
  linarith

/-- C44: squared tension from the arc length measured from the low point. -/
theorem C44_tension_sq (p : ℝ) :
    k.tension p ^ 2 = k.tensionHorizontal ^ 2 +
      (k.weightUnit * ((p - k.positionFractionOrigin) * k.lengthQ)) ^ 2 := by
  have h0 := congrArg V2.x (low_point R P)
  unfold tension lengthQ
  unfold coordinate at h0
  rw [R.refresh_eq] at h0 ⊢
  simp only [coordinateBody, Bool.false_eq_true, if_false] at h0
  rw [tensionBody_update P, mul_pow, Real.cosh_sq, sinh_at P]
  have h1 := lengthFromOrigin_coordinateX P k.positionFractionOrigin
  rw [h0] at h1
  simp only [lengthFromOrigin, zero_div, Real.sinh_zero, mul_zero] at h1
  have e : p * k.update.length + k.update.lengthLeft = (p - k.positionFractionOrigin) * k.update.length := by
    linarith
  rw [e, mul_add, ← mul_pow]
  have hh := P.h; have hw := P.w
  have e2 : k.tensionHorizontal * ((p - k.positionFractionOrigin) * k.update.length /
      (k.tensionHorizontal / k.weightUnit)) =
      k.weightUnit * ((p - k.positionFractionOrigin) * k.update.length) := by
    field_simp
  rw [e2]; ring

/-- C45: the maximum tension bounds the tension along the span. -/
theorem C45_tension_le_max {p : ℝ} (h0 : 0 ≤ p) (h1 : p ≤ 1) : k.tension p ≤ k.tensionMax := by
  unfold tension tensionMax
  rw [R.refresh_eq]
  obtain ⟨hl, hr⟩ := coordinateX_mem P h0 h1
  have hc := P.c
  have hl' := div_le_div_of_nonneg_right hl hc.le
  have hr' := div_le_div_of_nonneg_right hr hc.le
  rw [left_div P] at hl'
  rw [right_div P] at hr'
  have hz := z_pos P
  have hsz := Real.sinh_pos_iff.2 hz
  have hrise := rise_eq P
  unfold tensionMaxBody
  rw [update_sp]
  split
  · rename_i hb
    have hm : k.mid ≤ 0 := by
      by_contra hn
      have := Real.sinh_pos_iff.2 (not_le.1 hn)
      have : 0 < k.tensionHorizontal / k.weightUnit * (2 * Real.sinh k.mid * Real.sinh k.z) := by positivity
      linarith
    rw [tensionBody_update P, tensionBody_update P, coordinateX_zero P, left_div P]
    apply mul_le_mul_of_nonneg_left _ P.h.le
    rw [Real.cosh_le_cosh, abs_of_neg (by linarith : k.mid - k.z < 0), abs_le]
    constructor <;> linarith
  · rename_i hb
    have hm : 0 ≤ k.mid := by
      by_contra hn
      have h3 := Real.sinh_neg_iff.2 (not_le.1 hn)
      have h2 : 2 * Real.sinh k.mid * Real.sinh k.z < 0 :=
        mul_neg_of_neg_of_pos (by linarith) hsz
      have := mul_neg_of_pos_of_neg hc h2
      linarith
    rw [tensionBody_update P, tensionBody_update P, coordinateX_one P, right_div P]
    apply mul_le_mul_of_nonneg_left _ P.h.le
    rw [Real.cosh_le_cosh, abs_of_pos (by linarith : 0 < k.mid + k.z), abs_le]
    constructor <;> linarith

omit P in
/-- C45: the maximum is attained at an end. -/
theorem C45_max_attained : k.tensionMax = k.tension 0 ∨ k.tensionMax = k.tension 1 := by
  unfold tension tensionMax
  rw [R.refresh_eq]
  unfold tensionMaxBody
  split
  · exact Or.inl rfl
  · exact Or.inr rfl

/-- C46: the average tension is the average over the arc length of the cable. -/
theorem C46_average : k.tensionAverage = ∫ p in (0:ℝ)..1, k.tension p := by
  unfold tension tensionAverage
  rw [R.refresh_eq]
  have hL := length_pos P
  have hc := P.c
  have hh := P.h; have hw := P.w
  set c := k.tensionHorizontal / k.weightUnit with hcdef
  have hu : ∀ p, HasDerivAt (fun p => k.update.coordinateX p / c)
      (k.update.length / (c * Real.cosh (k.update.coordinateX p / c))) p := by
    intro p
    have e : (fun p => k.update.coordinateX p / c) =
        fun p => Real.arsinh ((p * k.update.length + k.update.lengthLeft) / c) := by
      funext p; exact coordinateX_div P p
    rw [e]
    have h1 : HasDerivAt (fun p : ℝ => (p * k.update.length + k.update.lengthLeft) / c)
        (k.update.length / c) p := by
      have := (((hasDerivAt_id p).mul_const k.update.length).add_const k.update.lengthLeft).div_const c
      simpa using this
    have h2 := h1.arsinh
    convert h2 using 1
    rw [smul_eq_mul, ← Real.cosh_arsinh, ← coordinateX_div P]
    rw [← hcdef]
    have := Real.cosh_pos (k.update.coordinateX p / c)
    clear_value c
    field_simp
  have hF : ∀ p, HasDerivAt (fun p => k.tensionHorizontal ^ 2 / (2 * k.weightUnit * k.update.length) *
      (Real.sinh (k.update.coordinateX p / c) * Real.cosh (k.update.coordinateX p / c) +
        k.update.coordinateX p / c)) (k.update.tensionBody p) p := by
    intro p
    have := ((((hu p).sinh).mul ((hu p).cosh)).add (hu p)).const_mul
      (k.tensionHorizontal ^ 2 / (2 * k.weightUnit * k.update.length))
    refine this.congr_deriv ?_
    rw [tensionBody_update P]
    have hch := Real.cosh_pos (k.update.coordinateX p / c)
    have hsq := Real.cosh_sq (k.update.coordinateX p / c)
    set C := Real.cosh (k.update.coordinateX p / c) with hC
    set S := Real.sinh (k.update.coordinateX p / c) with hS
    have hcw : c * k.weightUnit = k.tensionHorizontal := div_mul_cancel₀ _ hw.ne'
    have e1 : C * (k.update.length / (c * C)) * C + S * (S * (k.update.length / (c * C))) +
        k.update.length / (c * C) = k.update.length / (c * C) * (2 * C ^ 2) := by
      rw [show (2:ℝ) * C ^ 2 = C ^ 2 + (S ^ 2 + 1) by rw [← hsq]; ring]; ring
    rw [e1, ← hcw]
    field_simp
  rw [intervalIntegral.integral_eq_sub_of_hasDerivAt (fun x _ => hF x)]
  · rw [coordinateX_zero P, coordinateX_one P]
    simp only [tensionAverageBody, if_true, update_h, update_w]
    rw [sub_div]
    ring
  · apply Continuous.intervalIntegrable
    have : Continuous fun p => k.update.coordinateX p / c :=
      continuous_iff_continuousAt.2 fun p => (hu p).continuousAt
    exact continuous_const.mul (Real.continuous_cosh.comp this)

/-- C46: the average lies between the horizontal and the maximum tension. -/
theorem C46_average_bounds : k.tensionHorizontal ≤ k.tensionAverage ∧ k.tensionAverage ≤ k.tensionMax := by
  have hi : IntervalIntegrable (fun p => k.tension p) MeasureTheory.volume 0 1 := by
    apply Continuous.intervalIntegrable
    unfold tension
    rw [R.refresh_eq]
    apply continuous_const.mul (Real.continuous_cosh.comp _)
    apply Continuous.div_const
    apply continuous_const.mul
    apply Real.continuous_arsinh.comp
    apply Continuous.div_const
    exact (continuous_id.mul continuous_const).add continuous_const
  rw [C46_average R P]
  constructor
  · have := intervalIntegral.integral_mono_on (μ := MeasureTheory.volume) (zero_le_one' ℝ)
      (intervalIntegrable_const (c := k.tensionHorizontal)) hi (fun p _ => C44_tension_ge R P p)
    simpa using this
  · have := intervalIntegral.integral_mono_on (μ := MeasureTheory.volume) (zero_le_one' ℝ) hi
      (intervalIntegrable_const (c := k.tensionMax)) (fun p hp => C45_tension_le_max R P hp.1 hp.2)
    simpa using this

/-- C46: so does the average over evenly spaced points. -/
theorem C46_points_bounds {n : Int} (hn : 0 < n) :
    k.tensionHorizontal ≤ k.tensionAverage n ∧ k.tensionAverage n ≤ k.tensionMax := by
  have hn0 : n ≠ 0 := by omega
  have hnR : (0:ℝ) < (n:ℝ) := by exact_mod_cast hn
  have hcast : ((n.toNat : ℕ) : ℝ) = (n:ℝ) := by
    have : ((n.toNat : ℕ) : Int) = n := Int.toNat_of_nonneg hn.le
    exact_mod_cast this
  have e : k.tensionAverage n =
      ((List.range (n.toNat + 1)).map fun i : ℕ => k.tension ((i : ℝ) / (n : ℝ))).sum / ((n : ℝ) + 1) := by
    simp only [tensionAverage, tensionAverageBody, tension, hn0, hn, if_false, if_true]
  have hlen : ((List.range (n.toNat + 1)).map fun i : ℕ => k.tension ((i : ℝ) / (n : ℝ))).length =
      n.toNat + 1 := by simp
  have hlo : ∀ t ∈ (List.range (n.toNat + 1)).map fun i : ℕ => k.tension ((i : ℝ) / (n : ℝ)),
      k.tensionHorizontal ≤ t := by
    intro t ht
    obtain ⟨i, _, rfl⟩ := List.mem_map.1 ht
    exact C44_tension_ge R P _
  have hhi : ∀ t ∈ (List.range (n.toNat + 1)).map fun i : ℕ => k.tension ((i : ℝ) / (n : ℝ)),
      t ≤ k.tensionMax := by
    intro t ht
    obtain ⟨i, hi, rfl⟩ := List.mem_map.1 ht
    apply C45_tension_le_max R P
    · positivity
    · rw [div_le_one hnR, ← hcast]
      have : i ≤ n.toNat := by have := List.mem_range.1 hi; omega
      exact_mod_cast this
  have h1 := List.card_nsmul_le_sum _ _ hlo
  have h2 := List.sum_le_card_nsmul _ _ hhi
  rw [hlen, nsmul_eq_mul] at h1 h2
  push_cast at h1 h2
  rw [hcast] at h1 h2
  rw [e, le_div_iff₀ (by linarith), div_le_iff₀ (by linarith)]
  constructor <;> linarith

/-- Sag in terms of the abscissa. -/
theorem sagAt_eq (p : ℝ) :
    k.sagAt p = k.coordinateY k.update.left.x +
      (k.update.coordinateX p - k.update.left.x) * (k.spacing.y / k.spacing.x) -
      k.coordinateY (k.update.coordinateX p) := by
  unfold sagAt
  rw [R.refresh_eq]
  rfl

/-- C47: no sag at the ends. -/
theorem C47_sag_ends : k.sagAt 0 = 0 ∧ k.sagAt 1 = 0 := by
  have ha := P.a
  rw [sagAt_eq R P, sagAt_eq R P, coordinateX_zero P, coordinateX_one P, span_eq P]
  refine ⟨by ring, ?_⟩
  have := rise_right P
  rw [mul_div_cancel₀ _ ha.ne']
  linarith

/-- C47: sag is nonnegative along the span. -/
theorem C47_sag_nonneg {p : ℝ} (h0 : 0 ≤ p) (h1 : p ≤ 1) : 0 ≤ k.sagAt p := by
  have ha := P.a
  have hc := P.c
  obtain ⟨hl, hr⟩ := coordinateX_mem P h0 h1
  have hch := cosh_chord (div_le_div_of_nonneg_right hl hc.le) (div_le_div_of_nonneg_right hr hc.le)
  rw [sagAt_eq R P, ← rise_right P, ← span_eq P]
  have hs := span_eq P
  simp only [coordinateY]
  set c := k.tensionHorizontal / k.weightUnit
  set l := k.update.left.x
  set r := k.update.right.x
  set x := k.update.coordinateX p
  have hrl : 0 < r - l := by linarith
  have hch' : (r - l) * Real.cosh (x / c) ≤ (r - x) * Real.cosh (l / c) + (x - l) * Real.cosh (r / c) := by
    have := mul_le_mul_of_nonneg_left hch hc.le
    have e1 : c * ((r / c - l / c) * Real.cosh (x / c)) = (r - l) * Real.cosh (x / c) := by
      field_simp
    have e2 : c * ((r / c - x / c) * Real.cosh (l / c) + (x / c - l / c) * Real.cosh (r / c)) =
      (r - x) * Real.cosh (l / c) + (x - l) * Real.cosh (r / c) := by field_simp
    rw [e1, e2] at this
    exact this
  have e : c * (Real.cosh (l / c) - 1) + (x - l) * ((c * (Real.cosh (r / c) - 1) -
      c * (Real.cosh (l / c) - 1)) / (r - l)) - c * (Real.cosh (x / c) - 1) =
      c * ((r - x) * Real.cosh (l / c) + (x - l) * Real.cosh (r / c) - (r - l) * Real.cosh (x / c)) /
        (r - l) := by
    field_simp; ring
  rw [e]
  apply div_nonneg (mul_nonneg hc.le (by linarith)) hrl.le

/-- The curve is parallel to the chord at the sag point. -/
theorem sagPoint_slope :
    Real.sinh (k.update.coordinateX k.positionFractionSagPoint / (k.tensionHorizontal / k.weightUnit)) =
      k.spacing.y / k.spacing.x := by
  unfold positionFractionSagPoint
  rw [R.refresh_eq]
  simp only [positionFractionSagPointBody, positionFractionBody, update_h, update_w, update_sp]
  rw [coordinateX_convert P, mul_comm, mul_div_assoc, div_self P.c.ne', mul_one, Real.sinh_arsinh]
  rw [V2.angle_true_of_pos _ P.a, toRadians_toDegrees, Real.tan_arctan]

/-- C47: the sag at the sag point bounds the sag anywhere. -/
theorem C47_sag_max (p : ℝ) : k.sagAt p ≤ k.sag := by
  have es : k.sag = k.sagAt k.positionFractionSagPoint := rfl
  rw [es, sagAt_eq R P, sagAt_eq R P, ← sagPoint_slope R P]
  have hc := P.c
  simp only [coordinateY]
  set c := k.tensionHorizontal / k.weightUnit
  set s := k.update.coordinateX k.positionFractionSagPoint
  set x := k.update.coordinateX p
  have := mul_le_mul_of_nonneg_left (cosh_tangent (s / c) (x / c)) hc.le
  have e : c * (Real.cosh (s / c) + Real.sinh (s / c) * (x / c - s / c)) =
      c * Real.cosh (s / c) + (x - s) * Real.sinh (s / c) := by field_simp
  rw [e] at this
  linarith

/-- C47: `Sag()` is the sag at the sag point, which lies inside the span, and there the curve is
parallel to the chord. -/
theorem C47_sag_point :
    k.sag = k.sagAt k.positionFractionSagPoint ∧
      0 < k.positionFractionSagPoint ∧ k.positionFractionSagPoint < 1 ∧
      Real.sinh ((k.coordinate k.positionFractionSagPoint).x / (k.tensionHorizontal / k.weightUnit)) =
        k.spacing.y / k.spacing.x := by
  have hs := sagPoint_slope R P
  have ha := P.a
  have hc := P.c
  have hmono := coordinateX_strictMono P
  have hsp := span_eq P
  have hrise := rise_right P
  simp only [coordinateY] at hrise
  have key : ∀ u v : ℝ, u < v →
      Real.sinh u * (v - u) < Real.cosh v - Real.cosh u ∧
      Real.cosh v - Real.cosh u < Real.sinh v * (v - u) := by
    intro u v huv
    have m1 := cosh_tangent u ((u + v) / 2)
    have m2 := cosh_tangent ((u + v) / 2) v
    have m3 := cosh_tangent ((u + v) / 2) u
    have m4 := cosh_tangent v ((u + v) / 2)
    have s1 := Real.sinh_lt_sinh.2 (by linarith : u < (u + v) / 2)
    have s2 := Real.sinh_lt_sinh.2 (by linarith : (u + v) / 2 < v)
    constructor <;> nlinarith
  have hslope : k.spacing.y / k.spacing.x * (k.update.right.x / (k.tensionHorizontal / k.weightUnit) -
      k.update.left.x / (k.tensionHorizontal / k.weightUnit)) =
      Real.cosh (k.update.right.x / (k.tensionHorizontal / k.weightUnit)) -
      Real.cosh (k.update.left.x / (k.tensionHorizontal / k.weightUnit)) := by
    rw [← hrise, ← hsp]
    have : 0 < k.update.right.x - k.update.left.x := by linarith
    set c := k.tensionHorizontal / k.weightUnit
    clear_value c
    field_simp
    ring
  have hlt : k.update.left.x / (k.tensionHorizontal / k.weightUnit) <
      k.update.right.x / (k.tensionHorizontal / k.weightUnit) :=
    div_lt_div_of_pos_right (by linarith) hc
  obtain ⟨k1, k2⟩ := key _ _ hlt
  rw [← hslope, ← hs] at k1 k2
  have k1' := Real.sinh_lt_sinh.1 (lt_of_mul_lt_mul_right k1 (by linarith))
  have k2' := Real.sinh_lt_sinh.1 (lt_of_mul_lt_mul_right k2 (by linarith))
  rw [div_lt_div_iff_of_pos_right hc] at k1' k2'
  rw [← coordinateX_zero P, hmono.lt_iff_lt] at k1'
  rw [← coordinateX_one P, hmono.lt_iff_lt] at k2'
  refine ⟨rfl, k1', k2', ?_⟩
  unfold coordinate
  rw [R.refresh_eq]
  exact hs

/-- C47: the maximum sag is positive. -/
theorem C47_sag_pos : 0 < k.sag := by
  obtain ⟨es, h0, _, hs⟩ := C47_sag_point R P
  unfold coordinate at hs
  rw [R.refresh_eq] at hs
  simp only [coordinateBody, Bool.false_eq_true, if_false] at hs
  have hc := P.c
  have hx := coordinateX_strictMono P h0
  rw [← (C47_sag_ends R P).1, es, sagAt_eq R P, sagAt_eq R P, ← hs]
  simp only [coordinateY]
  have hne : k.update.coordinateX k.positionFractionSagPoint / (k.tensionHorizontal / k.weightUnit) ≠
      k.update.coordinateX 0 / (k.tensionHorizontal / k.weightUnit) := by
    intro h
    have := (div_lt_div_iff_of_pos_right hc).2 hx
    linarith
  have := mul_lt_mul_of_pos_left (cosh_tangent_strict hne) hc
  set c := k.tensionHorizontal / k.weightUnit
  set s := k.update.coordinateX k.positionFractionSagPoint
  set x := k.update.coordinateX 0
  have e : c * (Real.cosh (s / c) + Real.sinh (s / c) * (x / c - s / c)) =
      c * Real.cosh (s / c) + (x - s) * Real.sinh (s / c) := by field_simp
  rw [e] at this
  linarith

/-- C48: the position of a tangent angle has that tangent angle. -/
theorem C48_angle_of_position {t : ℝ} (h0 : -90 < t) (h1 : t < 90) :
    k.tangentAngle (k.positionFraction t) .positive = t ∧
      k.tangentAngle (k.positionFraction t) .negative = -t := by
  have e : k.tangentAngle (k.positionFraction t) .positive = t := by
    unfold tangentAngle positionFraction
    rw [R.refresh_eq]
    simp only [tangentAngleBody, positionFractionBody, coordinateX_convert P, reduceCtorEq, if_false]
    rw [mul_div_cancel_left₀ _ (by exact P.c.ne'), Real.sinh_arsinh, Real.arctan_tan]
    · simp only [toRadians_eq, toDegrees_eq]
      have := kPi_pos
      field_simp
    · have := kPi_lt_pi; have := kPi_pos
      rw [toRadians_eq]; nlinarith
    · have := kPi_lt_pi; have := kPi_pos
      rw [toRadians_eq]; nlinarith
  refine ⟨e, ?_⟩
  have e2 : k.tangentAngle (k.positionFraction t) .negative =
      -k.tangentAngle (k.positionFraction t) .positive := by
    simp [tangentAngle, tangentAngleBody]
  rw [e2, e]

/-- C48: the position of the tangent angle at a position is that position. -/
theorem C48_position_of_angle (p : ℝ) : k.positionFraction (k.tangentAngle p .positive) = p := by
  unfold tangentAngle positionFraction
  rw [R.refresh_eq]
  simp only [tangentAngleBody, positionFractionBody, reduceCtorEq, if_false, toRadians_toDegrees,
    Real.tan_arctan, Real.arsinh_sinh]
  rw [mul_div_cancel₀ _ (by exact P.c.ne')]
  exact convert_coordinateX P p

/-- C48: the tangent is level at the low point. -/
theorem C48_origin (d : Direction) : k.tangentAngle k.positionFractionOrigin d = 0 := by
  have := (C48_angle_of_position R P (t := 0) (by norm_num) (by norm_num)).1
  have e : k.positionFractionOrigin = k.positionFraction 0 := rfl
  rw [e]
  have e2 : k.tangentAngle (k.positionFraction 0) d =
      if d = .negative then -k.tangentAngle (k.positionFraction 0) .positive
      else k.tangentAngle (k.positionFraction 0) .positive := by
    cases d <;> simp [tangentAngle, tangentAngleBody]
  rw [e2, this]; simp

/-- Components of the tangent vector towards the right. -/
theorem tangentVector_pos (p : ℝ) :
    k.tangentVector p .positive =
      ⟨1 / Real.cosh (k.update.coordinateX p / (k.tensionHorizontal / k.weightUnit)),
        Real.sinh (k.update.coordinateX p / (k.tensionHorizontal / k.weightUnit)) /
        Real.cosh (k.update.coordinateX p / (k.tensionHorizontal / k.weightUnit))⟩ := by
  unfold tangentVector
  rw [R.refresh_eq]
  simp only [tangentVectorBody, tangentAngleBody, reduceCtorEq, if_false, toRadians_toDegrees, update_h,
    update_w]
  rw [Real.cos_arctan, Real.sin_arctan, add_comm, ← Real.cosh_sq, Real.sqrt_sq (Real.cosh_pos _).le]

/-- C49: the tangent vector is a unit vector; the vector in the negative direction is its opposite. -/
theorem C49_tangent_unit (p : ℝ) :
    (k.tangentVector p .positive).magnitude = 1 ∧ (k.tangentVector p .negative).magnitude = 1 ∧
      k.tangentVector p .negative =
        ⟨-(k.tangentVector p .positive).x, -(k.tangentVector p .positive).y⟩ := by
  refine ⟨?_, ?_, ?_⟩
  · simp [tangentVector, tangentVectorBody, V2.magnitude]
  · simp [tangentVector, tangentVectorBody, V2.magnitude]
  · simp [tangentVector, tangentVectorBody, tangentAngleBody, toRadians_eq]

/-- C49: the tangent vector points to the right along the derivative of the curve. -/
theorem C49_tangent_slope (p : ℝ) :
    let c := k.tensionHorizontal / k.weightUnit
    0 < (k.tangentVector p .positive).x ∧
    (k.tangentVector p .positive).y =
      deriv (fun x : ℝ => c * (Real.cosh (x / c) - 1)) (k.coordinate p).x *
        (k.tangentVector p .positive).x := by
  intro c
  have hc : 0 < c := P.c
  have hd : ∀ x, HasDerivAt (fun x : ℝ => c * (Real.cosh (x / c) - 1)) (Real.sinh (x / c)) x := by
    intro x
    have h1 : HasDerivAt (fun x : ℝ => x / c) (1 / c) x := (hasDerivAt_id x).div_const c
    have := ((h1.cosh).sub_const 1).const_mul c
    refine this.congr_deriv ?_
    clear_value c
    field_simp
  rw [(hd _).deriv, tangentVector_pos R P]
  have hch := Real.cosh_pos (k.update.coordinateX p / (k.tensionHorizontal / k.weightUnit))
  refine ⟨by positivity, ?_⟩
  unfold coordinate
  rw [R.refresh_eq]
  simp only [coordinateBody, Bool.false_eq_true, if_false]
  ring

/-- C49: the horizontal component of the tension vector is the horizontal tension at every position. -/
theorem C49_horizontal (p : ℝ) :
    (k.tensionVector p .positive).x = k.tensionHorizontal ∧
      (k.tensionVector p .negative).x = -k.tensionHorizontal := by
  have e : ∀ d, k.tensionVector p d = (k.tangentVector p d).scale (k.tension p) := fun _ => rfl
  rw [e, e, (C49_tangent_unit R P p).2.2, tangentVector_pos R P]
  have et : k.tension p = k.tensionHorizontal *
      Real.cosh (k.update.coordinateX p / (k.tensionHorizontal / k.weightUnit)) := by
    unfold tension; rw [R.refresh_eq]; rfl
  rw [et]
  have hch := Real.cosh_pos (k.update.coordinateX p / (k.tensionHorizontal / k.weightUnit))
  simp only [V2.scale]
  set C := Real.cosh (k.update.coordinateX p / (k.tensionHorizontal / k.weightUnit))
  clear_value C
  constructor <;> field_simp

/-- C49: the tension vector is as long as the tension. -/
theorem C49_magnitude (p : ℝ) :
    (k.tensionVector p .positive).magnitude = k.tension p ∧
      (k.tensionVector p .negative).magnitude = k.tension p := by
  have e : ∀ d, k.tensionVector p d = (k.tangentVector p d).scale (k.tension p) := fun _ => rfl
  have h := C49_tangent_unit R P p
  have ht : 0 ≤ k.tension p := le_trans P.h.le (C44_tension_ge R P p)
  rw [e, e, V2.magnitude_scale _ ht, V2.magnitude_scale _ ht, h.1, h.2.1]
  simp

/-- C49: any piece of the cable is in equilibrium: the vertical pulls at its two ends carry its weight. -/
theorem C49_equilibrium (p q : ℝ) :
    (k.tensionVector q .positive).y + (k.tensionVector p .negative).y =
      k.weightUnit * ((q - p) * k.lengthQ) := by
  have e : ∀ r d, k.tensionVector r d = (k.tangentVector r d).scale (k.tension r) := fun _ _ => rfl
  have et : ∀ r, k.tension r = k.tensionHorizontal *
      Real.cosh (k.update.coordinateX r / (k.tensionHorizontal / k.weightUnit)) := by
    intro r; unfold tension; rw [R.refresh_eq]; rfl
  have ev : ∀ r, ((k.tangentVector r .positive).scale (k.tension r)).y =
      k.weightUnit * (r * k.update.length + k.update.lengthLeft) := by
    intro r
    rw [tangentVector_pos R P, et]
    have hch := Real.cosh_pos (k.update.coordinateX r / (k.tensionHorizontal / k.weightUnit))
    have hs := sinh_at P r
    have hh := P.h; have hw := P.w
    simp only [V2.scale]
    rw [mul_comm k.tensionHorizontal, ← mul_assoc, div_mul_cancel₀ _ hch.ne', hs]
    field_simp
  have en : ((k.tangentVector p .negative).scale (k.tension p)).y =
      -((k.tangentVector p .positive).scale (k.tension p)).y := by
    rw [(C49_tangent_unit R P p).2.2]; simp [V2.scale]
  rw [e, e, en, ev, ev]
  unfold lengthQ
  rw [R.refresh_eq]
  ring

end

example : exCat.Reachable ∧ exCat.Positive := ⟨exCat_reachable, exCat_positive⟩

/-! ## C50: history -/

/-- Every query of the class, with its arguments, and its answer. -/
inductive Query2 : Type → Type 1 where
  | coordinate (p : ℝ) (s : Bool) : Query2 V2
  | coordinateChord (p : ℝ) (s : Bool) : Query2 V2
  | length : Query2 ℝ
  | lengthSlack : Query2 ℝ
  | positionFraction (t : ℝ) : Query2 ℝ
  | positionFractionOrigin : Query2 ℝ
  | positionFractionSagPoint : Query2 ℝ
  | sag : Query2 ℝ
  | sagAt (p : ℝ) : Query2 ℝ
  | tangentAngle (p : ℝ) (d : Direction) : Query2 ℝ
  | tangentVector (p : ℝ) (d : Direction) : Query2 V2
  | tension (p : ℝ) : Query2 ℝ
  | tensionVector (p : ℝ) (d : Direction) : Query2 V2
  | tensionAverage (n : Int) : Query2 ℝ
  | tensionMax : Query2 ℝ
  | constant : Query2 ℝ
  | validate : Query2 (Bool × List String)

/-- The answer to a query. -/
noncomputable def Query2.ask (k : Catenary2d) : {A : Type} → Query2 A → A
  | _, .coordinate p s => k.coordinate p s
  | _, .coordinateChord p s => k.coordinateChord p s
  | _, .length => k.lengthQ
  | _, .lengthSlack => k.lengthSlack
  | _, .positionFraction t => k.positionFraction t
  | _, .positionFractionOrigin => k.positionFractionOrigin
  | _, .positionFractionSagPoint => k.positionFractionSagPoint
  | _, .sag => k.sag
  | _, .sagAt p => k.sagAt p
  | _, .tangentAngle p d => k.tangentAngle p d
  | _, .tangentVector p d => k.tangentVector p d
  | _, .tension p => k.tension p
  | _, .tensionVector p d => k.tensionVector p d
  | _, .tensionAverage n => k.tensionAverage n
  | _, .tensionMax => k.tensionMax
  | _, .constant => k.constant
  | _, .validate => k.validate

/-- C50: after a history with at least one setter call, every query answers as on a new object that was
given the current parameters. -/
theorem C50_history_2d {k : Catenary2d} (R : k.Reachable) {A : Type} (q : Query2 A) :
    q.ask k =
      q.ask (((new.setSpacing k.spacing).setTension k.tensionHorizontal).setWeight k.weightUnit) := by
  set f := ((new.setSpacing k.spacing).setTension k.tensionHorizontal).setWeight k.weightUnit with hf
  have e : k.refresh = f.refresh := by rw [R.refresh_eq]; rfl
  cases q <;>
    simp only [Query2.ask, coordinate, coordinateChord, lengthQ, lengthSlack, positionFraction,
      positionFractionOrigin, positionFractionSagPoint, sag, sagAt, tangentAngle, tangentVector, tension,
      tensionVector, tensionAverage, tensionMax, e] <;> rfl

/-- C50: the setter call is needed: a new object whose parameters were never set claims to be up to date
and reports a length nobody computed. -/
theorem C50_unset_2d : new.lengthQ = -999999 ∧ new.isUpdated = true := ⟨rfl, rfl⟩

/-! ## C54: validation -/

/-- C54: what `Validate` accepts, and that it reports a message exactly when it rejects. -/
theorem C54_validate_2d (k : Catenary2d) :
    (k.validate.1 = true ↔
      0 < k.tensionHorizontal ∧ 0 < k.weightUnit ∧ 0 < k.spacing.x ∧ |k.spacing.y| < 2000 ∧
      k.spacing.magnitude / 2 ≤ k.tensionHorizontal / k.weightUnit) ∧
    (k.validate.1 = true ↔ k.validate.2 = []) := by
  unfold validate validateCurveAndSpacing constant constantMinimum
  by_cases h1 : k.tensionHorizontal ≤ 0
  · simp [h1, not_lt.2 h1]
  by_cases h2 : k.weightUnit ≤ 0
  · simp [h1, h2, not_lt.2 h2]
  by_cases h3 : k.spacing.x ≤ 0
  · simp [h1, h2, h3, not_lt.2 h3]
  by_cases h4 : 2000 ≤ |k.spacing.y|
  · simp [h1, h2, h3, h4, not_lt.2 h4]
  have h4' : ¬ (10000 < |k.spacing.y|) := by intro h; apply h4; linarith
  by_cases h5 : k.tensionHorizontal / k.weightUnit < k.spacing.magnitude / 2
  · simp [h1, h2, h3, h4, h4', h5, not_le.2 h5]
  · simp [h1, h2, h3, h4, h4', h5, not_le.1 h1, not_le.1 h2, not_le.1 h3, not_le.1 h4, not_lt.1 h5]

/-- C54: an accepted catenary satisfies the hypotheses of the theorems above. -/
theorem C54_validate_positive (k : Catenary2d) (h : k.validate.1 = true) : k.Positive :=
  let h' := (C54_validate_2d k).1.1 h
  ⟨h'.1, h'.2.1, h'.2.2.1⟩

example : exCat.validate.1 = true := by
  rw [(C54_validate_2d exCat).1]
  refine ⟨exCat_positive.h, exCat_positive.w, exCat_positive.a, ?_, ?_⟩
  · simp [exCat, setSpacing, setTension, setWeight]; norm_num
  · have : exCat.spacing.magnitude ≤ 12000 := by
      apply Real.sqrt_le_iff.2
      simp [exCat, setSpacing, setTension, setWeight]; norm_num
    have e : exCat.tensionHorizontal / exCat.weightUnit = 6000 := by
      simp [exCat, setSpacing, setTension, setWeight]
    rw [e]; linarith

end Verif.Props
