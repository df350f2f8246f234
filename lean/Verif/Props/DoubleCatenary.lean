import Verif.DoubleCatenary
import Verif.Props.DoubleVector
import Verif.Props.Catenary2d
import Mathlib.Analysis.Complex.ExponentialBounds

/-! # Catenaries in `double` arithmetic (C179) -/

set_option linter.unusedSectionVars false

namespace Verif.Props

open Verif.Double Verif.Double.Curve

/-- A library with correctly rounded functions. -/
noncomputable def roundedCurveLibrary : CurveLibrary where
  toLibrary := roundedLibrary
  sinh x := rnd (Real.sinh x)
  cosh x := rnd (Real.cosh x)
  asinh x := rnd (Real.arsinh x)
  tan x := rnd (Real.tan x)
  sinh_faithful _ _ := rnd_faithful _
  cosh_faithful _ _ := rnd_faithful _
  asinh_faithful _ _ := rnd_faithful _
  tan_faithful _ _ := rnd_faithful _

/-- Correctly rounded functions are regular. -/
theorem roundedCurveLibrary_regular : roundedCurveLibrary.Regular where
  sinh_mono _ _ _ _ h := rnd_mono (Real.sinh_le_sinh.mpr h)
  asinh_mono _ _ _ _ h := rnd_mono (Real.arsinh_le_arsinh.mpr h)
  sinh_odd x _ := by show rnd (Real.sinh (-x)) = -rnd (Real.sinh x); rw [Real.sinh_neg, rnd_neg]
  cosh_even x _ := by show rnd (Real.cosh (-x)) = rnd (Real.cosh x); rw [Real.cosh_neg]
  asinh_odd x _ := by show rnd (Real.arsinh (-x)) = -rnd (Real.arsinh x); rw [Real.arsinh_neg, rnd_neg]

variable (L : CurveLibrary)

theorem constant_nonneg {k : Catenary2d} (hh : 0 ≤ k.tensionHorizontal) (hw : 0 ≤ k.weightUnit) :
    0 ≤ Curve.constant k := rnd_nonneg (div_nonneg hh hw)

theorem one_le_cosh_lib {x : ℝ} (hx : IsDouble x) : 1 ≤ L.cosh x :=
  (L.cosh_faithful x hx).2.1 1 isDouble_one (Real.one_le_cosh x)

/-- **C179** (tension): no tension along the cable is below the horizontal tension, at any position. -/
theorem C179_tension_floor {k : Catenary2d} (hd : IsDouble k.tensionHorizontal) (hh : 0 ≤ k.tensionHorizontal) (p : ℝ) :
    k.tensionHorizontal ≤ Curve.tension L k p := by
  refine le_rnd hd ?_
  have h := one_le_cosh_lib L (rnd_isDouble (Curve.coordinateX L k p / Curve.constant k))
  nlinarith

/-- **C179** (height): no point of the cable is below the origin of the curve. -/
theorem C179_height {k : Catenary2d} (hh : 0 ≤ k.tensionHorizontal) (hw : 0 ≤ k.weightUnit) (p : ℝ) :
    0 ≤ (Curve.coordinate L k p).y ∧ 0 ≤ (Curve.updateEndPoints L k).left.y ∧
      0 ≤ (Curve.updateEndPoints L k).right.y := by
  have key : ∀ x, 0 ≤ Curve.coordinateY L k x := by
    intro x
    have h := one_le_cosh_lib L (rnd_isDouble (x / Curve.constant k))
    exact rnd_nonneg (mul_nonneg (constant_nonneg hh hw) (rnd_nonneg (by linarith)))
  exact ⟨key _, key _, key _⟩

theorem mul_lib_isDouble (c x : ℝ) : IsDouble (rnd (c * x)) := rnd_isDouble _

theorem left_le_right (L : CurveLibrary) {k : Catenary2d} (hh : 0 ≤ k.tensionHorizontal) (hw : 0 ≤ k.weightUnit)
    (hx : 0 ≤ k.spacing.x) : (Curve.updateEndPoints L k).left.x ≤ (Curve.updateEndPoints L k).right.x := by
  have hc := constant_nonneg hh hw
  have hz : 0 ≤ rnd (rnd (k.spacing.x / 2) / Curve.constant k) :=
    rnd_nonneg (div_nonneg (rnd_nonneg (by linarith)) hc)
  exact rnd_mono (mul_le_mul_of_nonneg_left (rnd_mono (by linarith)) hc)

theorem lengthFromOrigin_mono {L : CurveLibrary} (hL : L.Regular) {k : Catenary2d} (hh : 0 ≤ k.tensionHorizontal)
    (hw : 0 ≤ k.weightUnit) {x y : ℝ} (h : x ≤ y) : Curve.lengthFromOrigin L k x ≤ Curve.lengthFromOrigin L k y := by
  have hc := constant_nonneg hh hw
  exact rnd_mono (mul_le_mul_of_nonneg_left (hL.sinh_mono _ _ (rnd_isDouble _) (rnd_isDouble _)
    (rnd_mono (div_le_div_of_nonneg_right h hc))) hc)

/-- **C179** (order): the length is not negative, and of two positions along the cable the larger one never has the
smaller horizontal coordinate, with a library that keeps the order. -/
theorem C179_order {L : CurveLibrary} (hL : L.Regular) {k : Catenary2d} (hh : 0 ≤ k.tensionHorizontal)
    (hw : 0 ≤ k.weightUnit) (hx : 0 ≤ k.spacing.x) :
    0 ≤ (Curve.update L k).length ∧
      ∀ p q, p ≤ q → (Curve.coordinate L (Curve.update L k) p).x ≤ (Curve.coordinate L (Curve.update L k) q).x := by
  have hc := constant_nonneg hh hw
  have hlen : 0 ≤ (Curve.update L k).length :=
    rnd_nonneg (sub_nonneg.mpr (lengthFromOrigin_mono hL (k := Curve.updateEndPoints L k) hh hw (left_le_right L hh hw hx)))
  refine ⟨hlen, fun p q h => ?_⟩
  refine rnd_mono (mul_le_mul_of_nonneg_left (hL.asinh_mono _ _ (rnd_isDouble _) (rnd_isDouble _)
    (rnd_mono (div_le_div_of_nonneg_right ?_ ?_))) ?_)
  · exact rnd_mono (add_le_add_left (rnd_mono (mul_le_mul_of_nonneg_right h hlen)) _)
  · exact hc
  · exact hc

/-! ### Level spans -/

/-- A level span with positive parameters, none of them absurdly large or small. -/
structure LevelSpan (k : Catenary2d) : Prop where
  level : k.spacing.y = 0
  doubles : IsDouble k.tensionHorizontal ∧ IsDouble k.weightUnit ∧ IsDouble k.spacing.x
  tension : 2 ^ (-100 : ℤ) ≤ k.tensionHorizontal ∧ k.tensionHorizontal ≤ 2 ^ (100 : ℤ)
  weight : 2 ^ (-100 : ℤ) ≤ k.weightUnit ∧ k.weightUnit ≤ 2 ^ (100 : ℤ)
  spacing : 2 ^ (-100 : ℤ) ≤ k.spacing.x ∧ k.spacing.x ≤ 2 ^ (100 : ℤ)

theorem not_tiny {x : ℝ} {e : ℤ} (h : (2 : ℝ) ^ e ≤ x) (he : -1022 ≤ e) : (2 : ℝ) ^ (-1022 : ℤ) ≤ |x| :=
  ((two_zpow_le he).trans h).trans (le_abs_self x)

theorem not_tiny_close {k : ℕ} {a b : ℝ} (h : Close k a b) (hk : k ≤ 2 ^ 50) {e : ℤ} (hb : (2 : ℝ) ^ e ≤ b)
    (he : -1021 ≤ e) : (2 : ℝ) ^ (-1022 : ℤ) ≤ |a| := by
  refine le_trans ?_ (h.abs_ge hk)
  rw [le_div_iff₀ (by norm_num)]
  calc (2 : ℝ) ^ (-1022 : ℤ) * 2 = 2 ^ (-1021 : ℤ) := by rw [← zpow_add_one₀ (by norm_num)]; norm_num
    _ ≤ 2 ^ e := two_zpow_le he
    _ ≤ |b| := hb.trans (le_abs_self b)

theorem zpow_div_le {a b : ℝ} {d e : ℤ} (ha : (2 : ℝ) ^ d ≤ a) (hb : 0 < b) (hb' : b ≤ 2 ^ e) :
    (2 : ℝ) ^ (d - e) ≤ a / b := by
  rw [le_div_iff₀ hb]
  calc (2 : ℝ) ^ (d - e) * b ≤ 2 ^ (d - e) * 2 ^ e := mul_le_mul_of_nonneg_left hb' (two_zpow_pos _).le
    _ = 2 ^ d := by rw [← zpow_add₀ (by norm_num)]; congr 1; omega
    _ ≤ a := ha

theorem zpow_mul_le {a b : ℝ} {d e : ℤ} (ha : (2 : ℝ) ^ d ≤ a) (hb : (2 : ℝ) ^ e ≤ b) : (2 : ℝ) ^ (d + e) ≤ a * b := by
  rw [zpow_add₀ (by norm_num)]
  exact mul_le_mul ha hb (two_zpow_pos _).le ((two_zpow_pos _).le.trans ha)

theorem asinh_zero : L.asinh 0 = 0 := by
  have h := L.asinh_faithful 0 isDouble_zero
  rw [Real.arsinh_zero] at h
  exact h.exact isDouble_zero

theorem sinh_zero_lib : L.sinh 0 = 0 := by
  have h := L.sinh_faithful 0 isDouble_zero
  rw [Real.sinh_zero] at h
  exact h.exact isDouble_zero

theorem cosh_zero_lib : L.cosh 0 = 1 := by
  have h := L.cosh_faithful 0 isDouble_zero
  rw [Real.cosh_zero] at h
  exact h.exact isDouble_one

theorem tan_zero_lib : L.tan 0 = 0 := by
  have h := L.tan_faithful 0 isDouble_zero
  rw [Real.tan_zero] at h
  exact h.exact isDouble_zero

/-- Half of the spacing over the constant of the curve, as computed. -/
noncomputable def halfAngle (k : Catenary2d) : ℝ := rnd (rnd (k.spacing.x / 2) / Curve.constant k)

/-- The distance of the ends of a level span from the low point, as computed. -/
noncomputable def halfSpan (k : Catenary2d) : ℝ := rnd (Curve.constant k * halfAngle k)

theorem level_ends {k : Catenary2d} (h : k.spacing.y = 0) :
    (Curve.updateEndPoints L k).left = ⟨-halfSpan k, Curve.coordinateY L k (-halfSpan k)⟩ ∧
    (Curve.updateEndPoints L k).right = ⟨halfSpan k, Curve.coordinateY L k (halfSpan k)⟩ := by
  have hz : IsDouble (halfAngle k) := rnd_isDouble _
  have e1 : rnd (Curve.constant k * rnd (0 - halfAngle k)) = -halfSpan k := by
    rw [zero_sub, rnd_neg, rnd_of_isDouble hz, mul_neg, rnd_neg]; rfl
  have e2 : rnd (Curve.constant k * rnd (0 + halfAngle k)) = halfSpan k := by
    rw [zero_add, rnd_of_isDouble hz]; rfl
  unfold Curve.updateEndPoints
  simp only [h, zero_mul, rnd_zero, zero_div, asinh_zero]
  change V2.mk (rnd (Curve.constant k * rnd (0 - halfAngle k))) _ = _ ∧
    V2.mk (rnd (Curve.constant k * rnd (0 + halfAngle k))) _ = _
  rw [show rnd (rnd (k.spacing.x / 2) / Curve.constant k) = halfAngle k from rfl, e1, e2]
  exact ⟨rfl, rfl⟩

/-- The size of the numbers for a level span. -/
theorem level_close {k : Catenary2d} (h : LevelSpan k) :
    0 < Curve.constant k ∧ (2 : ℝ) ^ (-202 : ℤ) ≤ Curve.constant k ∧
    Close 3 (halfAngle k) (k.spacing.x / 2 / (k.tensionHorizontal / k.weightUnit)) ∧
    Close 2 (rnd (halfSpan k / Curve.constant k)) (halfAngle k) ∧
    Close 4 (Curve.constant k * rnd (halfSpan k / Curve.constant k)) (k.spacing.x / 2) := by
  have hw0 : 0 < k.weightUnit := (two_zpow_pos _).trans_le h.weight.1
  have hh0 : 0 < k.tensionHorizontal := (two_zpow_pos _).trans_le h.tension.1
  have hs0 : 0 < k.spacing.x := (two_zpow_pos _).trans_le h.spacing.1
  have hC : (2 : ℝ) ^ (-200 : ℤ) ≤ k.tensionHorizontal / k.weightUnit := by
    have := zpow_div_le h.tension.1 hw0 h.weight.2
    simpa using this
  have hC' : k.tensionHorizontal / k.weightUnit ≤ 2 ^ (200 : ℤ) := by
    rw [div_le_iff₀ hw0]
    calc k.tensionHorizontal ≤ 2 ^ (100 : ℤ) := h.tension.2
      _ = 2 ^ (200 : ℤ) * 2 ^ (-100 : ℤ) := by rw [← zpow_add₀ (by norm_num)]; norm_num
      _ ≤ _ := mul_le_mul_of_nonneg_left h.weight.1 (two_zpow_pos _).le
  have hC0 : 0 < k.tensionHorizontal / k.weightUnit := by positivity
  have c1 : Close 1 (Curve.constant k) (k.tensionHorizontal / k.weightUnit) :=
    (Close.refl _).rnd (not_tiny hC (by norm_num))
  have hc0 : 0 < Curve.constant k := by
    have h1 := constant_nonneg hh0.le hw0.le
    rcases h1.eq_or_lt with h2 | h2
    · exact absurd (c1.zero_iff.mp h2.symm) hC0.ne'
    · exact h2
  have hcl : (2 : ℝ) ^ (-202 : ℤ) ≤ Curve.constant k := by
    have := c1.abs_ge (by norm_num)
    rw [abs_of_pos hC0, abs_of_pos hc0, div_le_iff₀ (by norm_num)] at this
    have e : (2 : ℝ) ^ (-200 : ℤ) = 2 ^ (-202 : ℤ) * 4 := by
      rw [show (-200 : ℤ) = -202 + 2 by norm_num, zpow_add₀ (by norm_num)]; norm_num
    have h0 := two_zpow_pos (-202)
    rw [e] at hC
    generalize (2 : ℝ) ^ (-202 : ℤ) = q at *
    linarith
  have hcu : Curve.constant k ≤ 2 ^ (200 : ℤ) :=
    rnd_le ⟨1, 200, by norm_num, by norm_num, by norm_num⟩ hC'
  -- half of the spacing
  have hS : (2 : ℝ) ^ (-101 : ℤ) ≤ k.spacing.x / 2 := by
    have := zpow_div_le (e := 1) h.spacing.1 (by norm_num : (0 : ℝ) < 2) (by norm_num)
    simpa using this
  have s1 : Close 1 (rnd (k.spacing.x / 2)) (k.spacing.x / 2) := (Close.refl _).rnd (not_tiny hS (by norm_num))
  have hZ : (2 : ℝ) ^ (-301 : ℤ) ≤ k.spacing.x / 2 / (k.tensionHorizontal / k.weightUnit) := by
    have := zpow_div_le hS hC0 hC'
    simpa using this
  have hZ' : (2 : ℝ) ^ (-301 : ℤ) ≤ k.spacing.x / 2 / Curve.constant k := by
    have := zpow_div_le hS hc0 hcu
    simpa using this
  have z2 : Close 2 (rnd (k.spacing.x / 2) / Curve.constant k) (k.spacing.x / 2 / (k.tensionHorizontal / k.weightUnit)) :=
    s1.div c1
  have z3 : Close 3 (halfAngle k) (k.spacing.x / 2 / (k.tensionHorizontal / k.weightUnit)) :=
    z2.rnd (not_tiny_close z2 (by norm_num) hZ (by norm_num))
  have z1' : Close 1 (rnd (k.spacing.x / 2) / Curve.constant k) (k.spacing.x / 2 / Curve.constant k) :=
    s1.div (Close.refl (Curve.constant k))
  have z2' : Close 2 (halfAngle k) (k.spacing.x / 2 / Curve.constant k) :=
    z1'.rnd (not_tiny_close z1' (by norm_num) hZ' (by norm_num))
  have cz : Close 2 (Curve.constant k * halfAngle k) (k.spacing.x / 2) := by
    have := (Close.refl (Curve.constant k)).mul z2'
    rwa [zero_add, mul_div_cancel₀ _ hc0.ne'] at this
  have x1 : Close 1 (halfSpan k) (Curve.constant k * halfAngle k) :=
    (Close.refl _).rnd (not_tiny_close cz (by norm_num) hS (by norm_num))
  have t1 : Close 1 (halfSpan k / Curve.constant k) (halfAngle k) := by
    have := x1.div (Close.refl (Curve.constant k))
    rwa [add_zero, mul_div_cancel_left₀ _ hc0.ne'] at this
  have t2 : Close 2 (rnd (halfSpan k / Curve.constant k)) (halfAngle k) :=
    t1.rnd (not_tiny_close (t1.trans z3) (by norm_num) hZ (by norm_num))
  refine ⟨hc0, hcl, z3, t2, ?_⟩
  have := (Close.refl (Curve.constant k)).mul t2
  rw [zero_add] at this
  exact this.trans cz

/-- Half of the angle is not less than half of the exact one. -/
theorem endAngle_ge {k : Catenary2d} (h : LevelSpan k) :
    k.spacing.x / 2 / (k.tensionHorizontal / k.weightUnit) / 2 ≤ rnd (halfSpan k / Curve.constant k) := by
  obtain ⟨hc0, -, z3, t2, -⟩ := level_close h
  have hw0 : 0 < k.weightUnit := (two_zpow_pos _).trans_le h.weight.1
  have hh0 : 0 < k.tensionHorizontal := (two_zpow_pos _).trans_le h.tension.1
  have hs0 : 0 < k.spacing.x := (two_zpow_pos _).trans_le h.spacing.1
  have h5 := (t2.trans z3).abs_ge (by norm_num)
  have hz : 0 ≤ halfAngle k := rnd_nonneg (div_nonneg (rnd_nonneg (by linarith)) hc0.le)
  have hx : 0 ≤ halfSpan k := rnd_nonneg (mul_nonneg hc0.le hz)
  have ht : 0 ≤ rnd (halfSpan k / Curve.constant k) := rnd_nonneg (div_nonneg hx hc0.le)
  rwa [abs_of_nonneg ht, abs_of_pos (by positivity)] at h5

theorem one_add_sq_le_cosh {t : ℝ} (ht : 0 ≤ t) : 1 + t ^ 2 / 2 ≤ Real.cosh t := by
  have h1 : t / 2 ≤ Real.sinh (t / 2) := Real.self_le_sinh_iff.mpr (by linarith)
  have h2 : Real.cosh t = 1 + 2 * Real.sinh (t / 2) ^ 2 := by
    have := Real.cosh_two_mul (t / 2)
    rw [show 2 * (t / 2) = t by ring, Real.cosh_sq] at this
    linarith
  rw [h2]
  nlinarith

theorem cubic_le_sinh {t : ℝ} (ht : 0 ≤ t) : t * (1 + t ^ 2 / 8) ≤ Real.sinh t := by
  have h1 : t / 2 ≤ Real.sinh (t / 2) := Real.self_le_sinh_iff.mpr (by linarith)
  have h2 := one_add_sq_le_cosh (t := t / 2) (by linarith)
  have h3 : Real.sinh t = 2 * Real.sinh (t / 2) * Real.cosh (t / 2) := by
    have := Real.sinh_two_mul (t / 2)
    rwa [show 2 * (t / 2) = t by ring] at this
  rw [h3]
  have := mul_le_mul h1 h2 (by positivity) (by linarith)
  nlinarith

theorem isDouble_two_mul {x : ℝ} (h : IsDouble x) : IsDouble (2 * x) := by
  obtain ⟨m, e, hm, he, rfl⟩ := h
  exact ⟨m, e + 1, hm, by omega, by rw [zpow_add_one₀ (by norm_num)]; ring⟩

theorem isDouble_half : IsDouble (1 / 2) := ⟨1, -1, by norm_num, by norm_num, by norm_num⟩

theorem isDouble_two_zpow {e : ℤ} (he : -1074 ≤ e) : IsDouble ((2 : ℝ) ^ e) := ⟨1, e, by norm_num, he, by norm_num⟩

/-- The angle at the ends of a level span, as computed for the height and the length. -/
noncomputable def endAngle (k : Catenary2d) : ℝ := rnd (halfSpan k / Curve.constant k)

/-- The length from the low point to the end of a level span, as computed. -/
noncomputable def halfLength (L : CurveLibrary) (k : Catenary2d) : ℝ := rnd (Curve.constant k * L.sinh (endAngle k))

theorem halfLength_ge {k : Catenary2d} (h : LevelSpan k) : (2 : ℝ) ^ (-102 : ℤ) ≤ halfLength L k ∧
    Close 8 (halfLength L k) (k.spacing.x / 2 * (Real.sinh (endAngle k) / endAngle k)) ∧ 0 < endAngle k := by
  obtain ⟨hc0, hcl, z3, t2, c4⟩ := level_close h
  have hta := endAngle_ge h
  have hw0 : 0 < k.weightUnit := (two_zpow_pos _).trans_le h.weight.1
  have hh0 : 0 < k.tensionHorizontal := (two_zpow_pos _).trans_le h.tension.1
  have hs0 : 0 < k.spacing.x := (two_zpow_pos _).trans_le h.spacing.1
  have ht0 : 0 < endAngle k := lt_of_lt_of_le (by positivity) hta
  have hS : (2 : ℝ) ^ (-101 : ℤ) ≤ k.spacing.x / 2 := by
    have := zpow_div_le (e := 1) h.spacing.1 (by norm_num : (0 : ℝ) < 2) (by norm_num)
    simpa using this
  have hct : (2 : ℝ) ^ (-102 : ℤ) ≤ Curve.constant k * endAngle k := by
    have := c4.abs_ge (by norm_num)
    change _ ≤ |Curve.constant k * endAngle k| at this
    rw [abs_of_pos (by positivity), abs_of_pos (mul_pos hc0 ht0)] at this
    refine le_trans ?_ this
    rw [le_div_iff₀ (by norm_num)]
    refine le_trans (le_of_eq ?_) hS
    rw [← zpow_add_one₀ (by norm_num)]; norm_num
  have hsinh : endAngle k ≤ Real.sinh (endAngle k) := Real.self_le_sinh_iff.mpr ht0.le
  have hts : endAngle k ≤ L.sinh (endAngle k) :=
    (L.sinh_faithful _ (rnd_isDouble _)).2.1 _ (rnd_isDouble _) hsinh
  have hcs : (2 : ℝ) ^ (-102 : ℤ) ≤ Curve.constant k * L.sinh (endAngle k) :=
    hct.trans (mul_le_mul_of_nonneg_left hts hc0.le)
  refine ⟨le_rnd (isDouble_two_zpow (by norm_num)) hcs, ?_, ht0⟩
  have hZ : (2 : ℝ) ^ (-302 : ℤ) ≤ k.spacing.x / 2 / (k.tensionHorizontal / k.weightUnit) / 2 := by
    have hC' : k.tensionHorizontal / k.weightUnit ≤ 2 ^ (200 : ℤ) := by
      rw [div_le_iff₀ hw0]
      calc k.tensionHorizontal ≤ 2 ^ (100 : ℤ) := h.tension.2
        _ = 2 ^ (200 : ℤ) * 2 ^ (-100 : ℤ) := by rw [← zpow_add₀ (by norm_num)]; norm_num
        _ ≤ _ := mul_le_mul_of_nonneg_left h.weight.1 (two_zpow_pos _).le
    have h1 := zpow_div_le hS (by positivity) hC'
    have := zpow_div_le (e := 1) h1 (by norm_num : (0 : ℝ) < 2) (by norm_num)
    simpa using this
  have f3 : Close 3 (L.sinh (endAngle k)) (Real.sinh (endAngle k)) :=
    (L.sinh_faithful _ (rnd_isDouble _)).close (not_tiny (hZ.trans (hta.trans hsinh)) (by norm_num))
  have m3 : Close 3 (Curve.constant k * L.sinh (endAngle k)) (Curve.constant k * Real.sinh (endAngle k)) := by
    have := (Close.refl (Curve.constant k)).mul f3
    rwa [zero_add] at this
  have m4 : Close 4 (halfLength L k) (Curve.constant k * Real.sinh (endAngle k)) :=
    m3.rnd (not_tiny hcs (by norm_num))
  have m5 : Close 4 (Curve.constant k * Real.sinh (endAngle k)) (k.spacing.x / 2 * (Real.sinh (endAngle k) / endAngle k)) := by
    have := Close.mul c4 (Close.refl (Real.sinh (endAngle k) / endAngle k))
    rw [show Curve.constant k * rnd (halfSpan k / Curve.constant k) * (Real.sinh (endAngle k) / endAngle k) =
      Curve.constant k * Real.sinh (endAngle k) by
        change Curve.constant k * endAngle k * _ = _
        field_simp] at this
    simpa using this
  exact m4.trans m5

/-- What is computed for a level span. -/
theorem level_update {L : CurveLibrary} (hL : L.Regular) {k : Catenary2d} (h : k.spacing.y = 0) :
    (Curve.update L k).left = ⟨-halfSpan k, Curve.coordinateY L k (halfSpan k)⟩ ∧
    (Curve.update L k).right = ⟨halfSpan k, Curve.coordinateY L k (halfSpan k)⟩ ∧
    (Curve.update L k).lengthLeft = -halfLength L k ∧ (Curve.update L k).length = 2 * halfLength L k := by
  obtain ⟨hl, hr⟩ := level_ends L h
  have hd : IsDouble (endAngle k) := rnd_isDouble _
  have ey : Curve.coordinateY L k (-halfSpan k) = Curve.coordinateY L k (halfSpan k) := by
    unfold Curve.coordinateY
    rw [neg_div, rnd_neg]
    change rnd (_ * rnd (L.cosh (-endAngle k) - 1)) = rnd (_ * rnd (L.cosh (endAngle k) - 1))
    rw [hL.cosh_even _ hd]
  have el : Curve.lengthFromOrigin L k (-halfSpan k) = -halfLength L k := by
    unfold Curve.lengthFromOrigin
    rw [neg_div, rnd_neg]
    change rnd (_ * L.sinh (-endAngle k)) = _
    rw [hL.sinh_odd _ hd, mul_neg, rnd_neg]; rfl
  have er : Curve.lengthFromOrigin L k (halfSpan k) = halfLength L k := rfl
  have xl : (Curve.updateEndPoints L k).left.x = -halfSpan k := by rw [hl]
  have xr : (Curve.updateEndPoints L k).right.x = halfSpan k := by rw [hr]
  refine ⟨by rw [← ey]; exact hl, hr, ?_, ?_⟩
  · change Curve.lengthFromOrigin L k (Curve.updateEndPoints L k).left.x = _
    rw [xl, el]
  · change rnd (Curve.lengthFromOrigin L k (Curve.updateEndPoints L k).right.x -
      Curve.lengthFromOrigin L k (Curve.updateEndPoints L k).left.x) = _
    rw [xl, xr, el, er, sub_neg_eq_add, ← two_mul]
    exact rnd_of_isDouble (isDouble_two_mul (rnd_isDouble _))

/-- **C179** (level spans): with a library that keeps order and symmetry, the ends of a level span lie symmetrically at
exactly the same height, the low point is exactly in the middle, and the tensions at the ends are equal. -/
theorem C179_level {L : CurveLibrary} (hL : L.Regular) {k : Catenary2d} (h : LevelSpan k) :
    (Curve.update L k).left.x = -(Curve.update L k).right.x ∧ (Curve.update L k).left.y = (Curve.update L k).right.y ∧
    Curve.positionFractionSagPoint L (Curve.update L k) = 1 / 2 ∧
    Curve.coordinate L (Curve.update L k) (1 / 2) = ⟨0, 0⟩ ∧
    Curve.tension L (Curve.update L k) 0 = Curve.tension L (Curve.update L k) 1 := by
  obtain ⟨hl, hr, hll, hln⟩ := level_update hL h.level
  obtain ⟨hge, -, -⟩ := halfLength_ge L h
  have hp : 0 < halfLength L k := (two_zpow_pos _).trans_le hge
  have hd : IsDouble (halfLength L k) := rnd_isDouble _
  have hs0 : 0 < k.spacing.x := (two_zpow_pos _).trans_le h.spacing.1
  refine ⟨by rw [hl, hr], by rw [hl, hr], ?_, ?_, ?_⟩
  · have ha : Double.angle L.toLibrary (Curve.update L k).spacing true = 0 := by
      change Double.angle L.toLibrary k.spacing true = 0
      have hv : ¬ (k.spacing.x = 0 ∧ k.spacing.y = 0) := fun hv => hs0.ne' hv.1
      have h0 : Double.angle L.toLibrary k.spacing = 0 := by
        rw [angle_false _ _ hv, if_pos (.inr h.level), if_neg hs0.ne', if_pos hs0]
      rw [angle_signed _ _ hv, h0]
      norm_num
    have hc : Double.convertAngle L.toLibrary 0 .degreesToRadians = 0 := by
      simp only [Double.convertAngle, Double.convert, zero_mul, rnd_zero]
    unfold Curve.positionFractionSagPoint Curve.positionFraction Curve.convertToPositionFraction Curve.lengthFromOrigin
    simp only [ha, hc, tan_zero_lib, asinh_zero, mul_zero, rnd_zero, zero_div, sinh_zero_lib, hll, hln, zero_sub, neg_neg]
    rw [rnd_of_isDouble hd, show halfLength L k / (2 * halfLength L k) = 1 / 2 by field_simp]
    exact rnd_of_isDouble isDouble_half
  · have hx : Curve.coordinateX L (Curve.update L k) (1 / 2) = 0 := by
      unfold Curve.coordinateX
      simp only [hll, hln]
      rw [show 1 / 2 * (2 * halfLength L k) = halfLength L k by ring, rnd_of_isDouble hd, add_neg_cancel, rnd_zero,
        zero_div, rnd_zero, asinh_zero, mul_zero, rnd_zero]
    unfold Curve.coordinate
    rw [hx]
    unfold Curve.coordinateY
    rw [zero_div, rnd_zero, cosh_zero_lib, sub_self, rnd_zero, mul_zero, rnd_zero]
  · have h0 : Curve.coordinateX L (Curve.update L k) 0 = -Curve.coordinateX L (Curve.update L k) 1 := by
      unfold Curve.coordinateX
      simp only [hll, hln]
      rw [zero_mul, rnd_zero, zero_add, one_mul, rnd_of_isDouble (isDouble_two_mul hd), rnd_of_isDouble hd.neg,
        show 2 * halfLength L k + -halfLength L k = halfLength L k by ring, rnd_of_isDouble hd, neg_div, rnd_neg,
        hL.asinh_odd _ (rnd_isDouble _), mul_neg, rnd_neg]
    unfold Curve.tension
    rw [h0, neg_div, rnd_neg, hL.cosh_even _ (rnd_isDouble _)]

theorem level_sag {L : CurveLibrary} (hL : L.Regular) {k : Catenary2d} (h : LevelSpan k) :
    Curve.sag L (Curve.update L k) = Curve.coordinateY L k (halfSpan k) := by
  obtain ⟨hl, -, -, -⟩ := level_update hL h.level
  obtain ⟨-, -, hf, hm, -⟩ := C179_level hL h
  have hy : (Curve.update L k).spacing.y = 0 := h.level
  have hly : (Curve.update L k).left.y = Curve.coordinateY L k (halfSpan k) := by rw [hl]
  unfold Curve.sag Curve.sagAt Curve.coordinateChord
  rw [hf, hm, hy, hly, zero_div, rnd_zero, mul_zero, rnd_zero, add_zero, sub_zero]
  unfold Curve.coordinateY
  rw [rnd_of_isDouble (rnd_isDouble _), rnd_of_isDouble (rnd_isDouble _)]

/-- **C179** (sag of level spans): with a library that keeps order and symmetry the sag of a level span is the height of
its ends above the low point, it is not negative, and it is positive unless H/w is more than eight million times the
span. -/
theorem C179_sag_partial {L : CurveLibrary} (hL : L.Regular) {k : Catenary2d} (h : LevelSpan k) :
    Curve.sag L (Curve.update L k) = (Curve.update L k).left.y ∧ 0 ≤ Curve.sag L (Curve.update L k) ∧
    (k.tensionHorizontal / k.weightUnit ≤ 2 ^ 23 * k.spacing.x → 0 < Curve.sag L (Curve.update L k)) := by
  have hw0 : 0 < k.weightUnit := (two_zpow_pos _).trans_le h.weight.1
  have hh0 : 0 < k.tensionHorizontal := (two_zpow_pos _).trans_le h.tension.1
  have hs0 : 0 < k.spacing.x := (two_zpow_pos _).trans_le h.spacing.1
  obtain ⟨hc0, hcl, -, -, -⟩ := level_close h
  have hta : _ ≤ endAngle k := endAngle_ge h
  obtain ⟨hl, -, -, -⟩ := level_update hL h.level
  have hly : (Curve.update L k).left.y = Curve.coordinateY L k (halfSpan k) := by rw [hl]
  have hcosh := one_le_cosh_lib L (rnd_isDouble (halfSpan k / Curve.constant k))
  rw [level_sag hL h, hly]
  refine ⟨rfl, rnd_nonneg (mul_nonneg hc0.le (rnd_nonneg (by linarith))), fun hC => ?_⟩
  have hC0 : 0 < k.tensionHorizontal / k.weightUnit := by positivity
  have ht : 1 / 2 ^ 25 ≤ endAngle k := by
    refine le_trans ?_ hta
    rw [le_div_iff₀ (by norm_num), le_div_iff₀ hC0]
    nlinarith
  have h1 : 1 + 1 / 2 ^ 51 ≤ Real.cosh (endAngle k) := by
    have := one_add_sq_le_cosh (t := endAngle k) (by linarith [show (0 : ℝ) < 1 / 2 ^ 25 by norm_num])
    nlinarith
  have h2 : 1 + 1 / 2 ^ 51 ≤ L.cosh (endAngle k) :=
    (L.cosh_faithful _ (rnd_isDouble _)).2.1 _ ⟨2 ^ 51 + 1, -51, by norm_num, by norm_num, by norm_num⟩ h1
  have h3 : (2 : ℝ) ^ (-51 : ℤ) ≤ rnd (L.cosh (endAngle k) - 1) := by
    refine le_rnd (isDouble_two_zpow (by norm_num)) ?_
    have e : (2 : ℝ) ^ (-51 : ℤ) = 1 / 2 ^ 51 := by norm_num
    rw [e]; linarith
  have h4 := zpow_mul_le hcl h3
  exact (two_zpow_pos _).trans_le (le_rnd (isDouble_two_zpow (by norm_num)) h4)

/-- **C179** (slack of level spans): the computed slack of a level span is positive unless H/w is more than two million
times the span. -/
theorem C179_slack_partial {L : CurveLibrary} (hL : L.Regular) {k : Catenary2d} (h : LevelSpan k)
    (hC : k.tensionHorizontal / k.weightUnit ≤ 2 ^ 21 * k.spacing.x) : 0 < Curve.lengthSlack L (Curve.update L k) := by
  have hw0 : 0 < k.weightUnit := (two_zpow_pos _).trans_le h.weight.1
  have hh0 : 0 < k.tensionHorizontal := (two_zpow_pos _).trans_le h.tension.1
  have hs0 : 0 < k.spacing.x := (two_zpow_pos _).trans_le h.spacing.1
  have hC0 : 0 < k.tensionHorizontal / k.weightUnit := by positivity
  have hta : _ ≤ endAngle k := endAngle_ge h
  obtain ⟨-, -, -, hln⟩ := level_update hL h.level
  obtain ⟨-, c8, ht0⟩ := halfLength_ge L h
  have ht : 1 / 2 ^ 23 ≤ endAngle k := by
    refine le_trans ?_ hta
    rw [le_div_iff₀ (by norm_num), le_div_iff₀ hC0]
    nlinarith
  have hs : 1 + 16 * u ≤ Real.sinh (endAngle k) / endAngle k := by
    rw [le_div_iff₀ ht0]
    have h1 := cubic_le_sinh ht0.le
    have h2 : 16 * u ≤ endAngle k ^ 2 / 8 := by
      have : (1 / 2 ^ 23) ^ 2 ≤ endAngle k ^ 2 := pow_le_pow_left₀ (by norm_num) ht 2
      unfold u
      norm_num at this ⊢
      linarith
    nlinarith
  have hm : Close 5 (Double.magnitude L.toLibrary k.spacing) k.spacing.x := by
    have := magnitude_close L.toLibrary (v := k.spacing)
      ⟨h.doubles.2.2, .inr (by rw [abs_of_pos hs0]; exact (two_zpow_le (by norm_num)).trans h.spacing.1)⟩
      ⟨by rw [h.level]; exact isDouble_zero, .inl h.level⟩
    rwa [h.level, zero_pow two_ne_zero, add_zero, Real.sqrt_sq hs0.le] at this
  obtain ⟨a, ha, ha1, -⟩ := c8
  obtain ⟨b, hb, -, hb2⟩ := hm
  have p5 := pow_pos one_sub_u_pos 5
  have hu := u_pos
  have hu' := u_small
  have b13 := one_add_mul_le_pow (a := -u) (by linarith) 13
  have hus : 16 * u * (13 * u) < u := by
    have : 16 * (13 * u) < 1 := by unfold u; norm_num
    nlinarith
  have key : b < a * (1 + 16 * u) := by
    have e1 : (1 - u) ^ 13 = (1 - u) ^ 8 * (1 - u) ^ 5 := by rw [← pow_add]
    have h1 : 1 < (1 - u) ^ 13 * (1 + 16 * u) := by
      have : (1 - 13 * u) ≤ (1 - u) ^ 13 := by
        have h := b13; push_cast at h; rw [show 1 + 13 * -u = 1 - 13 * u by ring, show 1 + -u = 1 - u by ring] at h; exact h
      nlinarith
    have h2 : (1 - u) ^ 8 * (1 - u) ^ 5 * (1 + 16 * u) ≤ a * (1 - u) ^ 5 * (1 + 16 * u) :=
      mul_le_mul_of_nonneg_right (mul_le_mul_of_nonneg_right ha1 p5.le) (by linarith)
    rw [e1] at h1
    have h3 : b * (1 - u) ^ 5 < a * (1 + 16 * u) * (1 - u) ^ 5 := by linarith
    exact lt_of_mul_lt_mul_right h3 p5.le
  have ha0 : 0 < a := (pow_pos one_sub_u_pos 8).trans_le ha1
  have hlt : Double.magnitude L.toLibrary k.spacing < 2 * halfLength L k := by
    rw [ha, hb]
    have : a * (1 + 16 * u) ≤ a * (Real.sinh (endAngle k) / endAngle k) := mul_le_mul_of_nonneg_left hs ha0.le
    have := mul_lt_mul_of_pos_left (key.trans_le this) hs0
    linarith
  have hmd : IsDouble (Double.magnitude L.toLibrary k.spacing) := rnd_isDouble _
  have hmd' : IsDouble (2 * halfLength L k) := isDouble_two_mul (rnd_isDouble _)
  unfold Curve.lengthSlack
  rw [hln]
  exact rnd_sub_pos hmd hmd' hlt

theorem exact_level_sag {k : Catenary2d} (R : k.Reachable) (P : k.Positive) (hy : k.spacing.y = 0) :
    k.sag = k.tensionHorizontal / k.weightUnit *
      (Real.cosh (k.spacing.x / 2 / (k.tensionHorizontal / k.weightUnit)) - 1) := by
  have e : k.sag = k.sagAt k.positionFractionSagPoint := by
    unfold Catenary2d.sag Catenary2d.sagAt Catenary2d.positionFractionSagPoint
    rfl
  have hs := sagPoint_slope R P
  rw [hy, zero_div, Real.sinh_eq_zero] at hs
  have hm : k.mid = 0 := by unfold Catenary2d.mid; rw [hy]; simp
  rw [e, sagAt_eq R P, hy]
  unfold Catenary2d.coordinateY
  rw [hs, Catenary2d.left_div P, hm, zero_sub, Real.cosh_neg]
  unfold Catenary2d.z
  simp

theorem cosh_lipschitz {a b m : ℝ} (ha : 0 ≤ a) (hb : 0 ≤ b) (ham : a ≤ m) (hbm : b ≤ m) :
    |Real.cosh a - Real.cosh b| ≤ Real.sinh m * |a - b| := by
  have key : ∀ a b : ℝ, 0 ≤ a → 0 ≤ b → a ≤ m → b ≤ m → Real.cosh a - Real.cosh b ≤ Real.sinh m * |a - b| := by
    intro a b ha hb ham hbm
    have h1 := cosh_tangent a b
    have h2 : Real.sinh a * (a - b) ≤ Real.sinh a * |a - b| :=
      mul_le_mul_of_nonneg_left (le_abs_self _) (Real.sinh_nonneg_iff.mpr ha)
    have h3 : Real.sinh a * |a - b| ≤ Real.sinh m * |a - b| :=
      mul_le_mul_of_nonneg_right (Real.sinh_le_sinh.mpr ham) (abs_nonneg _)
    linarith
  rw [abs_le]
  have h1 := key a b ha hb ham hbm
  have h2 := key b a hb ha hbm ham
  rw [abs_sub_comm b a] at h2
  constructor <;> linarith

theorem exp_bound_here : Real.exp 1.1 ≤ 3.1 := by
  have h1 : Real.exp 1.1 = Real.exp 1 * Real.exp 0.1 := by rw [← Real.exp_add]; norm_num
  have h2 := Real.exp_one_lt_d9
  have h3 : Real.exp 0.1 ≤ 10 / 9 := by
    have h4 : 0.9 ≤ Real.exp (-0.1) := by have := Real.add_one_le_exp (-0.1); norm_num at this ⊢; linarith
    rw [Real.exp_neg] at h4
    have h5 := Real.exp_pos 0.1
    rw [le_inv_comm₀ (by norm_num) h5] at h4
    norm_num at h4 ⊢; linarith
  rw [h1]
  have h5 := Real.exp_pos 0.1
  nlinarith

theorem sinh_bound_here : Real.sinh 1.1 ≤ 2 ∧ Real.cosh 1.1 ≤ 2.1 := by
  have h1 := exp_bound_here
  have h2 := Real.exp_pos (-1.1)
  have h3 : Real.exp (-1.1) ≤ 1 := Real.exp_le_one_iff.mpr (by norm_num)
  rw [Real.sinh_eq, Real.cosh_eq]
  constructor <;> linarith

/-- **C179** (accuracy of the sag of level spans): for a level span not longer than twice H/w, the computed sag differs
from the exact one by at most 2^-47 times H/w, whatever the sag is. -/
theorem C179_sag_accuracy {L : CurveLibrary} (hL : L.Regular) {k : Catenary2d} (R : k.Reachable) (h : LevelSpan k)
    (hspan : k.spacing.x ≤ 2 * (k.tensionHorizontal / k.weightUnit)) :
    |Curve.sag L (Curve.update L k) - k.sag| ≤ 2 ^ (-47 : ℤ) * (k.tensionHorizontal / k.weightUnit) := by
  have hw0 : 0 < k.weightUnit := (two_zpow_pos _).trans_le h.weight.1
  have hh0 : 0 < k.tensionHorizontal := (two_zpow_pos _).trans_le h.tension.1
  have hs0 : 0 < k.spacing.x := (two_zpow_pos _).trans_le h.spacing.1
  obtain ⟨hc0, -, z3, t2, -⟩ := level_close h
  obtain ⟨-, -, ht0⟩ := halfLength_ge L h
  have t5 : Close 5 (endAngle k) _ := t2.trans z3
  rw [level_sag hL h, exact_level_sag R ⟨hh0, hw0, hs0⟩ h.level]
  have hC : (2 : ℝ) ^ (-200 : ℤ) ≤ k.tensionHorizontal / k.weightUnit := by
    have := zpow_div_le h.tension.1 hw0 h.weight.2
    simpa using this
  have hcC : |Curve.constant k - k.tensionHorizontal / k.weightUnit| ≤ u * |k.tensionHorizontal / k.weightUnit| :=
    rnd_relative (not_tiny hC (by norm_num))
  change |rnd (Curve.constant k * rnd (L.cosh (endAngle k) - 1)) - _| ≤ _
  have hC0 : 0 < k.tensionHorizontal / k.weightUnit := by positivity
  have hZ0 : 0 < k.spacing.x / 2 / (k.tensionHorizontal / k.weightUnit) := by positivity
  have hZ1 : k.spacing.x / 2 / (k.tensionHorizontal / k.weightUnit) ≤ 1 := by
    rw [div_le_one hC0]; linarith
  have hd : IsDouble (endAngle k) := rnd_isDouble _
  have hη : (2 : ℝ) ^ (-1074 : ℤ) ≤ u * (k.tensionHorizontal / k.weightUnit) := by
    have e : u = (2 : ℝ) ^ (-53 : ℤ) := by unfold u; norm_num
    refine le_trans ?_ (mul_le_mul_of_nonneg_left hC u_pos.le)
    rw [e, ← zpow_add₀ (by norm_num)]
    exact two_zpow_le (by norm_num)
  have h47 : (2 : ℝ) ^ (-47 : ℤ) = 64 * u := by unfold u; norm_num
  rw [h47]
  generalize k.spacing.x / 2 / (k.tensionHorizontal / k.weightUnit) = Z at *
  generalize k.tensionHorizontal / k.weightUnit = C at *
  generalize Curve.constant k = c at *
  generalize endAngle k = t at *
  have hu := u_pos
  have hu' : 1000 * u ≤ 1 := by unfold u; norm_num
  obtain ⟨sb, cb⟩ := sinh_bound_here
  have e0 := t5.error (by norm_num)
  rw [abs_of_pos hZ0] at e0
  have e0' : |t - Z| ≤ 10 * u := by
    have : 2 * ((5 : ℕ) : ℝ) * u * Z ≤ 10 * u := by push_cast; nlinarith
    linarith
  have ht1 : t ≤ 1.1 := by
    rw [abs_le] at e0'
    norm_num; linarith
  have e1 : |Real.cosh t - Real.cosh Z| ≤ 20 * u := by
    have := cosh_lipschitz (m := 1.1) ht0.le hZ0.le ht1 (by norm_num; linarith)
    have : Real.sinh 1.1 * |t - Z| ≤ 2 * (10 * u) := mul_le_mul sb e0' (abs_nonneg _) (by norm_num)
    linarith
  have hct : Real.cosh t ≤ 2.1 := by
    refine le_trans (Real.cosh_le_cosh.mpr ?_) cb
    rw [abs_of_pos ht0, abs_of_pos (by norm_num)]; exact ht1
  have hct1 := Real.one_le_cosh t
  have hcZ1 := Real.one_le_cosh Z
  have e2 : |L.cosh t - Real.cosh t| ≤ 4.2 * u := by
    have := (L.cosh_faithful t hd).relative (by
      rw [abs_of_pos (by linarith)]
      exact le_trans (two_zpow_le (b := 0) (by norm_num)) (by simp [hct1]))
    rw [abs_of_pos (by linarith : 0 < Real.cosh t)] at this
    have : 2 * u * Real.cosh t ≤ 4.2 * u := by nlinarith
    linarith
  have hl1 := one_le_cosh_lib L hd
  have hl2 : L.cosh t ≤ 2.2 := by
    rw [abs_le] at e2; norm_num at e2 hct ⊢; linarith
  have e3 : |rnd (L.cosh t - 1) - (L.cosh t - 1)| ≤ 2 * u := by
    have := rnd_sub_relative (L.cosh_faithful t hd).1 isDouble_one
    rw [abs_of_nonneg (by linarith : 0 ≤ L.cosh t - 1)] at this
    have : u * (L.cosh t - 1) ≤ 2 * u := by norm_num at hl2; nlinarith
    linarith
  have hq0 : 0 ≤ rnd (L.cosh t - 1) := rnd_nonneg (by linarith)
  have hq2 : rnd (L.cosh t - 1) ≤ 2 := rnd_le isDouble_two (by norm_num at hl2; linarith)
  generalize rnd (L.cosh t - 1) = q at *
  have e4 : |q - (Real.cosh Z - 1)| ≤ 27 * u := by
    rw [abs_le] at e1 e2 e3 ⊢
    norm_num at e2
    constructor <;> linarith
  rw [abs_of_pos hC0] at hcC
  have hcC' : c ≤ 1.01 * C := by
    rw [abs_le] at hcC; norm_num; nlinarith
  have e5 : |c * q - C * (Real.cosh Z - 1)| ≤ 29 * u * C := by
    have : c * q - C * (Real.cosh Z - 1) = (c - C) * q + C * (q - (Real.cosh Z - 1)) := by ring
    rw [this]
    refine (abs_add_le _ _).trans ?_
    rw [abs_mul, abs_mul, abs_of_nonneg hq0, abs_of_pos hC0]
    have a1 : |c - C| * q ≤ u * C * 2 := mul_le_mul hcC hq2 hq0 (by positivity)
    have a2 : C * |q - (Real.cosh Z - 1)| ≤ C * (27 * u) := mul_le_mul_of_nonneg_left e4 hC0.le
    linarith
  have e6 := (rnd_faithful (c * q)).error_le
  rw [abs_of_nonneg (mul_nonneg hc0.le hq0)] at e6
  have e7 : 2 * u * (c * q) ≤ 5 * u * C := by
    have : c * q ≤ 1.01 * C * 2 := mul_le_mul hcC' hq2 hq0 (by positivity)
    norm_num at this
    nlinarith
  have huC : 0 < u * C := mul_pos hu hC0
  rw [abs_le] at e5 e6 ⊢
  constructor <;> linarith

/-! ### Nearly straight cables -/

/-- A level span of two feet under a tension of 2^40 lb. -/
noncomputable def taut : Catenary2d := ((Catenary2d.new.setSpacing ⟨2, 0⟩).setTension (2 ^ 40)).setWeight 1

theorem taut_reachable : taut.Reachable :=
  ⟨[.setSpacing ⟨2, 0⟩, .setTension (2 ^ 40), .setWeight 1], rfl, rfl⟩

theorem taut_level : LevelSpan taut where
  level := rfl
  doubles := ⟨⟨1, 40, by norm_num, by norm_num, by norm_num [taut, Catenary2d.setWeight, Catenary2d.setTension]⟩,
    isDouble_one, isDouble_two⟩
  tension := by
    change (2 : ℝ) ^ (-100 : ℤ) ≤ 2 ^ 40 ∧ (2 : ℝ) ^ 40 ≤ 2 ^ (100 : ℤ)
    norm_num
  weight := by
    change (2 : ℝ) ^ (-100 : ℤ) ≤ 1 ∧ (1 : ℝ) ≤ 2 ^ (100 : ℤ)
    norm_num
  spacing := by
    change (2 : ℝ) ^ (-100 : ℤ) ≤ 2 ∧ (2 : ℝ) ≤ 2 ^ (100 : ℤ)
    norm_num

theorem taut_endAngle : Curve.constant taut = 2 ^ (40 : ℤ) ∧ halfSpan taut = 1 ∧ endAngle taut = 2 ^ (-40 : ℤ) := by
  have hc : Curve.constant taut = 2 ^ (40 : ℤ) := by
    change rnd (2 ^ 40 / 1) = _
    rw [div_one]
    exact rnd_of_isDouble (isDouble_two_zpow (e := 40) (by norm_num))
  have hz : halfAngle taut = 2 ^ (-40 : ℤ) := by
    unfold halfAngle
    rw [hc]
    change rnd (rnd (2 / 2) / 2 ^ (40 : ℤ)) = _
    rw [div_self (by norm_num), rnd_of_isDouble isDouble_one, one_div, ← zpow_neg]
    exact rnd_of_isDouble (isDouble_two_zpow (by norm_num))
  have hx : halfSpan taut = 1 := by
    unfold halfSpan
    rw [hc, hz, ← zpow_add₀ (by norm_num)]
    simpa using rnd_of_isDouble isDouble_one
  refine ⟨hc, hx, ?_⟩
  unfold endAngle
  rw [hc, hx, one_div, ← zpow_neg]
  exact rnd_of_isDouble (isDouble_two_zpow (by norm_num))

theorem sinh_cosh_small : Real.cosh (2 ^ (-40 : ℤ)) - 1 ≤ 1 / 2 ^ 70 ∧ Real.sinh (2 ^ (-40 : ℤ)) - 2 ^ (-40 : ℤ) ≤ 1 / 2 ^ 110 := by
  have h1 := Real.exp_bound (x := 2 ^ (-40 : ℤ)) (by rw [abs_of_pos (by positivity)]; norm_num) (n := 3) (by norm_num)
  have h2 := Real.exp_bound (x := -2 ^ (-40 : ℤ)) (by rw [abs_neg, abs_of_pos (by positivity)]; norm_num) (n := 3) (by norm_num)
  rw [abs_neg] at h2
  rw [abs_of_pos (a := (2 : ℝ) ^ (-40 : ℤ)) (by positivity)] at h1 h2
  simp only [Finset.sum_range_succ, Finset.sum_range_zero, Nat.factorial] at h1 h2
  rw [abs_le] at h1 h2
  rw [Real.sinh_eq, Real.cosh_eq]
  norm_num at h1 h2 ⊢
  constructor <;> linarith

theorem taut_cosh : roundedCurveLibrary.cosh (2 ^ (-40 : ℤ)) = 1 := by
  have h1 := sinh_cosh_small.1
  have h2 := Real.one_le_cosh (2 ^ (-40 : ℤ))
  have e : rnd (Real.cosh (2 ^ (-40 : ℤ))) = (2 ^ 52 : ℤ) * 2 ^ (-52 : ℤ) := by
    apply rnd_eq
    · norm_num
    · rw [abs_of_pos (by linarith)]; refine le_trans ?_ h2; norm_num
    · rw [abs_of_pos (by linarith)]; norm_num at h1 ⊢; linarith
    · have e : Real.cosh (2 ^ (-40 : ℤ)) / 2 ^ (-52 : ℤ) - ((2 ^ 52 : ℤ) : ℝ) = 2 ^ 52 * (Real.cosh (2 ^ (-40 : ℤ)) - 1) := by
        rw [zpow_neg _ 52, div_inv_eq_mul]; push_cast; rw [mul_sub, mul_one]; norm_cast; ring
      rw [e, abs_of_nonneg (by nlinarith)]
      linarith
  change rnd _ = 1
  rw [e]; norm_num

theorem taut_sinh : roundedCurveLibrary.sinh (2 ^ (-40 : ℤ)) = 2 ^ (-40 : ℤ) := by
  have h1 := sinh_cosh_small.2
  have h2 : (2 : ℝ) ^ (-40 : ℤ) ≤ Real.sinh (2 ^ (-40 : ℤ)) := Real.self_le_sinh_iff.mpr (by positivity)
  have hp : (0 : ℝ) < 2 ^ (-40 : ℤ) := by positivity
  have e : rnd (Real.sinh (2 ^ (-40 : ℤ))) = (2 ^ 52 : ℤ) * 2 ^ (-92 : ℤ) := by
    apply rnd_eq
    · norm_num
    · rw [abs_of_pos (by linarith)]; refine le_trans ?_ h2; norm_num
    · rw [abs_of_pos (by linarith)]; norm_num at h1 ⊢; linarith
    · have e : Real.sinh (2 ^ (-40 : ℤ)) / 2 ^ (-92 : ℤ) - ((2 ^ 52 : ℤ) : ℝ) =
          2 ^ 92 * (Real.sinh (2 ^ (-40 : ℤ)) - 2 ^ (-40 : ℤ)) := by
        rw [zpow_neg _ 92, div_inv_eq_mul]; push_cast; rw [mul_sub, show (2 : ℝ) ^ 92 * 2 ^ (-40 : ℤ) = 2 ^ 52 by norm_num]; norm_cast; ring
      rw [e, abs_of_nonneg (by nlinarith)]
      linarith
  change rnd _ = _
  rw [e]; norm_num

/-- **C179** (fails for nearly straight cables): for a level span of 2 ft under 2^40 lb at 1 lb/ft, with correctly rounded
functions, both the sag and the slack come out as zero, though the exact ones are positive. -/
theorem C179_taut_fails : LevelSpan taut ∧ 0 < taut.sag ∧ 0 < taut.lengthSlack ∧
    Curve.sag roundedCurveLibrary (Curve.update roundedCurveLibrary taut) = 0 ∧
    Curve.lengthSlack roundedCurveLibrary (Curve.update roundedCurveLibrary taut) = 0 := by
  obtain ⟨hc, hx, ht⟩ := taut_endAngle
  have P : taut.Positive := ⟨by change (0 : ℝ) < 2 ^ 40; norm_num, by change (0 : ℝ) < 1; norm_num, by change (0 : ℝ) < 2; norm_num⟩
  refine ⟨taut_level, ?_, ?_, ?_, ?_⟩
  · rw [exact_level_sag taut_reachable P rfl]
    have h1 : 0 < taut.spacing.x / 2 / (taut.tensionHorizontal / taut.weightUnit) := by
      have := P.h; have := P.w; have := P.a; positivity
    have h2 := one_add_sq_le_cosh h1.le
    have h3 : 0 < taut.tensionHorizontal / taut.weightUnit := div_pos P.h P.w
    refine mul_pos h3 ?_
    nlinarith [sq_nonneg (taut.spacing.x / 2 / (taut.tensionHorizontal / taut.weightUnit)), pow_pos h1 2]
  · exact C43_slack_pos taut_reachable P
  · rw [level_sag roundedCurveLibrary_regular taut_level]
    change rnd (Curve.constant taut * rnd (roundedCurveLibrary.cosh (endAngle taut) - 1)) = 0
    rw [ht, taut_cosh, sub_self, rnd_zero, mul_zero, rnd_zero]
  · obtain ⟨-, -, -, hln⟩ := level_update roundedCurveLibrary_regular taut_level.level
    have hl : halfLength roundedCurveLibrary taut = 1 := by
      unfold halfLength
      rw [ht, taut_sinh, hc, ← zpow_add₀ (by norm_num)]
      simpa using rnd_of_isDouble isDouble_one
    have hm : Double.magnitude roundedCurveLibrary.toLibrary (Curve.update roundedCurveLibrary taut).spacing = 2 := by
      change Double.magnitude roundedLibrary ⟨2, 0⟩ = 2
      unfold Double.magnitude
      have e1 : roundedLibrary.pow 2 2 = 4 := by
        change rnd ((2 : ℝ) ^ (2 : ℤ)) = 4
        norm_num
        exact rnd_of_isDouble (by exact_mod_cast isDouble_int (n := 4) (by norm_num))
      have e2 : roundedLibrary.pow 0 2 = 0 := by
        change rnd ((0 : ℝ) ^ (2 : ℤ)) = 0
        rw [zero_zpow _ (by norm_num), rnd_zero]
      have d4 : IsDouble 4 := by exact_mod_cast isDouble_int (n := 4) (by norm_num)
      have s4 : √(4 : ℝ) = 2 := by rw [show (4 : ℝ) = 2 ^ 2 by norm_num, Real.sqrt_sq (by norm_num)]
      simp only [e1, e2, add_zero]
      rw [rnd_of_isDouble d4, s4, rnd_of_isDouble isDouble_two]
    unfold Curve.lengthSlack
    rw [hln, hl, hm, mul_one, sub_self, rnd_zero]

/-! ### A concrete span -/

/-- A level span of 1024 ft under 4096 lb at 2 lb/ft. -/
noncomputable def usual : Catenary2d := ((Catenary2d.new.setSpacing ⟨1024, 0⟩).setTension 4096).setWeight 2

theorem usual_level : LevelSpan usual where
  level := rfl
  doubles := ⟨⟨4096, 0, by norm_num, by norm_num, by norm_num [usual, Catenary2d.setWeight, Catenary2d.setTension]⟩,
    isDouble_two, ⟨1024, 0, by norm_num, by norm_num, by
      norm_num [usual, Catenary2d.setWeight, Catenary2d.setTension, Catenary2d.setSpacing]⟩⟩
  tension := by change (2 : ℝ) ^ (-100 : ℤ) ≤ 4096 ∧ (4096 : ℝ) ≤ 2 ^ (100 : ℤ); norm_num
  weight := by change (2 : ℝ) ^ (-100 : ℤ) ≤ 2 ∧ (2 : ℝ) ≤ 2 ^ (100 : ℤ); norm_num
  spacing := by change (2 : ℝ) ^ (-100 : ℤ) ≤ 1024 ∧ (1024 : ℝ) ≤ 2 ^ (100 : ℤ); norm_num

example : 0 < Curve.sag roundedCurveLibrary (Curve.update roundedCurveLibrary usual) ∧
    0 < Curve.lengthSlack roundedCurveLibrary (Curve.update roundedCurveLibrary usual) ∧
    |Curve.sag roundedCurveLibrary (Curve.update roundedCurveLibrary usual) - usual.sag| ≤ 2 ^ (-36 : ℤ) := by
  refine ⟨(C179_sag_partial roundedCurveLibrary_regular usual_level).2.2 ?_,
    C179_slack_partial roundedCurveLibrary_regular usual_level ?_,
    (C179_sag_accuracy roundedCurveLibrary_regular
      ⟨[.setSpacing ⟨1024, 0⟩, .setTension 4096, .setWeight 2], rfl, rfl⟩ usual_level ?_).trans ?_⟩
  · change (4096 : ℝ) / 2 ≤ 2 ^ 23 * 1024; norm_num
  · change (4096 : ℝ) / 2 ≤ 2 ^ 21 * 1024; norm_num
  · change (1024 : ℝ) ≤ 2 * (4096 / 2); norm_num
  · change (2 : ℝ) ^ (-47 : ℤ) * (4096 / 2) ≤ 2 ^ (-36 : ℤ); norm_num

example : 4096 ≤ Curve.tension roundedCurveLibrary usual (1 / 4) ∧
    Curve.tension roundedCurveLibrary (Curve.update roundedCurveLibrary usual) 0 =
      Curve.tension roundedCurveLibrary (Curve.update roundedCurveLibrary usual) 1 :=
  ⟨C179_tension_floor roundedCurveLibrary (k := usual) usual_level.doubles.1 (by change (0 : ℝ) ≤ 4096; norm_num) _,
    (C179_level roundedCurveLibrary_regular usual_level).2.2.2.2⟩

example : (Curve.coordinate roundedCurveLibrary (Curve.update roundedCurveLibrary usual) (1 / 4)).x ≤
    (Curve.coordinate roundedCurveLibrary (Curve.update roundedCurveLibrary usual) (1 / 2)).x :=
  (C179_order roundedCurveLibrary_regular (k := usual) (by change (0 : ℝ) ≤ 4096; norm_num)
    (by change (0 : ℝ) ≤ 2; norm_num) (by change (0 : ℝ) ≤ 1024; norm_num)).2 _ _ (by norm_num)

end Verif.Props
