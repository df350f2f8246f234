import Verif.DoubleSpatial
import Verif.Props.DoubleLoads
import Verif.Catenary3dLemmas

/-! # Spatial catenaries in `double` arithmetic (C183) -/

set_option linter.unusedSectionVars false

namespace Verif.Props

open Verif.Double

/-- The square root of a rounded square is the number. -/
theorem sqrt_square {x : ℝ} (hx : IsDouble x) (h : x = 0 ∨ 2 ^ (-500 : ℤ) ≤ |x|) : rnd √(rnd (x ^ 2)) = |x| := by
  rcases h with rfl | h
  · norm_num [rnd_zero]
  have hx0 : x ≠ 0 := by
    rintro rfl
    rw [abs_zero] at h
    exact absurd (two_zpow_pos (-500)) (not_lt.mpr h)
  have ax : 0 < |x| := abs_pos.mpr hx0
  have hx2 : (2 : ℝ) ^ (-1000 : ℤ) ≤ x ^ 2 := by
    have := zpow_mul_le h h
    rw [← sq_abs, pow_two]; exact this
  obtain ⟨n, hn⟩ := isDouble_multiple hx
  set e := lastPlace x with he
  have hp := two_zpow_pos e
  have hlow : (2 : ℝ) ^ (e + 52) ≤ |x| := by
    refine place_le_abs hx0 ?_
    by_contra hc
    have h1 : lastPlace x = -1074 := le_antisymm (not_lt.mp hc) (lastPlace_ge x)
    have h2 := abs_lt_place x
    rw [h1] at h2
    exact absurd (h.trans_lt h2) (not_lt.mpr (two_zpow_le (by norm_num)))
  have hup := abs_lt_place x
  rw [← he] at hup
  have hxn : |x| = (|n| : ℤ) * 2 ^ e := by rw [hn, abs_mul, abs_of_pos hp, Int.cast_abs]
  set m : ℤ := |n| with hm
  have hm1 : 2 ^ 52 ≤ m := by
    have : (2 : ℝ) ^ 52 * 2 ^ e ≤ m * 2 ^ e := by
      rw [← hxn]; refine le_trans (le_of_eq ?_) hlow
      rw [zpow_add₀ (by norm_num)]; norm_num [mul_comm]
    exact_mod_cast le_of_mul_le_mul_right this hp
  have hm2 : m < 2 ^ 53 := by
    have : (m : ℝ) * 2 ^ e < 2 ^ 53 * 2 ^ e := by
      rw [← hxn]; refine lt_of_lt_of_eq hup ?_
      rw [zpow_add₀ (by norm_num)]; norm_num [mul_comm]
    exact_mod_cast lt_of_mul_lt_mul_right this hp.le
  rcases hm1.eq_or_lt with hq | hq
  · have hs : IsDouble (x ^ 2) := by
      rw [← sq_abs, hxn, ← hq, show (((2 : ℤ) ^ 52 : ℤ) : ℝ) * 2 ^ e = 2 ^ (e + 52) by
        rw [zpow_add₀ (by norm_num)]; norm_num [mul_comm], ← zpow_natCast, ← zpow_mul]
      refine isDouble_two_zpow ?_
      have : (2 : ℝ) ^ (-500 : ℤ) < 2 ^ (e + 53) := h.trans_lt hup
      have := (zpow_lt_zpow_iff_right₀ (by norm_num : (1 : ℝ) < 2)).mp this
      push_cast; omega
    rw [rnd_of_isDouble hs, Real.sqrt_sq_eq_abs]
    rw [rnd_abs, rnd_of_isDouble hx]
  · have hr := rnd_relative (x := x ^ 2) (not_tiny hx2 (by norm_num))
    rw [abs_of_nonneg (sq_nonneg x)] at hr
    have hu := u_pos
    have hu' := u_small
    have hr0 : 0 ≤ rnd (x ^ 2) := rnd_nonneg (sq_nonneg x)
    set r := rnd (x ^ 2)
    have hs0 := Real.sqrt_nonneg r
    have hss := Real.sq_sqrt hr0
    set s := √r
    generalize hX : |x| = X at *
    have hXx : x ^ 2 = X ^ 2 := by rw [← hX, sq_abs]
    -- |s - X| < 2^e / 2
    have hd : |s - X| * (s + X) ≤ u * X ^ 2 := by
      have : |s - X| * (s + X) = |s ^ 2 - X ^ 2| := by
        rw [← abs_of_nonneg (show 0 ≤ s + X by positivity), ← abs_mul]; congr 1; ring
      rw [this, hss, ← hXx]; exact hr
    have hs1 : (1 - u) * X ≤ s := by
      rw [abs_le] at hr
      have : ((1 - u) * X) ^ 2 ≤ s ^ 2 := by
        rw [hss, mul_pow, ← hXx]
        nlinarith [sq_nonneg x]
      exact abs_le_of_sq_le_sq' this hs0 |>.2
    have hd2 : |s - X| * (2 - u) ≤ u * X := by
      have h3 : |s - X| * ((2 - u) * X) ≤ |s - X| * (s + X) :=
        mul_le_mul_of_nonneg_left (by linarith) (abs_nonneg _)
      have h4 : |s - X| * (2 - u) * X ≤ u * X * X := by nlinarith
      exact le_of_mul_le_mul_right h4 ax
    have hm3 : (m : ℝ) ≤ 2 ^ 53 - 1 := by exact_mod_cast (by omega : m ≤ 2 ^ 53 - 1)
    have hd3 : |s - X| < 2 ^ e / 2 := by
      have h5 : u * X ≤ u * ((2 ^ 53 - 1) * 2 ^ e) := by
        rw [hxn]; exact mul_le_mul_of_nonneg_left (mul_le_mul_of_nonneg_right hm3 hp.le) hu.le
      have h6 : u * ((2 ^ 53 - 1) * 2 ^ e) = (1 - u) * 2 ^ e := by
        unfold u; norm_num; ring
      rw [h6] at h5
      by_contra hc
      have h7 : (2 : ℝ) ^ e / 2 * (2 - u) ≤ |s - X| * (2 - u) :=
        mul_le_mul_of_nonneg_right (not_lt.mp hc) (by linarith)
      nlinarith
    have hm4 : (2 : ℝ) ^ 52 + 1 ≤ m := by exact_mod_cast (by omega : 2 ^ 52 + 1 ≤ m)
    have e52 : (2 : ℝ) ^ (e + 52) = 2 ^ 52 * 2 ^ e := by rw [zpow_add₀ (by norm_num)]; norm_num [mul_comm]
    have e53 : (2 : ℝ) ^ (e + 53) = 2 ^ 53 * 2 ^ e := by rw [zpow_add₀ (by norm_num)]; norm_num [mul_comm]
    rw [abs_lt] at hd3
    rw [hxn] at hd3 ⊢
    refine rnd_eq m e (lastPlace_ge x) ?_ ?_ ?_
    · rw [abs_of_nonneg hs0, e52]; nlinarith
    · rw [abs_of_nonneg hs0, e53]; nlinarith
    · rw [div_sub' hp.ne', abs_div, abs_of_pos hp, div_lt_iff₀ hp, abs_lt]
      constructor <;> nlinarith

theorem eq_of_parts {v : V3} {x y z : ℝ} (hx : v.x = x) (hy : v.y = y) (hz : v.z = z) : v = ⟨x, y, z⟩ := by
  cases v; simp_all

section
variable {L : Library}

theorem rounded_mono (hL : L.SquaresRounded) : L.SquaresMono := by
  intro x y hx hy h0 h
  rw [hL x hx, hL y hy]
  exact rnd_mono (by nlinarith)

theorem roundedLibrary_rounded : roundedLibrary.SquaresRounded := by
  intro x _
  change rnd (x ^ (2 : ℤ)) = rnd (x ^ 2)
  norm_cast

theorem pow_zero_two (hL : L.SquaresRounded) : L.pow 0 2 = 0 := by
  rw [hL 0 isDouble_zero]; norm_num [rnd_zero]

theorem magnitude3_ge (hL : L.SquaresRounded) {v : V3} (hx : IsDouble v.x) (hy : IsDouble v.y) (hz : Usual v.z) :
    |v.z| ≤ magnitude3 L v := by
  have h1 := rnd_nonneg (add_nonneg (pow_two_nonneg (L := L) hx) (pow_two_nonneg (L := L) hy))
  rw [← sqrt_square hz.1 hz.2]
  refine rnd_mono (Real.sqrt_le_sqrt ?_)
  refine le_rnd (rnd_isDouble _) ?_
  rw [hL _ hz.1] at *
  linarith

theorem magnitude3_first (hL : L.SquaresRounded) {x : ℝ} (hx : Usual x) : magnitude3 L ⟨x, 0, 0⟩ = |x| := by
  change rnd √(rnd (rnd (L.pow x 2 + L.pow 0 2) + L.pow 0 2)) = |x|
  rw [pow_zero_two hL, add_zero, add_zero, hL x hx.1, rnd_rnd, rnd_rnd, sqrt_square hx.1 hx.2]

theorem magnitude3_last (hL : L.SquaresRounded) {z : ℝ} (hz : Usual z) : magnitude3 L ⟨0, 0, z⟩ = |z| := by
  change rnd √(rnd (rnd (L.pow 0 2 + L.pow 0 2) + L.pow z 2)) = |z|
  rw [pow_zero_two hL, add_zero, rnd_zero, zero_add, hL z hz.1, rnd_rnd, sqrt_square hz.1 hz.2]

/-- A span between supports of which none is beside the other, with components that are zero or not absurdly small. -/
structure UsualSpan (k : Catenary3d) : Prop where
  straight : k.spacing.y = 0
  horizontal : Usual k.spacing.x
  vertical : Usual k.spacing.z
  weight : Usual k.weightUnit.x ∧ Usual k.weightUnit.y ∧ Usual k.weightUnit.z

theorem rise_le (hL : L.SquaresRounded) {k : Catenary3d} (h : UsualSpan k) : |Span.rise L k| ≤ |k.spacing.z| := by
  have h1 := magnitude3_ge hL h.weight.1.1 h.weight.2.1.1 h.weight.2.2
  have h2 : rnd (|k.weightUnit.z| / magnitude3 L k.weightUnit) ≤ 1 :=
    rnd_le isDouble_one (div_le_one_of_le₀ h1 ((abs_nonneg _).trans h1))
  have h3 : 0 ≤ rnd (|k.weightUnit.z| / magnitude3 L k.weightUnit) :=
    rnd_nonneg (div_nonneg (abs_nonneg _) ((abs_nonneg _).trans h1))
  unfold Span.rise
  rw [← rnd_abs, abs_mul, abs_of_nonneg h3]
  have e : |k.spacing.z| = rnd |k.spacing.z| := by rw [rnd_abs, rnd_of_isDouble h.vertical.1]
  rw [e]
  exact rnd_mono (by nlinarith [abs_nonneg k.spacing.z])

/-- **C183** (a number): the square root behind the horizontal spacing in the plane of the cable is never taken of a
negative number, and the vertical spacing in that plane is never larger than the one in space. -/
theorem C183_number (hL : L.SquaresRounded) {k : Catenary3d} (h : UsualSpan k) :
    0 ≤ Span.radicand L k ∧ |(Span.spacing2d L k).y| ≤ |k.spacing.z| := by
  refine ⟨?_, rise_le hL h⟩
  have hy : IsDouble k.spacing.y := by rw [h.straight]; exact isDouble_zero
  have h1 := magnitude3_ge hL h.horizontal.1 hy h.vertical
  refine rnd_nonneg (sub_nonneg.mpr ?_)
  have h2 : L.pow (Span.rise L k) 2 = L.pow |Span.rise L k| 2 := by
    have hd : IsDouble |Span.rise L k| := by
      unfold Span.rise; rw [← rnd_abs]; exact rnd_isDouble _
    rw [hL _ hd, sq_abs]; exact hL _ (rnd_isDouble _)
  rw [h2]
  refine rounded_mono hL _ _ ?_ (rnd_isDouble _) (abs_nonneg _) ((rise_le hL h).trans h1)
  unfold Span.rise; rw [← rnd_abs]; exact rnd_isDouble _

/-- **C183** (level spans): the plane of the cable of a level span has exactly the spacing of the span, whatever the
load. -/
theorem C183_level (hL : L.SquaresRounded) {k : Catenary3d} (h : UsualSpan k) (hz : k.spacing.z = 0)
    (hx : 0 ≤ k.spacing.x) : Span.spacing2d L k = ⟨k.spacing.x, 0⟩ := by
  have hr : Span.rise L k = 0 := by unfold Span.rise; rw [hz, zero_mul, rnd_zero]
  have hm : magnitude3 L k.spacing = k.spacing.x := by
    rw [congrArg (magnitude3 L) (eq_of_parts rfl h.straight hz), magnitude3_first hL h.horizontal, abs_of_nonneg hx]
  have hq : Span.radicand L k = rnd (k.spacing.x ^ 2) := by
    unfold Span.radicand
    rw [hr, pow_zero_two hL, sub_zero, hm, hL _ h.horizontal.1, rnd_rnd]
  unfold Span.spacing2d
  rw [hr, hq, sqrt_square h.horizontal.1 h.horizontal.2, abs_of_nonneg hx]

/-- **C183** (no wind): without transverse load the cable hangs under exactly its weight, and the plane of the cable has
exactly the vertical spacing of the span. -/
theorem C183_calm (hL : L.SquaresRounded) {k : Catenary3d} (h : UsualSpan k) (hx : k.weightUnit.x = 0)
    (hy : k.weightUnit.y = 0) (hz : 0 < k.weightUnit.z) :
    (Span.planar L k).weightUnit = k.weightUnit.z ∧ (Span.spacing2d L k).y = k.spacing.z := by
  have hm : magnitude3 L k.weightUnit = k.weightUnit.z := by
    rw [congrArg (magnitude3 L) (eq_of_parts hx hy rfl), magnitude3_last hL h.weight.2.2, abs_of_pos hz]
  refine ⟨hm, ?_⟩
  change Span.rise L k = _
  unfold Span.rise
  rw [hm, abs_of_pos hz, div_self hz.ne', rnd_of_isDouble isDouble_one, mul_one, rnd_of_isDouble h.vertical.1]

/-- Spans with sizes between 2^-100 and 2^100: the spacing, the vertical unit weight and, if there is one, the
difference in height. -/
structure OrdinarySpan (k : Catenary3d) : Prop extends UsualSpan k where
  span : 2 ^ (-100 : ℤ) ≤ k.spacing.x
  rise : k.spacing.z = 0 ∨ 2 ^ (-100 : ℤ) ≤ |k.spacing.z|
  load : 2 ^ (-100 : ℤ) ≤ k.weightUnit.z ∧ k.weightUnit.magnitude ≤ 2 ^ (99 : ℤ)

theorem planar_error {C Y P Q R X : ℝ} (hY : 0 ≤ Y) (hC : Y ≤ C) (hP : |P - C| ≤ 40 * u * C) (hQ : |Q - Y| ≤ 40 * u * Y)
    (hR : |R - (P - Q)| ≤ u * |P - Q|) (hX : |X - R| ≤ 4 * u * |R|) : |X - (C - Y)| ≤ 128 * u * C := by
  have hu := u_pos
  have hu' := u_small
  have h0 : 0 ≤ C := hY.trans hC
  have h1 : |P - Q - (C - Y)| ≤ 80 * (u * C) := by
    have := abs_sub_le (P - Q) (C - Q) (C - Y)
    have e1 : P - Q - (C - Q) = P - C := by ring
    have e2 : C - Q - (C - Y) = -(Q - Y) := by ring
    rw [e1, e2, abs_neg] at this
    nlinarith
  have h2 : |P - Q| ≤ 2 * C := by
    have := abs_sub_abs_le_abs_sub (P - Q) (C - Y)
    rw [abs_of_nonneg (sub_nonneg.mpr hC)] at this
    nlinarith
  have h3 : |R - (C - Y)| ≤ 82 * (u * C) := by
    have := abs_sub_le R (P - Q) (C - Y)
    nlinarith
  have h4 : |R| ≤ 2 * C := by
    have := abs_sub_abs_le_abs_sub R (C - Y)
    rw [abs_of_nonneg (sub_nonneg.mpr hC)] at this
    nlinarith
  have := abs_sub_le X R (C - Y)
  nlinarith

theorem sqrt_double_close {r : ℝ} (hr : IsDouble r) (h0 : 0 ≤ r) : Close 2 (rnd √r ^ 2) r := by
  rcases h0.eq_or_lt with h | h
  · rw [← h, Real.sqrt_zero, rnd_zero]
    norm_num
    exact (Close.refl 0).mono (by norm_num)
  · have hlow : (2 : ℝ) ^ (-1074 : ℤ) ≤ r := by
      obtain ⟨m, e, hm, he, rfl⟩ := hr
      have hm0 : 0 < m := by
        by_contra hc
        have : (m : ℝ) ≤ 0 := by exact_mod_cast not_lt.mp hc
        nlinarith [two_zpow_pos e]
      have hm1 : (1 : ℝ) ≤ m := by exact_mod_cast hm0
      nlinarith [two_zpow_le he, two_zpow_pos e]
    have hs : (2 : ℝ) ^ (-537 : ℤ) ≤ √r := by
      refine Real.le_sqrt_of_sq_le ?_
      rw [← zpow_natCast, ← zpow_mul]
      exact le_trans (le_of_eq (by norm_num)) hlow
    have c := (Close.refl √r).rnd (not_tiny hs (by norm_num))
    have c2 := c.mul c
    rw [Real.mul_self_sqrt h0, ← pow_two] at c2
    exact c2

theorem square_of_close {k : ℕ} {a b : ℝ} (ha : IsDouble a) (h : Close k a b) (h0 : 2 ^ (-499 : ℤ) ≤ |b|)
    (hk : k ≤ 2 ^ 50) : Close (3 + 2 * k) (L.pow a 2) (b ^ 2) := by
  have h1 := h.abs_ge hk
  have h2 : (2 : ℝ) ^ (-500 : ℤ) ≤ |a| := by
    have e : (2 : ℝ) ^ (-499 : ℤ) = 2 ^ (-500 : ℤ) * 2 := by rw [← zpow_add_one₀ (by norm_num)]; norm_num
    rw [e] at h0
    linarith
  have c := h.mul h
  rw [← pow_two, ← pow_two] at c
  exact ((square_close L ⟨ha, .inr h2⟩).trans c).mono (by omega)

theorem rise_close {k : Catenary3d} (h : OrdinarySpan k) :
    |L.pow (Span.rise L k) 2 - k.spacing2d.y ^ 2| ≤ 40 * u * k.spacing2d.y ^ 2 := by
  have hu := u_pos
  have ey : k.spacing2d.y = k.spacing.z * (|k.weightUnit.z| / k.weightUnit.magnitude) := rfl
  rcases h.rise with hz | hz
  · have hr : Span.rise L k = 0 := by unfold Span.rise; rw [hz, zero_mul, rnd_zero]
    have hp : L.pow 0 2 = 0 := by
      have := (L.pow_faithful 0 2 isDouble_zero (.inr (by norm_num))).exact (by norm_num; exact isDouble_zero)
      rw [this]; norm_num
    rw [hr, hp, ey, hz]; norm_num
  · have hz0 : 0 < k.weightUnit.z := (two_zpow_pos _).trans_le h.load.1
    have hW : k.weightUnit.z ≤ k.weightUnit.magnitude := by
      refine Real.le_sqrt_of_sq_le ?_
      nlinarith [sq_nonneg k.weightUnit.x, sq_nonneg k.weightUnit.y]
    have hW0 : 0 < k.weightUnit.magnitude := hz0.trans_le hW
    have cw : Close 6 (magnitude3 L k.weightUnit) k.weightUnit.magnitude :=
      magnitude3_close L h.weight.1 h.weight.2.1 h.weight.2.2
    rw [abs_of_pos hz0] at ey
    have c1 := (Close.refl k.weightUnit.z).div cw
    have b1 : (2 : ℝ) ^ (-100 - 99 : ℤ) ≤ k.weightUnit.z / k.weightUnit.magnitude := zpow_div_le h.load.1 hW0 h.load.2
    have c2 := c1.rnd (not_tiny_close c1 (by norm_num) b1 (by norm_num))
    have c3 := (Close.refl k.spacing.z).mul c2
    rw [← ey] at c3
    have b2 : (2 : ℝ) ^ (-300 : ℤ) ≤ |k.spacing2d.y| := by
      rw [ey, abs_mul, abs_of_pos (div_pos hz0 hW0)]
      refine (two_zpow_le (by norm_num)).trans (zpow_mul_le (d := -100) (e := -100 - 99) hz b1)
    have b3 := c3.abs_ge (by norm_num)
    have c4 : Close 8 (Span.rise L k) k.spacing2d.y := by
      unfold Span.rise
      rw [abs_of_pos hz0]
      refine (c3.rnd ?_).mono (by norm_num)
      have e : (2 : ℝ) ^ (-300 : ℤ) = 2 ^ (-301 : ℤ) * 2 := by rw [← zpow_add_one₀ (by norm_num)]; norm_num
      rw [e] at b2
      exact (two_zpow_le (by norm_num : (-1022 : ℤ) ≤ -301)).trans (by linarith)
    have c5 := (square_of_close (L := L) (rnd_isDouble _) c4 ((two_zpow_le (by norm_num)).trans b2) (by norm_num)).error
      (by norm_num)
    rw [abs_of_nonneg (sq_nonneg k.spacing2d.y)] at c5
    refine c5.trans (mul_le_mul_of_nonneg_right ?_ (sq_nonneg _))
    push_cast; linarith

theorem rise_sq_le {k : Catenary3d} : k.spacing2d.y ^ 2 ≤ k.spacing.magnitude ^ 2 := by
  have h1 := V3.magnitude_sq k.spacing
  have h2 := V3.magnitude_sq k.weightUnit
  have h3 := V3.magnitude_nonneg k.weightUnit
  change (k.spacing.z * (|k.weightUnit.z| / k.weightUnit.magnitude)) ^ 2 ≤ _
  have h4 : (|k.weightUnit.z| / k.weightUnit.magnitude) ^ 2 ≤ 1 := by
    rw [div_pow, sq_abs]
    refine div_le_one_of_le₀ ?_ (sq_nonneg _)
    rw [h2]; nlinarith [sq_nonneg k.weightUnit.x, sq_nonneg k.weightUnit.y]
  rw [mul_pow, h1]
  nlinarith [sq_nonneg k.spacing.x, sq_nonneg k.spacing.y, sq_nonneg k.spacing.z]

/-- **C183** (accuracy): the square of the horizontal spacing in the plane of the cable is within 2^-46 of the square of
the distance of the supports from the exact one. -/
theorem C183_accuracy (hL : L.SquaresRounded) {k : Catenary3d} (h : OrdinarySpan k) :
    |(Span.spacing2d L k).x ^ 2 - k.spacing2d.x ^ 2| ≤ 2 ^ (-46 : ℤ) * k.spacing.magnitude ^ 2 := by
  have hu := u_pos
  have ex : k.spacing2d.x ^ 2 = k.spacing.magnitude ^ 2 - k.spacing2d.y ^ 2 :=
    Real.sq_sqrt (sub_nonneg.mpr rise_sq_le)
  have hy : Usual k.spacing.y := by rw [h.straight]; exact ⟨isDouble_zero, .inl rfl⟩
  have cm : Close 6 (magnitude3 L k.spacing) k.spacing.magnitude := magnitude3_close L h.horizontal hy h.vertical
  have hM : (2 : ℝ) ^ (-100 : ℤ) ≤ |k.spacing.magnitude| := by
    rw [abs_of_nonneg (V3.magnitude_nonneg _)]
    refine h.span.trans (Real.le_sqrt_of_sq_le ?_)
    nlinarith [sq_nonneg k.spacing.y, sq_nonneg k.spacing.z]
  have cP := (square_of_close (L := L) (rnd_isDouble _) cm ((two_zpow_le (by norm_num)).trans hM) (by norm_num)).error
    (by norm_num)
  rw [abs_of_nonneg (sq_nonneg k.spacing.magnitude)] at cP
  have hP : |L.pow (magnitude3 L k.spacing) 2 - k.spacing.magnitude ^ 2| ≤ 40 * u * k.spacing.magnitude ^ 2 := by
    refine cP.trans (mul_le_mul_of_nonneg_right ?_ (sq_nonneg _))
    push_cast; linarith
  have hQ := rise_close (L := L) h
  have i1 : IsDouble (L.pow (magnitude3 L k.spacing) 2) := by
    have := hL (magnitude3 L k.spacing) (rnd_isDouble _)
    rw [this]; exact rnd_isDouble _
  have i2 : IsDouble (L.pow (Span.rise L k) 2) := by
    have := hL (Span.rise L k) (rnd_isDouble _)
    rw [this]; exact rnd_isDouble _
  have hR := rnd_sub_relative i1 i2
  have hX := (sqrt_double_close (rnd_isDouble _) (C183_number hL h.toUsualSpan).1).error (by norm_num)
  rw [ex]
  have := planar_error (sq_nonneg _) rise_sq_le hP hQ hR (X := (Span.spacing2d L k).x ^ 2) (by
    refine hX.trans (le_of_eq ?_)
    push_cast; norm_num)
  refine this.trans (le_of_eq ?_)
  unfold u; norm_num

/-- **C183** (positive spacing): the horizontal spacing in the plane of the cable is positive unless the span is nearly
vertical: it is if the horizontal spacing is at least 2^-22 of the distance of the supports.  Missing for the full claim:
steeper spans, see `C183_steep_fails`. -/
theorem C183_positive_partial (hL : L.SquaresRounded) {k : Catenary3d} (h : OrdinarySpan k)
    (hs : 2 ^ (-22 : ℤ) * k.spacing.magnitude ≤ k.spacing.x) : 0 < (Span.spacing2d L k).x := by
  have h0 : 0 ≤ (Span.spacing2d L k).x := rnd_nonneg (Real.sqrt_nonneg _)
  refine lt_of_le_of_ne h0 (fun h1 => ?_)
  have ha := C183_accuracy hL h
  rw [← h1] at ha
  have hx0 : 0 < k.spacing.x := (two_zpow_pos _).trans_le h.span
  have hm := V3.magnitude_sq k.spacing
  have hz0 : 0 < k.weightUnit.z := (two_zpow_pos _).trans_le h.load.1
  have h2 : k.spacing.x ^ 2 ≤ k.spacing2d.x ^ 2 := by
    have ex : k.spacing2d.x ^ 2 = k.spacing.magnitude ^ 2 - k.spacing2d.y ^ 2 :=
      Real.sq_sqrt (sub_nonneg.mpr rise_sq_le)
    have hw := V3.magnitude_sq k.weightUnit
    have h4 : (|k.weightUnit.z| / k.weightUnit.magnitude) ^ 2 ≤ 1 := by
      rw [div_pow, sq_abs]
      refine div_le_one_of_le₀ ?_ (sq_nonneg _)
      rw [hw]; nlinarith [sq_nonneg k.weightUnit.x, sq_nonneg k.weightUnit.y]
    have ey : k.spacing2d.y ^ 2 = k.spacing.z ^ 2 * (|k.weightUnit.z| / k.weightUnit.magnitude) ^ 2 := mul_pow _ _ _
    rw [ex, ey, hm]
    nlinarith [sq_nonneg k.spacing.z, sq_nonneg k.spacing.y]
  have h3 : (2 ^ (-22 : ℤ) * k.spacing.magnitude) ^ 2 ≤ k.spacing.x ^ 2 :=
    pow_le_pow_left₀ (mul_nonneg (two_zpow_pos _).le (V3.magnitude_nonneg _)) hs 2
  have hm0 : 0 < k.spacing.magnitude ^ 2 := by rw [hm]; positivity
  rw [abs_le] at ha
  have e : (2 ^ (-22 : ℤ) * k.spacing.magnitude) ^ 2 = 4 * (2 ^ (-46 : ℤ) * k.spacing.magnitude ^ 2) := by
    rw [mul_pow]; norm_num; ring
  rw [e] at h3
  have : 0 < (2 : ℝ) ^ (-46 : ℤ) * k.spacing.magnitude ^ 2 := mul_pos (two_zpow_pos _) hm0
  linarith [ha.1]

end

/-- The sizes of a level span. -/
structure OrdinaryLevel (k : Catenary3d) : Prop extends OrdinarySpan k where
  level : k.spacing.z = 0
  short : k.spacing.x ≤ 2 ^ (100 : ℤ)
  exact : IsDouble k.tensionHorizontal
  tension : 2 ^ (-100 : ℤ) ≤ k.tensionHorizontal ∧ k.tensionHorizontal ≤ 2 ^ (100 : ℤ)

theorem OrdinaryLevel.planar {L : Library} (hL : L.SquaresRounded) {k : Catenary3d} (h : OrdinaryLevel k) :
    LevelSpan (Span.planar L k) ∧ (Span.planar L k).spacing.x = k.spacing.x ∧
      k.weightUnit.magnitude / 2 ≤ (Span.planar L k).weightUnit := by
  have hx0 : 0 < k.spacing.x := (two_zpow_pos _).trans_le h.span
  have hz0 : 0 < k.weightUnit.z := (two_zpow_pos _).trans_le h.load.1
  have hs : (Span.planar L k).spacing = ⟨k.spacing.x, 0⟩ := C183_level hL h.toUsualSpan h.level hx0.le
  have hw := magnitude3_ge hL h.weight.1.1 h.weight.2.1.1 h.weight.2.2
  rw [abs_of_pos hz0] at hw
  have cw : Close 6 (magnitude3 L k.weightUnit) k.weightUnit.magnitude :=
    magnitude3_close L h.weight.1 h.weight.2.1 h.weight.2.2
  have cw1 := cw.abs_ge (by norm_num)
  have cw2 := cw.symm.abs_ge (by norm_num)
  have w0 : 0 < magnitude3 L k.weightUnit := hz0.trans_le hw
  rw [abs_of_nonneg (V3.magnitude_nonneg _), abs_of_pos w0] at cw1 cw2
  refine ⟨⟨by rw [hs], ⟨h.exact, rnd_isDouble _, by rw [hs]; exact h.horizontal.1⟩, h.tension, ⟨h.load.1.trans hw, ?_⟩,
    by rw [hs]; exact ⟨h.span, h.short⟩⟩, by rw [hs], cw1⟩
  change magnitude3 L k.weightUnit ≤ _
  have e : (2 : ℝ) ^ (100 : ℤ) = 2 ^ (99 : ℤ) * 2 := by rw [← zpow_add_one₀ (by norm_num)]; norm_num
  rw [e]
  linarith [h.load.2]

/-- **C183** (answers of level spans): whatever the transverse load, the ends of the cable are at equal height in its
plane, the tensions at both ends are equal, and the sag is not negative.  The sag is positive if H/w is at most 2^22
times the span, and the slack if it is at most 2^20 times the span.  Missing for the full claim: tauter cables, see
`C179_taut_fails`. -/
theorem C183_answers_partial {L : CurveLibrary} (hR : L.Regular) (hL : L.toLibrary.SquaresRounded) {k : Catenary3d}
    (h : OrdinaryLevel k) :
    (Span.updated L k).left.y = (Span.updated L k).right.y ∧
    Curve.tension L (Span.updated L k) 0 = Curve.tension L (Span.updated L k) 1 ∧ 0 ≤ Curve.sag L (Span.updated L k) ∧
    (k.tensionHorizontal / k.weightUnit.magnitude ≤ 2 ^ 22 * k.spacing.x → 0 < Curve.sag L (Span.updated L k)) ∧
    (k.tensionHorizontal / k.weightUnit.magnitude ≤ 2 ^ 20 * k.spacing.x → 0 < Curve.lengthSlack L (Span.updated L k)) := by
  obtain ⟨hl, hx, hw⟩ := h.planar hL
  obtain ⟨-, e1, -, -, e2⟩ := C179_level hR hl
  obtain ⟨-, s1, s2⟩ := C179_sag_partial hR hl
  have hz0 : 0 < k.weightUnit.z := (two_zpow_pos _).trans_le h.load.1
  have hm0 : 0 < k.weightUnit.magnitude := by
    have := V3.magnitude_sq k.weightUnit
    have h1 := V3.magnitude_nonneg k.weightUnit
    rcases h1.eq_or_lt with h2 | h2
    · rw [← h2] at this
      nlinarith [sq_nonneg k.weightUnit.x, sq_nonneg k.weightUnit.y]
    · exact h2
  have ht0 : 0 < k.tensionHorizontal := (two_zpow_pos _).trans_le h.tension.1
  have hq : (Span.planar L.toLibrary k).tensionHorizontal / (Span.planar L.toLibrary k).weightUnit ≤
      2 * (k.tensionHorizontal / k.weightUnit.magnitude) := by
    have : k.tensionHorizontal / (Span.planar L.toLibrary k).weightUnit ≤
        k.tensionHorizontal / (k.weightUnit.magnitude / 2) := div_le_div_of_nonneg_left ht0.le (by linarith) hw
    refine this.trans (le_of_eq ?_)
    field_simp
  refine ⟨e1, e2, s1, fun hc => s2 ?_, fun hc => C179_slack_partial hR hl ?_⟩
  · rw [hx]; refine hq.trans ?_; linarith
  · rw [hx]; refine hq.trans ?_; linarith

/-- **C183** (sag of level spans without wind): the sag is within 2^-47 of H/w of the exact one. -/
theorem C183_sag_accuracy {L : CurveLibrary} (hR : L.Regular) (hL : L.toLibrary.SquaresRounded) {k : Catenary3d}
    (R : k.Reachable) (h : OrdinaryLevel k) (wx : k.weightUnit.x = 0) (wy : k.weightUnit.y = 0)
    (hspan : k.spacing.x ≤ 2 * (k.tensionHorizontal / k.weightUnit.z)) :
    |Curve.sag L (Span.updated L k) - k.sag| ≤ 2 ^ (-47 : ℤ) * (k.tensionHorizontal / k.weightUnit.z) := by
  have hx0 : 0 < k.spacing.x := (two_zpow_pos _).trans_le h.span
  have hz0 : 0 < k.weightUnit.z := (two_zpow_pos _).trans_le h.load.1
  obtain ⟨hl, -, -⟩ := h.planar hL
  have hs : Span.spacing2d L.toLibrary k = ⟨k.spacing.x, 0⟩ := C183_level hL h.toUsualSpan h.level hx0.le
  have hw : (Span.planar L.toLibrary k).weightUnit = k.weightUnit.z := (C183_calm hL h.toUsualSpan wx wy hz0).1
  obtain ⟨Ri, si, wi⟩ := R.inner
  have hm : k.weightUnit.magnitude = k.weightUnit.z := by
    unfold V3.magnitude; rw [wx, wy]; norm_num [Real.sqrt_sq hz0.le]
  have hsp : k.spacing2d = ⟨k.spacing.x, 0⟩ := by
    unfold Catenary3d.spacing2d
    rw [h.level]
    simp only [zero_mul]
    congr 1
    rw [V3.magnitude_sq, h.straight, h.level]
    norm_num [Real.sqrt_sq hx0.le]
  have ht : k.refresh.catenary2d.tensionHorizontal = k.tensionHorizontal := by
    unfold Catenary3d.refresh; split <;> rfl
  have same : Span.updated L k = Curve.update L k.refresh.catenary2d := by
    have e : ∀ a b : Catenary2d, a.tensionHorizontal = b.tensionHorizontal → a.weightUnit = b.weightUnit →
        a.spacing = b.spacing → Curve.update L a = Curve.update L b := by
      rintro ⟨⟩ ⟨⟩ h1 h2 h3
      simp only at h1 h2 h3
      subst h1 h2 h3
      rfl
    exact e _ _ ht.symm (by rw [hw, wi, hm]) (by rw [si, hsp]; exact hs)
  have hl' : LevelSpan k.refresh.catenary2d := by
    have e1 : (Span.planar L.toLibrary k).spacing = k.refresh.catenary2d.spacing := by rw [si, hsp]; exact hs
    have e2 : (Span.planar L.toLibrary k).weightUnit = k.refresh.catenary2d.weightUnit := by rw [hw, wi, hm]
    have e3 : (Span.planar L.toLibrary k).tensionHorizontal = k.refresh.catenary2d.tensionHorizontal := ht.symm
    obtain ⟨a, b, c, d, e⟩ := hl
    rw [e1] at a b e; rw [e2] at b d; rw [e3] at b c
    exact ⟨a, b, c, d, e⟩
  have := C179_sag_accuracy hR Ri hl' (by rw [si, hsp, ht, wi, hm]; exact hspan)
  rw [same]
  rw [ht, wi, hm] at this
  exact this

/-- A nearly vertical span: 2^-17 across and 1024 up. -/
noncomputable def steepSpan : Catenary3d :=
  { Catenary3d.new with spacing := ⟨2 ^ (-17 : ℤ), 0, 1024⟩, weightUnit := ⟨0, 0, 1⟩ }

theorem usual_zero : Usual 0 := ⟨isDouble_zero, .inl rfl⟩

theorem usual_of {x : ℝ} {e : ℤ} (hx : IsDouble x) (h : (2 : ℝ) ^ e ≤ x) (he : -500 ≤ e) : Usual x :=
  ⟨hx, .inr (((two_zpow_le he).trans h).trans (le_abs_self x))⟩

theorem steepSpan_ordinary : OrdinarySpan steepSpan where
  straight := rfl
  horizontal := usual_of (isDouble_two_zpow (by norm_num)) le_rfl (by norm_num)
  vertical := usual_of (e := 0) ⟨1, 10, by norm_num, by norm_num, by norm_num [steepSpan]⟩ (by norm_num [steepSpan]) (by norm_num)
  weight := ⟨usual_zero, usual_zero, usual_of (e := 0) isDouble_one (by norm_num [steepSpan]) (by norm_num)⟩
  span := two_zpow_le (by norm_num)
  rise := .inr (by change (2 : ℝ) ^ (-100 : ℤ) ≤ |1024|; norm_num)
  load := by
    refine ⟨by change (2 : ℝ) ^ (-100 : ℤ) ≤ 1; norm_num, ?_⟩
    change √((0 : ℝ) ^ 2 + 0 ^ 2 + 1 ^ 2) ≤ _
    norm_num

/-- **C183** (steep spans fail): for a span 2^-17 across and 1024 up the horizontal spacing is computed as zero, so that
the update divides zero by zero. -/
theorem C183_steep_fails : OrdinarySpan steepSpan ∧ 0 < steepSpan.spacing2d.x ∧ (Span.spacing2d roundedLibrary steepSpan).x = 0 := by
  have hL := roundedLibrary_rounded
  refine ⟨steepSpan_ordinary, ?_, ?_⟩
  · refine Real.sqrt_pos.mpr ?_
    rw [V3.magnitude_sq]
    have hw : steepSpan.weightUnit.magnitude = 1 := by
      change √((0 : ℝ) ^ 2 + 0 ^ 2 + 1 ^ 2) = 1; norm_num
    rw [hw]
    change (0 : ℝ) < (2 ^ (-17 : ℤ)) ^ 2 + 0 ^ 2 + 1024 ^ 2 - (1024 * (|1| / 1)) ^ 2
    norm_num
  · have hy : Span.rise roundedLibrary steepSpan = 1024 :=
      (C183_calm hL steepSpan_ordinary.toUsualSpan rfl rfl (by change (0 : ℝ) < 1; norm_num)).2
    have hm : magnitude3 roundedLibrary steepSpan.spacing = 1024 := by
      change rnd √(rnd (rnd (roundedLibrary.pow (2 ^ (-17 : ℤ)) 2 + roundedLibrary.pow 0 2) + roundedLibrary.pow 1024 2)) = _
      have d1 : IsDouble (1024 : ℝ) := ⟨1, 10, by norm_num, by norm_num, by norm_num⟩
      have d2 : IsDouble ((1024 : ℝ) ^ 2) := ⟨1, 20, by norm_num, by norm_num, by norm_num⟩
      have d3 : IsDouble (((2 : ℝ) ^ (-17 : ℤ)) ^ 2) := ⟨1, -34, by norm_num, by norm_num, by norm_num⟩
      rw [pow_zero_two hL, add_zero, hL _ (isDouble_two_zpow (by norm_num)), hL _ d1, rnd_of_isDouble d3, rnd_of_isDouble d3,
        rnd_of_isDouble d2]
      have r : rnd (((2 : ℝ) ^ (-17 : ℤ)) ^ 2 + 1024 ^ 2) = 1024 ^ 2 := by
        refine (rnd_eq (2 ^ 52) (-32) ?_ ?_ ?_ ?_).trans ?_ <;> norm_num [abs_of_pos, abs_lt]
      rw [r, Real.sqrt_sq (by norm_num), rnd_of_isDouble d1]
    change rnd √(rnd (_ - _)) = 0
    rw [hm, hy, sub_self, rnd_zero, Real.sqrt_zero, rnd_zero]

/-! ## Concrete inputs -/

/-- A level span of 1200 ft with a load of 1 lb/ft down and 1 lb/ft across at 6000 lb. -/
noncomputable def windy : Catenary3d :=
  ((Catenary3d.new.setSpacing ⟨1200, 0, 0⟩).setTension 6000).setWeight ⟨0, 1, 1⟩

example : OrdinaryLevel windy ∧ windy.tensionHorizontal / windy.weightUnit.magnitude ≤ 2 ^ 20 * windy.spacing.x := by
  have hm : windy.weightUnit.magnitude = √2 := by
    change √((0 : ℝ) ^ 2 + 1 ^ 2 + 1 ^ 2) = _; norm_num
  have h1 : (1 : ℝ) ≤ √2 := by rw [Real.one_le_sqrt]; norm_num
  have h2 : √2 ≤ (2 : ℝ) := by rw [Real.sqrt_le_left (by norm_num)]; norm_num
  have d : ∀ n : ℤ, 1 ≤ n → n ≤ 2 ^ 53 → Usual n := fun n h h' =>
    usual_of (e := 0) (isDouble_int (by rw [abs_le]; omega)) (by rw [zpow_zero]; exact_mod_cast h) (by norm_num)
  have u1 : Usual (1 : ℝ) := by simpa using d 1 (by norm_num) (by norm_num)
  have u2 : Usual (1200 : ℝ) := by simpa using d 1200 (by norm_num) (by norm_num)
  have u3 : Usual (6000 : ℝ) := by simpa using d 6000 (by norm_num) (by norm_num)
  refine ⟨{ straight := rfl, horizontal := u2, vertical := usual_zero, weight := ⟨usual_zero, u1, u1⟩, span := ?_,
            rise := .inl rfl, load := ⟨?_, ?_⟩, level := rfl, short := ?_, exact := u3.1, tension := ⟨?_, ?_⟩ }, ?_⟩
  · change (2 : ℝ) ^ (-100 : ℤ) ≤ 1200; norm_num
  · change (2 : ℝ) ^ (-100 : ℤ) ≤ 1; norm_num
  · rw [hm]; refine h2.trans ?_; norm_num
  · change (1200 : ℝ) ≤ 2 ^ (100 : ℤ); norm_num
  · change (2 : ℝ) ^ (-100 : ℤ) ≤ 6000; norm_num
  · change (6000 : ℝ) ≤ 2 ^ (100 : ℤ); norm_num
  · rw [hm]
    change (6000 : ℝ) / √2 ≤ 2 ^ 20 * 1200
    refine (div_le_self (by norm_num) h1).trans ?_
    norm_num

/-- The same span without wind; H/w is 6000 ft. -/
example : ∃ k : Catenary3d, k.Reachable ∧ k.weightUnit = ⟨0, 0, 1⟩ ∧ k.spacing = ⟨1200, 0, 0⟩ ∧ k.tensionHorizontal = 6000 ∧
    k.spacing.x ≤ 2 * (k.tensionHorizontal / k.weightUnit.z) := by
  refine ⟨[.setSpacing ⟨1200, 0, 0⟩, .setTension 6000, .setWeight ⟨0, 0, 1⟩].foldl Catenary3d.Event.next Catenary3d.new,
    ⟨_, rfl⟩, rfl, rfl, rfl, ?_⟩
  change (1200 : ℝ) ≤ 2 * (6000 / 1)
  norm_num

end Verif.Props
