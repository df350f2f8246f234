import Verif.DoubleLoads
import Verif.Props.DoubleVector
import Verif.Props.DoubleCatenary

/-! # Unit loads, strained lengths and wave times in `double` arithmetic (C180 to C182) -/

set_option linter.unusedSectionVars false

namespace Verif.Props

open Verif.Double

/-! ## C180: unit loads -/

theorem load_error {w r A B a b x y z q : ℝ} (hr : 0 ≤ r) (hw : 0 ≤ w) (hB : 0 ≤ B) (hAB : B ≤ A)
    (ha : |a - A| ≤ 16 * u * A) (hb : |b - B| ≤ 16 * u * B) (hx : |x - (a - b)| ≤ u * |a - b|)
    (hy : |y - x * r| ≤ u * |x * r| + q) (hz : |z - (w + y)| ≤ u * |w + y|) (hq : q ≤ u * w) :
    |z - (w + (A - B) * r)| ≤ 64 * u * (w + A * r) := by
  have hu := u_pos
  have hu' := u_small
  have hA : 0 ≤ A := hB.trans hAB
  have h1 : |a - b - (A - B)| ≤ 32 * (u * A) := by
    have := abs_sub_le (a - b) (A - b) (A - B)
    have e1 : a - b - (A - b) = a - A := by ring
    have e2 : A - b - (A - B) = -(b - B) := by ring
    rw [e1, e2, abs_neg] at this
    nlinarith
  have h2 : |a - b| ≤ 2 * A := by
    have := abs_sub_abs_le_abs_sub (a - b) (A - B)
    rw [abs_of_nonneg (sub_nonneg.mpr hAB)] at this
    nlinarith
  have h3 : |x - (A - B)| ≤ 34 * (u * A) := by
    have := abs_sub_le x (a - b) (A - B)
    nlinarith
  have h4 : |x| ≤ 2 * A := by
    have := abs_sub_abs_le_abs_sub x (A - B)
    rw [abs_of_nonneg (sub_nonneg.mpr hAB)] at this
    nlinarith
  have h5 : |x * r| ≤ 2 * (A * r) := by
    rw [abs_mul, abs_of_nonneg hr]; nlinarith
  have h6 : |x * r - (A - B) * r| ≤ 34 * (u * (A * r)) := by
    rw [← sub_mul, abs_mul, abs_of_nonneg hr]
    calc _ ≤ 34 * (u * A) * r := mul_le_mul_of_nonneg_right h3 hr
      _ = _ := by ring
  have hAr : 0 ≤ A * r := mul_nonneg hA hr
  have h7 : |y - (A - B) * r| ≤ 36 * (u * (A * r)) + u * w := by
    have := abs_sub_le y (x * r) ((A - B) * r)
    nlinarith
  have h8 : |y| ≤ 2 * (A * r) + w := by
    have := abs_sub_abs_le_abs_sub y ((A - B) * r)
    have e : |(A - B) * r| ≤ A * r := by
      rw [abs_of_nonneg (mul_nonneg (sub_nonneg.mpr hAB) hr)]; nlinarith
    nlinarith
  have h9 : |w + y| ≤ 2 * (A * r) + 2 * w := by
    have := abs_add_le w y
    rw [abs_of_nonneg hw] at this
    linarith
  have := abs_sub_le z (w + y) (w + (A - B) * r)
  have e : w + y - (w + (A - B) * r) = y - (A - B) * r := by ring
  rw [e] at this
  nlinarith [mul_nonneg hu.le hAr, mul_nonneg hu.le hw]

section
variable {L : Library}

theorem roundedLibrary_squares : roundedLibrary.SquaresMono := by
  intro x y _ _ hx hxy
  change rnd (x ^ (2 : ℤ)) ≤ rnd (y ^ (2 : ℤ))
  exact rnd_mono (zpow_le_zpow_left₀ (by norm_num) hx hxy)

theorem pow_two_nonneg {x : ℝ} (hx : IsDouble x) : 0 ≤ L.pow x 2 := by
  refine (L.pow_faithful x 2 hx (.inr (by norm_num))).nonneg ?_
  have e : x ^ (2 : ℤ) = x ^ 2 := by norm_cast
  rw [e]; positivity

theorem quarter_pi_nonneg : 0 ≤ rnd (rnd 3.14159265358979 / 4) :=
  rnd_nonneg (div_nonneg (rnd_nonneg (by norm_num)) (by norm_num))

theorem volume_one (d : ℝ) : volume L ⟨d, 1⟩ = areaCrossSection L ⟨d, 1⟩ := by
  unfold volume
  rw [mul_one]
  exact rnd_of_isDouble (rnd_isDouble _)

theorem volume_mono (hL : L.SquaresMono) {d e : ℝ} (hd : IsDouble d) (he : IsDouble e) (h0 : 0 ≤ d) (h : d ≤ e) :
    volume L ⟨d, 1⟩ ≤ volume L ⟨e, 1⟩ := by
  rw [volume_one, volume_one]
  exact rnd_mono (mul_le_mul_of_nonneg_left (hL d e hd he h0 h) quarter_pi_nonneg)

theorem iced_ge {d t : ℝ} (hd : IsDouble d) (ht : 0 ≤ t) : d ≤ rnd (d + rnd (2 * t)) :=
  le_rnd hd (by have := rnd_nonneg (x := 2 * t) (by linarith); linarith)

/-- **C180** (least load): ice and wind never lighten a cable: the vertical load is at least the cable's weight, the
transverse load is not negative, and there is no longitudinal load. -/
theorem C180_least (hL : L.SquaresMono) {d w : ℝ} (hd : IsDouble d) (h0 : 0 ≤ d) (hw : IsDouble w) {c : WeatherLoadCase}
    (ht : 0 ≤ c.thicknessIce) (hr : 0 ≤ c.densityIce) (hp : 0 ≤ c.pressureWind) :
    (Double.unitCableLoad L d w c).x = 0 ∧ 0 ≤ (Double.unitCableLoad L d w c).y ∧ w ≤ (Double.unitCableLoad L d w c).z := by
  have h1 := iced_ge hd ht
  refine ⟨rfl, ?_, ?_⟩
  · refine rnd_nonneg (mul_nonneg (rnd_nonneg ?_) hp)
    change 0 ≤ rnd (d + rnd (2 * c.thicknessIce)) * 1
    linarith
  · refine le_rnd hw ?_
    have h2 := volume_mono hL hd (rnd_isDouble _) h0 h1
    have h3 := rnd_nonneg (mul_nonneg (rnd_nonneg (sub_nonneg.mpr h2)) hr)
    linarith

/-- **C180** (bare cable): without ice (no thickness or no density) the vertical load is exactly the cable's weight,
and without wind there is no transverse load. -/
theorem C180_bare {d w : ℝ} (hd : IsDouble d) (hw : IsDouble w) (c : WeatherLoadCase) :
    (c.thicknessIce = 0 ∨ c.densityIce = 0 → (Double.unitCableLoad L d w c).z = w) ∧
    (c.pressureWind = 0 → (Double.unitCableLoad L d w c).y = 0) := by
  refine ⟨fun h => ?_, fun h => ?_⟩
  · change rnd (w + rnd (rnd (volume L ⟨rnd (d + rnd (2 * c.thicknessIce)), 1⟩ - volume L ⟨d, 1⟩) * c.densityIce)) = w
    rcases h with h | h
    · rw [h, mul_zero, rnd_zero, add_zero, rnd_of_isDouble hd, sub_self, rnd_zero, zero_mul, rnd_zero, add_zero,
        rnd_of_isDouble hw]
    · rw [h, mul_zero, rnd_zero, add_zero, rnd_of_isDouble hw]
  · change rnd (_ * c.pressureWind) = 0
    rw [h, mul_zero, rnd_zero]

/-- **C180** (order): more ice, denser ice, more wind or a heavier cable never lower a load. -/
theorem C180_order (hL : L.SquaresMono) {d w w' : ℝ} (hd : IsDouble d) (h0 : 0 ≤ d) (hw : w ≤ w')
    {c c' : WeatherLoadCase} (ht : 0 ≤ c.thicknessIce) (htt : c.thicknessIce ≤ c'.thicknessIce) (hr : 0 ≤ c.densityIce)
    (hrr : c.densityIce ≤ c'.densityIce) (hp : 0 ≤ c.pressureWind) (hpp : c.pressureWind ≤ c'.pressureWind) :
    (Double.unitCableLoad L d w c).y ≤ (Double.unitCableLoad L d w' c').y ∧
    (Double.unitCableLoad L d w c).z ≤ (Double.unitCableLoad L d w' c').z := by
  have h1 := iced_ge hd ht
  have h2 : rnd (d + rnd (2 * c.thicknessIce)) ≤ rnd (d + rnd (2 * c'.thicknessIce)) :=
    rnd_mono (by have := rnd_mono (show 2 * c.thicknessIce ≤ 2 * c'.thicknessIce by linarith); linarith)
  have v1 := volume_mono hL hd (rnd_isDouble (d + rnd (2 * c.thicknessIce))) h0 h1
  have v2 := volume_mono hL (rnd_isDouble _) (rnd_isDouble (d + rnd (2 * c'.thicknessIce))) (h0.trans h1) h2
  refine ⟨?_, ?_⟩
  · refine rnd_mono (mul_le_mul (rnd_mono ?_) hpp hp (rnd_nonneg ?_))
    · change rnd (d + rnd (2 * c.thicknessIce)) * 1 ≤ rnd (d + rnd (2 * c'.thicknessIce)) * 1
      linarith
    · change 0 ≤ rnd (d + rnd (2 * c'.thicknessIce)) * 1
      linarith
  · refine rnd_mono (add_le_add hw (rnd_mono (mul_le_mul (rnd_mono ?_) hrr hr (rnd_nonneg ?_))))
    · exact sub_le_sub_right v2 _
    · exact sub_nonneg.mpr (v1.trans v2)

theorem area_close {d e : ℝ} (hd : IsDouble d) (h0 : 2 ^ (-300 : ℤ) ≤ d) (h : Close 1 d e) (he : 2 ^ (-300 : ℤ) ≤ e) :
    Close 8 (volume L ⟨d, 1⟩) (Cylinder.volume ⟨e, 1⟩) := by
  rw [volume_one]
  have p1 : Close 1 (rnd 3.14159265358979) 3.14159265358979 :=
    (Close.refl _).rnd (not_tiny (e := 0) (by norm_num) (by norm_num))
  have p2 := p1.div (Close.refl 4)
  have p3 := p2.rnd (not_tiny_close p2 (by norm_num) (e := -2) (by norm_num) (by norm_num))
  have d0 : 0 < d := (two_zpow_pos _).trans_le h0
  have sq := square_close L (x := d) ⟨hd, .inr ((two_zpow_le (by norm_num)).trans (h0.trans (le_abs_self d)))⟩
  have sq2 := h.mul h
  rw [← pow_two, ← pow_two] at sq2
  have c := p3.mul (sq.trans sq2)
  have b : (2 : ℝ) ^ (-601 : ℤ) ≤ 3.14159265358979 / 4 * e ^ 2 := by
    have h1 := zpow_mul_le he he
    have h2 := zpow_mul_le (d := -1) (a := 3.14159265358979 / 4) (by norm_num) h1
    rw [pow_two]
    exact (two_zpow_le (by norm_num)).trans h2
  have r := c.rnd (not_tiny_close c (by norm_num) b (by norm_num))
  have e' : Cylinder.volume ⟨e, 1⟩ = 3.14159265358979 / 4 * e ^ 2 := by
    unfold Cylinder.volume Cylinder.areaCrossSection Units.kPi
    norm_num
  rw [e']
  exact r

/-- **C180** (accuracy): the transverse load is within 2^-50 of the exact one, and the vertical load is within 2^-47 of
the cable's weight plus that of a solid bar of ice of the iced diameter. -/
theorem C180_accuracy {s : UnitLoadSolver} {d w : ℝ} (sd : s.diameterCable = some d) (sw : s.weightUnitCable = some w)
    (hd : IsDouble d) (h0 : 2 ^ (-300 : ℤ) ≤ d) (hw : IsDouble w) (w0 : 2 ^ (-1000 : ℤ) ≤ w) {c : WeatherLoadCase}
    (hdt : IsDouble c.thicknessIce) (ht : 0 ≤ c.thicknessIce) (hr : 0 ≤ c.densityIce)
    (hp : c.pressureWind = 0 ∨ 2 ^ (-700 : ℤ) ≤ c.pressureWind) {v : V3} (hv : s.unitCableLoad c = .val v) :
    |(Double.unitCableLoad L d w c).y - v.y| ≤ 2 ^ (-50 : ℤ) * v.y ∧
    |(Double.unitCableLoad L d w c).z - v.z| ≤
      2 ^ (-47 : ℤ) * (w + Cylinder.volume ⟨d + 2 * c.thicknessIce, 1⟩ * c.densityIce) := by
  have d0 : 0 < d := (two_zpow_pos _).trans_le h0
  have hv' : v = ⟨0, (d + 2 * c.thicknessIce) * 1 * c.pressureWind,
      w + (Cylinder.volume ⟨d + 2 * c.thicknessIce, 1⟩ - Cylinder.volume ⟨d, 1⟩) * c.densityIce⟩ := by
    unfold UnitLoadSolver.unitCableLoad at hv
    rw [sd, sw] at hv
    exact (Res.val.inj hv).symm
  have e2 : rnd (2 * c.thicknessIce) = 2 * c.thicknessIce := rnd_of_isDouble (isDouble_two_mul hdt)
  have D1 : Close 1 (rnd (d + rnd (2 * c.thicknessIce))) (d + 2 * c.thicknessIce) := by
    rw [e2]; exact close_of_error (rnd_add_relative hd (isDouble_two_mul hdt))
  have hD := iced_ge hd ht
  set D := rnd (d + rnd (2 * c.thicknessIce)) with hDd
  set E := d + 2 * c.thicknessIce with hE
  have hEd : d ≤ E := by linarith
  have p0 : 0 ≤ c.pressureWind := by
    rcases hp with hp | hp
    · rw [hp]
    · exact (two_zpow_pos _).le.trans hp
  subst hv'
  refine ⟨?_, ?_⟩
  · change |rnd (rnd (D * 1) * c.pressureWind) - E * 1 * c.pressureWind| ≤ _ * (E * 1 * c.pressureWind)
    rw [mul_one, mul_one, rnd_of_isDouble (rnd_isDouble _)]
    rcases hp with hp | hp
    · rw [hp]; simp [rnd_zero]
    have q : 0 ≤ E * c.pressureWind := mul_nonneg (d0.le.trans hEd) p0
    have c1 := D1.mul (Close.refl c.pressureWind)
    have c2 := c1.rnd (not_tiny_close c1 (by norm_num) (zpow_mul_le (h0.trans hEd) hp) (by norm_num))
    have := c2.error (by norm_num)
    rw [abs_of_nonneg q] at this
    refine this.trans (mul_le_mul_of_nonneg_right ?_ q)
    unfold u; norm_num
  · change |rnd (w + rnd (rnd (volume L ⟨D, 1⟩ - volume L ⟨d, 1⟩) * c.densityIce)) -
      (w + (Cylinder.volume ⟨E, 1⟩ - Cylinder.volume ⟨d, 1⟩) * c.densityIce)| ≤ _
    have cD := (area_close (L := L) (rnd_isDouble _) (h0.trans hD) D1 (h0.trans hEd)).error (by norm_num)
    have cd := (area_close (L := L) hd h0 ((Close.refl d).mono (Nat.zero_le 1)) h0).error (by norm_num)
    have vd : 0 ≤ Cylinder.volume ⟨d, 1⟩ := by unfold Cylinder.volume Cylinder.areaCrossSection Units.kPi; positivity
    have vE : Cylinder.volume ⟨d, 1⟩ ≤ Cylinder.volume ⟨E, 1⟩ := by
      unfold Cylinder.volume Cylinder.areaCrossSection Units.kPi
      have : d ^ 2 ≤ E ^ 2 := by nlinarith
      simp only
      nlinarith
    rw [abs_of_nonneg (vd.trans vE)] at cD
    rw [abs_of_nonneg vd] at cd
    have i1 : IsDouble (volume L ⟨D, 1⟩) := rnd_isDouble _
    have i2 : IsDouble (volume L ⟨d, 1⟩) := rnd_isDouble _
    have r1 := rnd_sub_relative i1 i2
    have r2 := rnd_error_le (rnd (volume L ⟨D, 1⟩ - volume L ⟨d, 1⟩) * c.densityIce)
    have r3 := rnd_add_relative hw (rnd_isDouble (rnd (volume L ⟨D, 1⟩ - volume L ⟨d, 1⟩) * c.densityIce))
    have tiny : (2 : ℝ) ^ (-1075 : ℤ) ≤ u * w := by
      refine le_trans ?_ (mul_le_mul_of_nonneg_left w0 u_pos.le)
      unfold u
      rw [← zpow_add₀ (by norm_num)]
      exact two_zpow_le (by norm_num)
    have := load_error hr ((two_zpow_pos _).le.trans w0) vd vE (by norm_num at cD ⊢; linarith) (by norm_num at cd ⊢; linarith)
      r1 r2 r3 tiny
    refine this.trans (le_of_eq ?_)
    unfold u; norm_num

end

/-! ## C181: strained lengths -/

theorem lengthFinish_nonneg_case {l a b : ℝ} (h : 0 ≤ rnd (b - a)) :
    Double.lengthFinish l a b = rnd (l * rnd (1 + rnd (b - a))) := by
  unfold Double.lengthFinish
  exact if_neg (not_lt.mpr h)

theorem lengthFinish_neg_case {l a b : ℝ} (h : rnd (b - a) < 0) :
    Double.lengthFinish l a b = rnd (l / rnd (1 + |rnd (b - a)|)) := by
  unfold Double.lengthFinish
  exact if_pos h

theorem one_le_factor {s : ℝ} (h : 0 ≤ s) : 1 ≤ rnd (1 + s) := le_rnd isDouble_one (by linarith)

/-- **C181** (direction): a cable strained further is not shorter, one relaxed is not longer, and equal strains leave
the length as it is. -/
theorem C181_direction {l a b : ℝ} (hl : IsDouble l) (h0 : 0 ≤ l) :
    (a ≤ b → l ≤ Double.lengthFinish l a b) ∧ (b ≤ a → Double.lengthFinish l a b ≤ l) ∧ Double.lengthFinish l a a = l := by
  have same : Double.lengthFinish l a a = l := by
    rw [lengthFinish_nonneg_case (by rw [sub_self, rnd_zero]), sub_self, rnd_zero, add_zero, rnd_of_isDouble isDouble_one,
      mul_one, rnd_of_isDouble hl]
  refine ⟨fun h => ?_, fun h => ?_, same⟩
  · have h1 : 0 ≤ rnd (b - a) := rnd_nonneg (by linarith)
    rw [lengthFinish_nonneg_case h1]
    refine le_rnd hl ?_
    nlinarith [one_le_factor h1]
  · have h1 : rnd (b - a) ≤ 0 := rnd_le isDouble_zero (by linarith)
    rcases h1.eq_or_lt with h2 | h2
    · rw [lengthFinish_nonneg_case h2.ge, h2, add_zero, rnd_of_isDouble isDouble_one, mul_one, rnd_of_isDouble hl]
    · rw [lengthFinish_neg_case h2]
      refine rnd_le hl (div_le_self h0 (one_le_factor (abs_nonneg _)))

/-- **C181** (order): the finished length never falls when the start length or the finish strain grows, and never rises
when the start strain grows. -/
theorem C181_order {l l' a a' b b' : ℝ} (hl : IsDouble l) (h0 : 0 ≤ l) (hll : l ≤ l') (ha : a' ≤ a) (hb : b ≤ b') :
    Double.lengthFinish l a b ≤ Double.lengthFinish l' a' b' := by
  have hs : rnd (b - a) ≤ rnd (b' - a') := rnd_mono (by linarith)
  rcases lt_or_ge (rnd (b' - a')) 0 with h1 | h1
  · rw [lengthFinish_neg_case (hs.trans_lt h1), lengthFinish_neg_case h1]
    have f1 := one_le_factor (abs_nonneg (rnd (b' - a')))
    have : rnd (1 + |rnd (b' - a')|) ≤ rnd (1 + |rnd (b - a)|) := by
      refine rnd_mono ?_
      rw [abs_of_neg h1, abs_of_neg (hs.trans_lt h1)]; linarith
    exact rnd_mono (div_le_div₀ (h0.trans hll) hll (by linarith) this)
  · have f1 := one_le_factor h1
    rw [lengthFinish_nonneg_case h1]
    rcases lt_or_ge (rnd (b - a)) 0 with h2 | h2
    · rw [lengthFinish_neg_case h2]
      have : rnd (l / rnd (1 + |rnd (b - a)|)) ≤ l := rnd_le hl (div_le_self h0 (one_le_factor (abs_nonneg _)))
      exact this.trans (le_rnd hl (by nlinarith))
    · rw [lengthFinish_nonneg_case h2]
      exact rnd_mono (mul_le_mul hll (rnd_mono (by linarith)) (by linarith [one_le_factor h2]) (h0.trans hll))

theorem factor_close {s t : ℝ} (h : Close 1 s t) (h0 : 0 ≤ t) (h1 : 0 ≤ s) : Close 2 (rnd (1 + s)) (1 + t) := by
  have c := Close.add_nonneg' ((Close.refl 1).mono (Nat.zero_le 1)) h (by norm_num) h0
  refine c.rnd (not_tiny (e := 0) ?_ (by norm_num))
  rw [zpow_zero]; linarith

theorem factor_le {s : ℝ} (h : s ≤ 1) : rnd (1 + s) ≤ 2 := rnd_le isDouble_two (by linarith)

/-- **C181** (accuracy): the finished length differs from the exact formula by at most 2^-50 of it, for strains whose
difference is at most one. -/
theorem C181_accuracy {l a b : ℝ} (h0 : 2 ^ (-1000 : ℤ) ≤ l) (ha : IsDouble a) (hb : IsDouble b) (hab : |b - a| ≤ 1) :
    |Double.lengthFinish l a b - CableStrainer.elongate l a b| ≤ 2 ^ (-50 : ℤ) * CableStrainer.elongate l a b := by
  have l0 : 0 < l := (two_zpow_pos _).trans_le h0
  have key : Close 3 (Double.lengthFinish l a b) (CableStrainer.elongate l a b) ∧ 0 ≤ CableStrainer.elongate l a b := by
    have c1 := close_of_error (rnd_sub_relative hb ha)
    rcases lt_or_ge b a with h | h
    · have h1 : rnd (b - a) < 0 := by
        have := rnd_sub_pos hb ha h
        rw [← neg_sub, rnd_neg]; linarith
      have e : CableStrainer.elongate l a b = l / (1 + |b - a|) := if_pos (by linarith)
      rw [lengthFinish_neg_case h1, e]
      refine ⟨?_, by positivity⟩
      have c2 : Close 1 |rnd (b - a)| |b - a| := by
        rw [abs_of_neg h1, abs_of_neg (by linarith)]; exact c1.neg
      have f := factor_close c2 (abs_nonneg _) (abs_nonneg _)
      have f1 := one_le_factor (abs_nonneg (rnd (b - a)))
      have f2 : rnd (1 + |rnd (b - a)|) ≤ 2 := factor_le (by
        rw [← rnd_abs]; exact rnd_le isDouble_one hab)
      have c3 := (Close.refl l).div f
      rw [Nat.zero_add] at c3
      refine c3.rnd (not_tiny (e := -1001) ?_ (by norm_num))
      rw [le_div_iff₀ (by linarith)]
      calc (2 : ℝ) ^ (-1001 : ℤ) * rnd (1 + |rnd (b - a)|) ≤ 2 ^ (-1001 : ℤ) * 2 :=
            mul_le_mul_of_nonneg_left f2 (two_zpow_pos _).le
        _ = 2 ^ (-1000 : ℤ) := by rw [← zpow_add_one₀ (by norm_num)]; norm_num
        _ ≤ l := h0
    · have h1 : 0 ≤ rnd (b - a) := rnd_nonneg (by linarith)
      have e : CableStrainer.elongate l a b = l * (1 + (b - a)) := if_neg (by linarith)
      have hba : 0 ≤ b - a := by linarith
      rw [lengthFinish_nonneg_case h1, e]
      refine ⟨?_, by positivity⟩
      have f := factor_close c1 hba h1
      have f1 := one_le_factor h1
      have c3 := (Close.refl l).mul f
      rw [Nat.zero_add] at c3
      refine c3.rnd (not_tiny (e := -1000) ?_ (by norm_num))
      nlinarith
  have := key.1.error (by norm_num)
  rw [abs_of_nonneg key.2] at this
  refine this.trans (mul_le_mul_of_nonneg_right ?_ key.2)
  unfold u; norm_num

theorem back_close {l a b : ℝ} (h0 : 2 ^ (-1000 : ℤ) ≤ l) (hab : |b - a| ≤ 1) :
    Close 2 (Double.lengthFinish (Double.lengthFinish l a b) b a) l := by
  have l0 : 0 < l := (two_zpow_pos _).trans_le h0
  have hneg : rnd (a - b) = -rnd (b - a) := by rw [← rnd_neg, neg_sub]
  have habs : |rnd (b - a)| ≤ 1 := by rw [← rnd_abs]; exact rnd_le isDouble_one hab
  have f1 := one_le_factor (abs_nonneg (rnd (b - a)))
  have f2 := factor_le habs
  have c0 := Close.refl l
  rcases lt_trichotomy (rnd (b - a)) 0 with h | h | h
  · rw [lengthFinish_nonneg_case (a := b) (b := a) (by linarith), lengthFinish_neg_case h, hneg]
    rw [abs_of_neg h] at f1 f2 ⊢
    set F := rnd (1 + -rnd (b - a)) with hF
    have d1 : (2 : ℝ) ^ (-1001 : ℤ) ≤ l / F := by
      rw [le_div_iff₀ (by linarith)]
      calc (2 : ℝ) ^ (-1001 : ℤ) * F ≤ 2 ^ (-1001 : ℤ) * 2 := mul_le_mul_of_nonneg_left f2 (two_zpow_pos _).le
        _ = 2 ^ (-1000 : ℤ) := by rw [← zpow_add_one₀ (by norm_num)]; norm_num
        _ ≤ l := h0
    have c1 : Close 1 (rnd (l / F)) (l / F) := (Close.refl (l / F)).rnd (not_tiny d1 (by norm_num))
    have c2 := c1.mul (Close.refl F)
    rw [div_mul_cancel₀ l (by linarith)] at c2
    exact c2.rnd (not_tiny_close c2 (by norm_num) h0 (by norm_num))
  · have e1 : Double.lengthFinish l a b = rnd l := by
      rw [lengthFinish_nonneg_case h.ge, h, add_zero, rnd_of_isDouble isDouble_one, mul_one]
    rw [lengthFinish_nonneg_case (a := b) (b := a) (by rw [hneg, h, neg_zero]), e1, hneg, h, neg_zero, add_zero,
      rnd_of_isDouble isDouble_one, mul_one, rnd_rnd]
    exact (c0.rnd (not_tiny h0 (by norm_num))).mono (by norm_num)
  · rw [lengthFinish_neg_case (a := b) (b := a) (by linarith), lengthFinish_nonneg_case h.le, hneg, abs_neg]
    rw [abs_of_pos h] at f1 f2 ⊢
    set F := rnd (1 + rnd (b - a)) with hF
    have d1 : (2 : ℝ) ^ (-1000 : ℤ) ≤ l * F := by nlinarith
    have c1 : Close 1 (rnd (l * F)) (l * F) := (Close.refl (l * F)).rnd (not_tiny d1 (by norm_num))
    have c2 := c1.div (Close.refl F)
    rw [mul_div_cancel_right₀ l (by linarith)] at c2
    exact c2.rnd (not_tiny_close c2 (by norm_num) h0 (by norm_num))

/-- **C181** (there and back): a length taken from one strain to another and back again comes back to within 2^-51 of
itself.  Missing for the full claim: the very same length, see `C181_back_fails`. -/
theorem C181_back_partial {l a b : ℝ} (h0 : 2 ^ (-1000 : ℤ) ≤ l) (hab : |b - a| ≤ 1) :
    |Double.lengthFinish (Double.lengthFinish l a b) b a - l| ≤ 2 ^ (-51 : ℤ) * l := by
  have l0 : 0 < l := (two_zpow_pos _).trans_le h0
  have := (back_close h0 hab).error (by norm_num)
  rw [abs_of_pos l0] at this
  refine this.trans (mul_le_mul_of_nonneg_right ?_ l0.le)
  unfold u; norm_num

/-- **C181** (there and back fails exactly): a length of 1024 - 2^-43 strained by 2^-12 and relaxed by the same strain
comes back as 1024 - 2^-42. -/
theorem C181_back_fails : IsDouble (1024 - 2 ^ (-43 : ℤ)) ∧
    Double.lengthFinish (Double.lengthFinish (1024 - 2 ^ (-43 : ℤ)) 0 (2 ^ (-12 : ℤ))) (2 ^ (-12 : ℤ)) 0 =
      1024 - 2 ^ (-42 : ℤ) := by
  have r1 : rnd ((2 : ℝ) ^ (-12 : ℤ)) = 2 ^ (-12 : ℤ) := rnd_of_isDouble (isDouble_two_zpow (by norm_num))
  have r2 : rnd (-(2 : ℝ) ^ (-12 : ℤ)) = -2 ^ (-12 : ℤ) := by rw [rnd_neg, r1]
  have r3 : rnd (1 + (2 : ℝ) ^ (-12 : ℤ)) = 1 + 2 ^ (-12 : ℤ) := by
    refine (rnd_eq (2 ^ 52 + 2 ^ 40) (-52) ?_ ?_ ?_ ?_).trans ?_ <;> norm_num [abs_of_pos, abs_lt]
  have r4 : rnd ((1024 - (2 : ℝ) ^ (-43 : ℤ)) * (1 + 2 ^ (-12 : ℤ))) = (2 ^ 52 + 2 ^ 40 - 1) * 2 ^ (-42 : ℤ) := by
    refine (rnd_eq (2 ^ 52 + 2 ^ 40 - 1) (-42) ?_ ?_ ?_ ?_).trans ?_ <;> norm_num [abs_of_pos, abs_lt]
  have r5 : rnd ((2 ^ 52 + 2 ^ 40 - 1) * (2 : ℝ) ^ (-42 : ℤ) / (1 + 2 ^ (-12 : ℤ))) = 1024 - 2 ^ (-42 : ℤ) := by
    refine (rnd_eq (2 ^ 53 - 2) (-43) ?_ ?_ ?_ ?_).trans ?_ <;> norm_num [abs_of_pos, abs_lt]
  refine ⟨⟨2 ^ 53 - 1, -43, by norm_num, by norm_num, by norm_num⟩, ?_⟩
  rw [lengthFinish_nonneg_case (l := 1024 - 2 ^ (-43 : ℤ)) (by rw [sub_zero, r1]; positivity), sub_zero, r1, r3, r4,
    lengthFinish_neg_case (by rw [zero_sub, r2, neg_lt_zero]; positivity), zero_sub, r2, abs_neg,
    abs_of_pos (two_zpow_pos _), r3, r5]

/-! ## C182: wave times -/

/-- **C182** (order): the time of more return waves is never shorter, a longer cable never takes less time and a faster
wave never takes more; times are not negative. -/
theorem C182_order {l l' v v' : ℝ} {n m : ℤ} (hn : 0 ≤ n) (hnm : n ≤ m) (hl : 0 ≤ l) (hll : l ≤ l') (hv : 0 < v')
    (hvv : v' ≤ v) : 0 ≤ Double.timeReturn l v n ∧ Double.timeReturn l v n ≤ Double.timeReturn l' v' m := by
  have h1 : (0 : ℝ) ≤ ((n * 2 : ℤ) : ℝ) := by exact_mod_cast (by omega : 0 ≤ n * 2)
  have h2 : ((n * 2 : ℤ) : ℝ) ≤ ((m * 2 : ℤ) : ℝ) := by exact_mod_cast (by omega : n * 2 ≤ m * 2)
  have h3 : rnd (((n * 2 : ℤ) : ℝ) * l) ≤ rnd (((m * 2 : ℤ) : ℝ) * l') := rnd_mono (by nlinarith)
  have h4 : 0 ≤ rnd (((n * 2 : ℤ) : ℝ) * l) := rnd_nonneg (by positivity)
  exact ⟨rnd_nonneg (div_nonneg h4 (hv.trans_le hvv).le), rnd_mono (div_le_div₀ (h4.trans h3) h3 hv hvv)⟩

theorem gravity_close {s : UnitSystem} {g : ℝ} (h : StopwatchSagger.gravity s = some g) :
    Close 2 (Double.gravity s) g ∧ 8 ≤ g ∧ g ≤ 64 := by
  cases s with
  | null => simp [StopwatchSagger.gravity] at h
  | imperial =>
    have e : g = 1 / 0.0310810 := by simpa [StopwatchSagger.gravity] using h.symm
    subst e
    have c1 : Close 1 (rnd 0.0310810) 0.0310810 := (Close.refl _).rnd (not_tiny (e := -6) (by norm_num) (by norm_num))
    have c2 := (Close.refl 1).div c1
    exact ⟨c2.rnd (not_tiny_close c2 (by norm_num) (e := 0) (by norm_num) (by norm_num)), by norm_num, by norm_num⟩
  | metric =>
    have e : g = 1 / 0.101972 := by simpa [StopwatchSagger.gravity] using h.symm
    subst e
    have c1 : Close 1 (rnd 0.101972) 0.101972 := (Close.refl _).rnd (not_tiny (e := -6) (by norm_num) (by norm_num))
    have c2 := (Close.refl 1).div c1
    exact ⟨c2.rnd (not_tiny_close c2 (by norm_num) (e := 0) (by norm_num) (by norm_num)), by norm_num, by norm_num⟩

theorem velocity_close {s : UnitSystem} {g c : ℝ} (h : StopwatchSagger.gravity s = some g) (hc : 2 ^ (-500 : ℤ) ≤ c) :
    Close 4 (Double.velocityWave s c) √(g * c) := by
  obtain ⟨cg, hg, _⟩ := gravity_close h
  have c0 : 0 < c := (two_zpow_pos _).trans_le hc
  have c1 := cg.mul (Close.refl c)
  have b : (2 : ℝ) ^ (-500 : ℤ) ≤ g * c := by nlinarith
  have c2 := c1.rnd (not_tiny_close c1 (by norm_num) b (by norm_num))
  exact rnd_sqrt_close c2 (by norm_num) (.inr ((two_zpow_le (by norm_num)).trans b))

theorem time_close {k : ℕ} (hk : k ≤ 1000) {l v w : ℝ} {n : ℤ} (hn : 1 ≤ n) (hl : 2 ^ (-300 : ℤ) ≤ l) (hv : Close k v w)
    (w0 : 0 < w) (hw : w ≤ 2 ^ (300 : ℤ)) : Close (k + 2) (Double.timeReturn l v n) (n * (2 * l / w)) := by
  have l0 : 0 < l := (two_zpow_pos _).trans_le hl
  have hn' : (1 : ℝ) ≤ n := by exact_mod_cast hn
  have e : ((n * 2 : ℤ) : ℝ) = n * 2 := by push_cast; ring
  have b : (2 : ℝ) ^ (-300 : ℤ) ≤ ((n * 2 : ℤ) : ℝ) * l := by rw [e]; nlinarith
  have c1 := (Close.refl (((n * 2 : ℤ) : ℝ) * l)).rnd (not_tiny b (by norm_num))
  have c2 := c1.div hv
  have c3 := c2.rnd (not_tiny_close c2 (by omega) (zpow_div_le b w0 hw) (by norm_num))
  have e' : ((n * 2 : ℤ) : ℝ) * l / w = n * (2 * l / w) := by rw [e]; ring
  rw [e'] at c3
  exact c3.mono (by omega)

/-- **C182** (accuracy): the time of `n` return waves is that of the exact formula, 2 `n` times the length divided by
the square root of gravity times H/w, to within 2^-49 of it. -/
theorem C182_accuracy {s : UnitSystem} {g c l : ℝ} {n : ℤ} (h : StopwatchSagger.gravity s = some g)
    (hc : 2 ^ (-500 : ℤ) ≤ c) (hc' : c ≤ 2 ^ (500 : ℤ)) (hl : 2 ^ (-300 : ℤ) ≤ l) (hn : 1 ≤ n) :
    |Double.timeReturn l (Double.velocityWave s c) n - ((n * 2 : ℤ) : ℝ) * l / √(g * c)| ≤
      2 ^ (-49 : ℤ) * (((n * 2 : ℤ) : ℝ) * l / √(g * c)) := by
  obtain ⟨_, hg, hg'⟩ := gravity_close h
  have c0 : 0 < c := (two_zpow_pos _).trans_le hc
  have l0 : 0 < l := (two_zpow_pos _).trans_le hl
  have hn' : (1 : ℝ) ≤ n := by exact_mod_cast hn
  have w0 : 0 < √(g * c) := Real.sqrt_pos.mpr (by positivity)
  have hw : √(g * c) ≤ 2 ^ (300 : ℤ) := by
    rw [Real.sqrt_le_left (two_zpow_pos _).le]
    have e1 : ((2 : ℝ) ^ (300 : ℤ)) ^ 2 = 2 ^ (500 : ℤ) * 2 ^ (100 : ℤ) := by
      rw [← zpow_natCast, ← zpow_mul, ← zpow_add₀ (by norm_num)]; norm_num
    have e2 : (64 : ℝ) ≤ 2 ^ (100 : ℤ) := by norm_num
    rw [e1]
    have : g * c ≤ 2 ^ (100 : ℤ) * 2 ^ (500 : ℤ) := mul_le_mul (hg'.trans e2) hc' c0.le (two_zpow_pos _).le
    linarith
  have e : ((n * 2 : ℤ) : ℝ) * l / √(g * c) = n * (2 * l / √(g * c)) := by push_cast; ring
  rw [e]
  have p : 0 ≤ n * (2 * l / √(g * c)) := by positivity
  have := (time_close (by norm_num) hn hl (velocity_close h hc) w0 hw).error (by norm_num)
  rw [abs_of_nonneg p] at this
  refine this.trans (mul_le_mul_of_nonneg_right ?_ p)
  unfold u; norm_num

/-- **C182** (proportion): the time of `n` waves is `n` times that of one to within 2^-50 of it, and never zero. -/
theorem C182_proportion {l v : ℝ} {n : ℤ} (hn : 1 ≤ n) (hl : 2 ^ (-300 : ℤ) ≤ l) (hv : 0 < v) (hv' : v ≤ 2 ^ (300 : ℤ)) :
    0 < Double.timeReturn l v n ∧
    |Double.timeReturn l v n - n * Double.timeReturn l v 1| ≤ 2 ^ (-50 : ℤ) * (n * Double.timeReturn l v 1) := by
  have l0 : 0 < l := (two_zpow_pos _).trans_le hl
  have hn' : (1 : ℝ) ≤ n := by exact_mod_cast hn
  have c1 := time_close (by norm_num) hn hl (Close.refl v) hv hv'
  have c2 := time_close (by norm_num) le_rfl hl (Close.refl v) hv hv'
  rw [Int.cast_one, one_mul] at c2
  have p : 0 < 2 * l / v := by positivity
  have pos : ∀ m : ℤ, 1 ≤ m → 0 < Double.timeReturn l v m := by
    intro m hm
    have c := time_close (by norm_num) hm hl (Close.refl v) hv hv'
    have hm' : (1 : ℝ) ≤ m := by exact_mod_cast hm
    refine lt_of_le_of_ne (C182_order (by omega) le_rfl l0.le le_rfl hv le_rfl).1 (fun h0 => ?_)
    have := c.zero_iff.mp h0.symm
    have : 0 < (m : ℝ) * (2 * l / v) := by positivity
    linarith
  have c3 := c1.trans ((Close.refl (n : ℝ)).mul c2).symm
  have q : 0 ≤ n * Double.timeReturn l v 1 := mul_nonneg (by linarith) (pos 1 le_rfl).le
  have := c3.error (by norm_num)
  rw [abs_of_nonneg q] at this
  refine ⟨pos n hn, this.trans (mul_le_mul_of_nonneg_right ?_ q)⟩
  unfold u; norm_num

/-! ## Concrete inputs -/

/-- A cable of 1/8 ft and 1 lb/ft under 1/16 ft of ice at 56 lb/ft^3 and 4 psf of wind. -/
example : ∃ v, (⟨some (1 / 8), some 1⟩ : UnitLoadSolver).unitCableLoad ⟨56, 4, 0, 1 / 16⟩ = .val v ∧ 1 < v.z ∧ 0 < v.y ∧
    IsDouble (1 / 8 : ℝ) ∧ (2 : ℝ) ^ (-300 : ℤ) ≤ 1 / 8 ∧ IsDouble (1 : ℝ) ∧ (2 : ℝ) ^ (-1000 : ℤ) ≤ 1 ∧
    IsDouble (1 / 16 : ℝ) ∧ (2 : ℝ) ^ (-700 : ℤ) ≤ 4 ∧ roundedLibrary.SquaresMono := by
  refine ⟨_, rfl, ?_, by norm_num, ⟨1, -3, by norm_num, by norm_num, by norm_num⟩,
    (two_zpow_le (b := -3) (by norm_num)).trans (by norm_num), isDouble_one,
    (two_zpow_le (b := 0) (by norm_num)).trans (by norm_num), ⟨1, -4, by norm_num, by norm_num, by norm_num⟩,
    (two_zpow_le (b := 0) (by norm_num)).trans (by norm_num), roundedLibrary_squares⟩
  norm_num [Cylinder.volume, Cylinder.areaCrossSection, Units.kPi]

/-- A span of 1000 and strains of 0 and 2^-10. -/
example : (2 : ℝ) ^ (-1000 : ℤ) ≤ 1000 ∧ IsDouble (0 : ℝ) ∧ IsDouble ((2 : ℝ) ^ (-10 : ℤ)) ∧
    |(2 : ℝ) ^ (-10 : ℤ) - 0| ≤ 1 ∧ 1000 < CableStrainer.elongate 1000 0 (2 ^ (-10 : ℤ)) := by
  refine ⟨(two_zpow_le (b := 0) (by norm_num)).trans (by norm_num), isDouble_zero, isDouble_two_zpow (by norm_num),
    by norm_num, ?_⟩
  unfold CableStrainer.elongate
  norm_num

/-- Three waves on 1000 ft of cable with H/w of 5000 ft. -/
example : StopwatchSagger.gravity .imperial = some (1 / 0.0310810) ∧ (2 : ℝ) ^ (-500 : ℤ) ≤ 5000 ∧
    (5000 : ℝ) ≤ 2 ^ (500 : ℤ) ∧ (2 : ℝ) ^ (-300 : ℤ) ≤ 1000 ∧ (1 : ℤ) ≤ 3 :=
  ⟨rfl, (two_zpow_le (b := 0) (by norm_num)).trans (by norm_num), le_trans (by norm_num) (two_zpow_le (a := 20) (by norm_num)),
    (two_zpow_le (b := 0) (by norm_num)).trans (by norm_num), by norm_num⟩

end Verif.Props
