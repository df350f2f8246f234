import Verif.DoubleLine
import Verif.Props.DoubleVector
import Verif.Props.DoubleSun
import Verif.DoubleFiniteLemmas
import Mathlib.Analysis.SpecialFunctions.Complex.Circle

/-!
# C188: the coordinates of alignment points in double arithmetic
-/

set_option linter.unusedSectionVars false

namespace Verif.Props

open Verif.Double Real

namespace Traverse

/-- A vector of the plane as a complex number. -/
noncomputable def toC (v : V2) : ℂ := ⟨v.x, v.y⟩

theorem norm_toC (v : V2) : ‖toC v‖ = v.magnitude := by
  rw [Complex.norm_eq_sqrt_sq_add_sq]; rfl

theorem norm_le_add (z : ℂ) : ‖z‖ ≤ |z.re| + |z.im| := Complex.norm_le_abs_re_add_abs_im z

/-- The length of a vector that is not extremely short. -/
theorem magnitude_near (L : Library) {v : V2} (hx : IsDouble v.x) (hy : IsDouble v.y) (h : (2 : ℝ) ^ (-400 : ℤ) ≤ ‖toC v‖) :
    |Double.magnitude L v - ‖toC v‖| ≤ 8 * u * ‖toC v‖ := by
  have hu0 := u_pos
  have hu := u_small
  set r := ‖toC v‖ with hr
  have hr2 : v.x ^ 2 + v.y ^ 2 = r ^ 2 := by
    rw [hr, norm_toC]
    exact (Real.sq_sqrt (by positivity)).symm
  have hr0 : 0 < r := (two_zpow_pos _).trans_le h
  have f1 := (L.pow_faithful v.x 2 hx (.inr (by norm_num))).error_le
  have f2 := (L.pow_faithful v.y 2 hy (.inr (by norm_num))).error_le
  have n1 := (L.pow_faithful v.x 2 hx (.inr (by norm_num))).nonneg (by positivity)
  have n2 := (L.pow_faithful v.y 2 hy (.inr (by norm_num))).nonneg (by positivity)
  have d1 := (L.pow_faithful v.x 2 hx (.inr (by norm_num))).1
  have d2 := (L.pow_faithful v.y 2 hy (.inr (by norm_num))).1
  have e2 : ∀ a : ℝ, a ^ (2 : ℤ) = a ^ 2 := fun a => by norm_cast
  rw [e2, abs_of_nonneg (sq_nonneg v.x)] at f1
  rw [e2, abs_of_nonneg (sq_nonneg v.y)] at f2
  have f1' := abs_le.mp f1
  have f2' := abs_le.mp f2
  have tiny : (2 : ℝ) ^ (-1074 : ℤ) ≤ u / 4 * r ^ 2 := by
    have a : (2 : ℝ) ^ (-800 : ℤ) ≤ r ^ 2 := by
      have := pow_le_pow_left₀ (two_zpow_pos _).le h 2
      rwa [← zpow_natCast, ← zpow_mul, show (-400 * ((2 : ℕ) : ℤ)) = -800 by norm_num] at this
    have b : (2 : ℝ) ^ (-1074 : ℤ) ≤ 2 ^ (-55 : ℤ) * 2 ^ (-800 : ℤ) := by
      rw [← zpow_add₀ (by norm_num)]; exact two_zpow_le (by norm_num)
    have c : u / 4 = (2 : ℝ) ^ (-55 : ℤ) := by unfold u; norm_num
    rw [c]
    exact b.trans (mul_le_mul_of_nonneg_left a (two_zpow_pos _).le)
  generalize (2 : ℝ) ^ (-1074 : ℤ) = η at *
  unfold Double.magnitude
  have s := abs_le.mp (rnd_add_relative d1 d2)
  rw [abs_of_nonneg (by linarith)] at s
  generalize L.pow v.x 2 = a at *
  generalize L.pow v.y 2 = b at *
  have ab1 : a + b ≤ (1 + 2.5 * u) * r ^ 2 := by nlinarith
  have ab2 : (1 - 2.5 * u) * r ^ 2 ≤ a + b := by nlinarith
  have r2 : 0 < r ^ 2 := by positivity
  have c1 : rnd (a + b) ≤ (1 + 4 * u) * r ^ 2 := by
    have : u * (a + b) ≤ u * ((1 + 2.5 * u) * r ^ 2) := mul_le_mul_of_nonneg_left ab1 hu0.le
    nlinarith [mul_pos hu0 r2]
  have c2 : (1 - 4 * u) * r ^ 2 ≤ rnd (a + b) := by
    have : u * (a + b) ≤ u * ((1 + 2.5 * u) * r ^ 2) := mul_le_mul_of_nonneg_left ab1 hu0.le
    nlinarith [mul_pos hu0 r2]
  have t1 : √(rnd (a + b)) ≤ (1 + 4 * u) * r := by
    rw [Real.sqrt_le_left (by positivity)]
    refine c1.trans ?_
    nlinarith [mul_pos hu0 r2]
  have t2 : (1 - 4 * u) * r ≤ √(rnd (a + b)) := by
    apply Real.le_sqrt_of_sq_le
    refine le_trans ?_ c2
    have : 0 < 1 - 4 * u := by linarith
    nlinarith [mul_pos hu0 r2]
  have t0 : (2 : ℝ) ^ (-1022 : ℤ) ≤ |√(rnd (a + b))| := by
    rw [abs_of_nonneg (Real.sqrt_nonneg _)]
    refine le_trans ?_ t2
    have h1 : (2 : ℝ) ^ (-401 : ℤ) ≤ (1 - 4 * u) * r := by
      have e : (2 : ℝ) ^ (-400 : ℤ) = 2 ^ (-401 : ℤ) * 2 := by rw [← zpow_add_one₀ (by norm_num)]; norm_num
      rw [e] at h
      nlinarith
    exact (two_zpow_le (by norm_num)).trans h1
  have t := abs_le.mp (rnd_relative t0)
  rw [abs_of_nonneg (Real.sqrt_nonneg _)] at t
  rw [abs_le]
  constructor <;> nlinarith [mul_pos hu0 hr0]

/-- The angle of a rotation in radians; rotations by less than 0.00005 degrees are left out. -/
noncomputable def turn (r : ℝ) : ℝ := open Classical in if |r| < rnd 0.00005 then 0 else r * π / 180

theorem toRadians_near (L : SunLibrary) {a : ℝ} (ha : |a| ≤ 721) : |Sun.toRadians L a - a * (Units.kPi / 180)| ≤ 60 * u := by
  have hu0 := u_pos
  have hu := u_small
  rw [toRadians_eq]
  have h := rnd_error_le (a * ((5030569068109108 : ℤ) * (2 : ℝ) ^ (-58 : ℤ)))
  have ht := tiny_le_u.2
  generalize (2 : ℝ) ^ (-1075 : ℤ) = η at *
  have e : |((5030569068109108 : ℤ) : ℝ) * (2 : ℝ) ^ (-58 : ℤ) - Units.kPi / 180| ≤ u / 30 := by
    unfold Units.kPi u
    rw [abs_le]; constructor <;> norm_num
  have e1 : |((5030569068109108 : ℤ) : ℝ) * (2 : ℝ) ^ (-58 : ℤ)| ≤ 0.0175 := by
    rw [abs_le]; constructor <;> norm_num
  generalize ((5030569068109108 : ℤ) : ℝ) * (2 : ℝ) ^ (-58 : ℤ) = c at *
  have h1 : |a * c - a * (Units.kPi / 180)| ≤ 721 * (u / 30) := by
    rw [← mul_sub, abs_mul]; exact mul_le_mul ha e (abs_nonneg _) (by norm_num)
  have h2 : |a * c| ≤ 721 * 0.0175 := by
    rw [abs_mul]; exact mul_le_mul ha e1 (abs_nonneg _) (by norm_num)
  have h3 : u * |a * c| ≤ u * (721 * 0.0175) := mul_le_mul_of_nonneg_left h2 hu0.le
  rw [abs_le] at *
  constructor <;> linarith

theorem product_near {M m c C : ℝ} (h : (2 : ℝ) ^ (-300 : ℤ) ≤ m) (hm : |M - m| ≤ 8 * u * m) (hc : |c - C| ≤ 3 * u)
    (c1 : |c| ≤ 1) (_ : |C| ≤ 1) : |rnd (M * c) - m * C| ≤ 0.3e-13 * m := by
  have hu0 := u_pos
  have hu := u_small
  have h0 : 0 < m := (two_zpow_pos _).trans_le h
  have h1 := rnd_error_le (M * c)
  have hη : (2 : ℝ) ^ (-1075 : ℤ) ≤ u * m := by
    have b : (2 : ℝ) ^ (-1075 : ℤ) ≤ 2 ^ (-53 : ℤ) * 2 ^ (-300 : ℤ) := by
      rw [← zpow_add₀ (by norm_num)]; exact two_zpow_le (by norm_num)
    exact b.trans (mul_le_mul_of_nonneg_left h (two_zpow_pos _).le)
  clear h
  generalize (2 : ℝ) ^ (-1075 : ℤ) = η at *
  have h5 : u * m ≤ 1e-15 * m := mul_le_mul_of_nonneg_right (by linarith) h0.le
  have hM : |M| ≤ 2 * m := by
    rw [abs_le] at hm ⊢; constructor <;> linarith [hm.1, hm.2]
  have h2 : |M * c| ≤ 2 * m := by
    rw [abs_mul]
    calc |M| * |c| ≤ 2 * m * 1 := mul_le_mul hM c1 (abs_nonneg _) (by positivity)
      _ = _ := by ring
  have h3 : |M * c - m * C| ≤ 8 * u * m + m * (3 * u) := by
    have : M * c - m * C = (M - m) * c + m * (c - C) := by ring
    rw [this]
    refine (abs_add_le _ _).trans (add_le_add ?_ ?_)
    · rw [abs_mul]
      calc |M - m| * |c| ≤ 8 * u * m * 1 := mul_le_mul hm c1 (abs_nonneg _) (by positivity)
        _ = _ := by ring
    · rw [abs_mul, abs_of_pos h0]; exact mul_le_mul_of_nonneg_left hc h0.le
  have h4 := mul_le_mul_of_nonneg_left h2 hu0.le
  have h6 : |rnd (M * c) - M * c| ≤ 3 * (u * m) := by linarith
  have h7 := abs_sub_le (rnd (M * c)) (M * c) (m * C)
  linarith

/-- A rotation. -/
theorem rotate_near (L : SunLibrary) {v : V2} (hx : IsDouble v.x) (hy : IsDouble v.y)
    (h : (2 : ℝ) ^ (-300 : ℤ) ≤ ‖toC v‖) {r : ℝ} (hr : |r| ≤ 360) :
    IsDouble (Course.rotate L v r).x ∧ IsDouble (Course.rotate L v r).y ∧
    ‖toC (Course.rotate L v r) - toC v * Complex.exp (turn r * Complex.I)‖ ≤ 1.5e-13 * ‖toC v‖ := by
  have hu0 := u_pos
  have hu := u_small
  have h0 : 0 < ‖toC v‖ := (two_zpow_pos _).trans_le h
  unfold Course.rotate turn
  split
  · refine ⟨hx, hy, ?_⟩
    simp only [Complex.ofReal_zero, zero_mul, Complex.exp_zero, mul_one, sub_self, norm_zero]
    positivity
  refine ⟨rnd_isDouble _, rnd_isDouble _, ?_⟩
  have hv : ¬ (v.x = 0 ∧ v.y = 0) := by
    rintro ⟨h1, h2⟩
    rw [norm_toC] at h0
    unfold V2.magnitude at h0
    rw [h1, h2] at h0
    norm_num at h0
  obtain ⟨a0, a1, φ, k, hk0, hk2, hφ, ex, ey⟩ := v.angle_spec hv
  have hm := magnitude_near L.toLibrary hx hy ((two_zpow_le (by norm_num)).trans h)
  have ha := (C178_accuracy L.toLibrary v hv).1
  have hv' : toC v = ‖toC v‖ * Complex.exp (φ * Complex.I) := by
    rw [norm_toC]
    apply Complex.ext
    · simp only [toC, Complex.re_ofReal_mul, Complex.exp_ofReal_mul_I_re]; exact ex
    · simp only [toC, Complex.im_ofReal_mul, Complex.exp_ofReal_mul_I_im]; exact ey
  set m := ‖toC v‖ with hmdef
  have goal2 : toC v * Complex.exp ((r * π / 180 : ℝ) * Complex.I) = m * Complex.exp ((φ + r * π / 180 : ℝ) * Complex.I) := by
    rw [hv', mul_assoc, ← Complex.exp_add]
    push_cast
    ring_nf
  rw [goal2]
  -- the angle
  have hsum : |rnd (Double.angle L.toLibrary v + r) - (Double.angle L.toLibrary v + r)| ≤ 722 * u := by
    have h1 := rnd_error_le (Double.angle L.toLibrary v + r)
    have h2 : |Double.angle L.toLibrary v + r| ≤ 720.5 := by
      rw [abs_le] at ha hr ⊢; constructor <;> linarith
    have ht := tiny_le_u.2
    generalize (2 : ℝ) ^ (-1075 : ℤ) = η at *
    have h3 := mul_le_mul_of_nonneg_left h2 hu0.le
    linarith
  have hbig : |rnd (Double.angle L.toLibrary v + r)| ≤ 721 := by
    rw [abs_le] at ha hr hsum ⊢; constructor <;> linarith
  have hrad := toRadians_near L hbig
  set t := Sun.toRadians L (rnd (Double.angle L.toLibrary v + r)) with ht
  have htd : IsDouble t := toRadians_double L _
  have hpi1 := kPi_lt_pi
  have hpi2 := pi_sub_kPi
  have hk1 : 0 < Units.kPi / 180 ∧ Units.kPi / 180 ≤ 0.0175 := by unfold Units.kPi; constructor <;> norm_num
  have hang : |t - (φ + r * π / 180)| ≤ 4.5e-14 := by
    have e1 : φ + r * π / 180 = (v.angle + r) * (Units.kPi / 180) + (k + r / 180) * (π - Units.kPi) := by
      rw [hφ, Verif.toRadians_eq]; ring
    have e2 : |(k + r / 180) * (π - Units.kPi)| ≤ 4 * 4e-15 := by
      rw [abs_mul, abs_of_pos (a := π - Units.kPi) (by linarith)]
      have hb : |k + r / 180| ≤ 4 := by
        rw [abs_le] at hr ⊢; constructor <;> linarith [hr.1, hr.2]
      exact mul_le_mul hb hpi2.le (by linarith) (by norm_num)
    have e3 : |rnd (Double.angle L.toLibrary v + r) * (Units.kPi / 180) - (v.angle + r) * (Units.kPi / 180)|
        ≤ (1e-12 + 722 * u) * 0.0175 := by
      rw [← sub_mul, abs_mul, abs_of_pos hk1.1]
      refine mul_le_mul ?_ hk1.2 hk1.1.le (by positivity)
      rw [abs_le] at ha hsum ⊢; constructor <;> linarith
    rw [e1]
    rw [abs_le] at e2 e3 hrad ⊢
    constructor <;> linarith
  have hcs := V2.polar_near m t (φ + r * π / 180) h0.le
  have key := fun c C hc c1 C1 => product_near (M := Double.magnitude L.toLibrary v) h hm (c := c) (C := C) hc c1 C1
  have kc := key (L.cos t) (Real.cos t) (lib_cos_near L htd) (lib_cos_le L htd) (Real.abs_cos_le_one t)
  have ks := key (L.sin t) (Real.sin t) (lib_sin_near L htd) (lib_sin_le L htd) (Real.abs_sin_le_one t)
  have bound := mul_le_mul_of_nonneg_left hang h0.le
  refine (norm_le_add _).trans ?_
  have re : (toC ⟨rnd (Double.magnitude L.toLibrary v * L.cos t), rnd (Double.magnitude L.toLibrary v * L.sin t)⟩ -
      m * Complex.exp ((φ + r * π / 180 : ℝ) * Complex.I)).re =
      rnd (Double.magnitude L.toLibrary v * L.cos t) - m * Real.cos (φ + r * π / 180) := by
    rw [Complex.sub_re, Complex.re_ofReal_mul, Complex.exp_ofReal_mul_I_re]; rfl
  have im : (toC ⟨rnd (Double.magnitude L.toLibrary v * L.cos t), rnd (Double.magnitude L.toLibrary v * L.sin t)⟩ -
      m * Complex.exp ((φ + r * π / 180 : ℝ) * Complex.I)).im =
      rnd (Double.magnitude L.toLibrary v * L.sin t) - m * Real.sin (φ + r * π / 180) := by
    rw [Complex.sub_im, Complex.im_ofReal_mul, Complex.exp_ofReal_mul_I_im]; rfl
  dsimp only
  rw [re, im]
  have p : |rnd (Double.magnitude L.toLibrary v * L.cos t) - m * Real.cos (φ + r * π / 180)| ≤ 0.75e-13 * m := by
    have := hcs.1
    rw [abs_le] at kc this ⊢
    constructor <;> linarith [kc.1, kc.2, this.1, this.2]
  have q : |rnd (Double.magnitude L.toLibrary v * L.sin t) - m * Real.sin (φ + r * π / 180)| ≤ 0.75e-13 * m := by
    have := hcs.2
    rw [abs_le] at ks this ⊢
    constructor <;> linarith [ks.1, ks.2, this.1, this.2]
  linarith

/-- The direction of a vector, a complex number of absolute value 1. -/
noncomputable def dir (z : ℂ) : ℂ := z / (‖z‖ : ℂ)

theorem norm_dir {z : ℂ} (h : 0 < ‖z‖) : ‖dir z‖ = 1 := by
  unfold dir
  rw [norm_div, Complex.norm_real, norm_norm, div_self h.ne']

theorem dir_near {a b : ℂ} {ε : ℝ} (hb : 0 < ‖b‖) (h : ‖a - b‖ ≤ ε * ‖b‖) : ‖dir a - dir b‖ ≤ 2 * ε := by
  have e1 : ‖(a - b) / (‖b‖ : ℂ)‖ ≤ ε := by
    rw [norm_div, Complex.norm_real, norm_norm, div_le_iff₀ hb]; exact h
  have hbC : (‖b‖ : ℂ) ≠ 0 := by exact_mod_cast hb.ne'
  rcases (norm_nonneg a).eq_or_lt with h0 | h0
  · have : a = 0 := norm_eq_zero.mp h0.symm
    subst this
    have e2 : ‖(0 - b) / (‖b‖ : ℂ)‖ = 1 := by
      rw [zero_sub, norm_div, norm_neg, Complex.norm_real, norm_norm, div_self hb.ne']
    have e3 : dir 0 - dir b = (0 - b) / (‖b‖ : ℂ) := by unfold dir; simp [neg_div]
    rw [e3]
    linarith
  have haC : (‖a‖ : ℂ) ≠ 0 := by exact_mod_cast h0.ne'
  have e : dir a - dir b = a * ((‖b‖ - ‖a‖ : ℝ) / (‖a‖ * ‖b‖ : ℝ) : ℂ) + (a - b) / (‖b‖ : ℂ) := by
    unfold dir
    push_cast
    field_simp
    ring
  rw [e]
  refine (norm_add_le _ _).trans ?_
  have e2 : ‖a * ((‖b‖ - ‖a‖ : ℝ) / (‖a‖ * ‖b‖ : ℝ) : ℂ)‖ ≤ ε := by
    rw [norm_mul, norm_div, Complex.norm_real, Complex.norm_real, Real.norm_eq_abs, Real.norm_eq_abs,
      abs_of_pos (mul_pos h0 hb)]
    have h1 : |‖b‖ - ‖a‖| ≤ ε * ‖b‖ := by
      rw [abs_sub_comm]
      exact (abs_norm_sub_norm_le a b).trans h
    have : ‖a‖ * (|‖b‖ - ‖a‖| / (‖a‖ * ‖b‖)) = |‖b‖ - ‖a‖| / ‖b‖ := by field_simp
    rw [this, div_le_iff₀ hb]
    exact h1
  linarith

/-- Scaling a vector to a given length. -/
theorem scale_near (L : Library) {v : V2} (hx : IsDouble v.x) (hy : IsDouble v.y)
    (h1 : (2 : ℝ) ^ (-200 : ℤ) ≤ ‖toC v‖) (h2 : ‖toC v‖ ≤ 2 ^ (400 : ℤ)) {d : ℝ} (d1 : (2 : ℝ) ^ (-101 : ℤ) ≤ d)
    (d2 : d ≤ 2 ^ (399 : ℤ)) :
    ‖toC (Course.scale v (rnd (d / Double.magnitude L v))) - d * dir (toC v)‖ ≤ 16 * u * d := by
  have hu0 := u_pos
  have hu := u_small
  have hm := magnitude_near L hx hy ((two_zpow_le (by norm_num)).trans h1)
  have hz : 0 < ‖toC v‖ := (two_zpow_pos _).trans_le h1
  have hd : 0 < d := (two_zpow_pos _).trans_le d1
  have hηd : (2 : ℝ) ^ (-1075 : ℤ) ≤ u * d := by
    have b : (2 : ℝ) ^ (-1075 : ℤ) ≤ 2 ^ (-53 : ℤ) * 2 ^ (-101 : ℤ) := by
      rw [← zpow_add₀ (by norm_num)]; exact two_zpow_le (by norm_num)
    exact b.trans (mul_le_mul_of_nonneg_left d1 (two_zpow_pos _).le)
  set m := ‖toC v‖ with hmdef
  set M := Double.magnitude L v with hM
  have hM1 : (1 - 8 * u) * m ≤ M := by have := (abs_le.mp hm).1; linarith
  have hM2 : M ≤ (1 + 8 * u) * m := by have := (abs_le.mp hm).2; linarith
  have hM0 : 0 < M := lt_of_lt_of_le (mul_pos (by linarith) hz) hM1
  -- the quotient is an ordinary number
  have q0 : (2 : ℝ) ^ (-1022 : ℤ) ≤ |d / M| := by
    rw [abs_of_pos (by positivity), le_div_iff₀ hM0]
    have hM3 : M ≤ 2 * 2 ^ (400 : ℤ) := by
      have : u * m ≤ 1e-15 * m := mul_le_mul_of_nonneg_right (by linarith) hz.le
      exact (show M ≤ 2 * m by linarith).trans (mul_le_mul_of_nonneg_left h2 (by norm_num))
    calc (2 : ℝ) ^ (-1022 : ℤ) * M ≤ 2 ^ (-1022 : ℤ) * (2 * 2 ^ (400 : ℤ)) :=
          mul_le_mul_of_nonneg_left hM3 (two_zpow_pos _).le
      _ = (2 : ℝ) ^ (-621 : ℤ) := by rw [mul_comm 2, ← zpow_add_one₀ (by norm_num), ← zpow_add₀ (by norm_num)]; norm_num
      _ ≤ 2 ^ (-101 : ℤ) := two_zpow_le (by norm_num)
      _ ≤ d := d1
  have f := rnd_relative q0
  rw [abs_of_pos (by positivity : 0 < d / M)] at f
  set g := rnd (d / M) with hg
  have hMz : |d / M - d / m| ≤ 8.5 * u * (d / m) := by
    have e : d / M - d / m = (d / m) * ((m - M) / M) := by field_simp
    rw [e, abs_mul, abs_of_pos (by positivity : 0 < d / m), mul_comm]
    refine mul_le_mul_of_nonneg_right ?_ (by positivity)
    rw [abs_div, abs_of_pos hM0, div_le_iff₀ hM0, abs_sub_comm]
    refine hm.trans ?_
    have : 8.5 * u * ((1 - 8 * u) * m) ≤ 8.5 * u * M := mul_le_mul_of_nonneg_left hM1 (by linarith)
    refine le_trans ?_ this
    nlinarith [mul_pos hu0 hz]
  have hdm : 0 < d / m := by positivity
  have hgm : |g - d / m| ≤ 10 * u * (d / m) := by
    have a1 : d / M ≤ (1 + 8.5 * u) * (d / m) := by have := (abs_le.mp hMz).2; linarith
    have a2 : u * (d / M) ≤ u * ((1 + 8.5 * u) * (d / m)) := mul_le_mul_of_nonneg_left a1 hu0.le
    have a3 := abs_sub_le g (d / M) (d / m)
    nlinarith [mul_pos hu0 hdm]
  have hg0 : |g| ≤ 1.5 * (d / m) := by
    have := abs_le.mp hgm
    rw [abs_le]; constructor <;> nlinarith [this.1, this.2]
  -- the components
  have comp : ∀ x : ℝ, |x| ≤ m → |rnd (x * g) - x * g| ≤ 3 * u * d := by
    intro x hxm
    have h := rnd_error_le (x * g)
    have : |x * g| ≤ 1.5 * d := by
      rw [abs_mul]
      calc |x| * |g| ≤ m * (1.5 * (d / m)) := mul_le_mul hxm hg0 (abs_nonneg _) hz.le
        _ = 1.5 * d := by field_simp
    have h' := mul_le_mul_of_nonneg_left this hu0.le
    generalize (2 : ℝ) ^ (-1075 : ℤ) = η at *
    have : 0 < u * d := by positivity
    linarith
  have cx := comp v.x (Complex.abs_re_le_norm (toC v))
  have cy := comp v.y (Complex.abs_im_le_norm (toC v))
  have e : toC (Course.scale v g) - d * dir (toC v) =
      (toC (Course.scale v g) - toC v * (g : ℂ)) + toC v * ((g - d / m : ℝ) : ℂ) := by
    unfold dir
    rw [← hmdef]
    push_cast
    ring
  rw [e]
  refine (norm_add_le _ _).trans ?_
  have n1 : ‖toC (Course.scale v g) - toC v * (g : ℂ)‖ ≤ 6 * u * d := by
    refine (norm_le_add _).trans ?_
    have : (toC (Course.scale v g) - toC v * (g : ℂ)).re = rnd (v.x * g) - v.x * g := by
      rw [Complex.sub_re, Complex.re_mul_ofReal]; rfl
    rw [this]
    have : (toC (Course.scale v g) - toC v * (g : ℂ)).im = rnd (v.y * g) - v.y * g := by
      rw [Complex.sub_im, Complex.im_mul_ofReal]; rfl
    rw [this]
    linarith
  have n2 : ‖toC v * ((g - d / m : ℝ) : ℂ)‖ ≤ 10 * u * d := by
    rw [norm_mul, Complex.norm_real, Real.norm_eq_abs]
    calc ‖toC v‖ * |g - d / m| ≤ m * (10 * u * (d / m)) := mul_le_mul_of_nonneg_left hgm hz.le
      _ = 10 * u * d := by field_simp
  linarith

/-- One step: the vector to the next point. -/
theorem step_near (L : SunLibrary) {v : V2} (hx : IsDouble v.x) (hy : IsDouble v.y)
    (h1 : (2 : ℝ) ^ (-102 : ℤ) ≤ ‖toC v‖) (h2 : ‖toC v‖ ≤ 2 ^ (399 : ℤ)) {d r : ℝ} (hr : |r| ≤ 360)
    (d1 : (2 : ℝ) ^ (-101 : ℤ) ≤ d) (d2 : d ≤ 2 ^ (399 : ℤ)) {w : V2}
    (hw : w = Course.scale (Course.rotate L v r) (rnd (d / Double.magnitude L.toLibrary (Course.rotate L v r)))) :
    ‖toC w - d * (dir (toC v) * Complex.exp (turn r * Complex.I))‖ ≤ 3.1e-13 * d ∧
    ‖dir (toC w) - dir (toC v) * Complex.exp (turn r * Complex.I)‖ ≤ 3.1e-13 ∧ |‖toC w‖ - d| ≤ 16 * u * d := by
  have hu0 := u_pos
  have hu := u_small
  have hz : 0 < ‖toC v‖ := (two_zpow_pos _).trans_le h1
  have hd : 0 < d := (two_zpow_pos _).trans_le d1
  obtain ⟨dx, dy, hrot⟩ := rotate_near L hx hy ((two_zpow_le (by norm_num)).trans h1) hr
  have ne : ‖Complex.exp (turn r * Complex.I)‖ = 1 := Complex.norm_exp_ofReal_mul_I _
  have nz : ‖toC v * Complex.exp (turn r * Complex.I)‖ = ‖toC v‖ := by rw [norm_mul, ne, mul_one]
  have dz : dir (toC v * Complex.exp (turn r * Complex.I)) = dir (toC v) * Complex.exp (turn r * Complex.I) := by
    unfold dir; rw [nz]; ring
  set z1 := toC (Course.rotate L v r) with hz1
  have hdir : ‖dir z1 - dir (toC v) * Complex.exp (turn r * Complex.I)‖ ≤ 3e-13 := by
    rw [← dz]
    have := dir_near (a := z1) (b := toC v * Complex.exp (turn r * Complex.I)) (ε := 1.5e-13) (by rw [nz]; exact hz)
      (by rw [nz]; exact hrot)
    refine this.trans (by norm_num)
  have n1 : |‖z1‖ - ‖toC v‖| ≤ 1.5e-13 * ‖toC v‖ := by
    rw [← nz]
    refine (abs_norm_sub_norm_le _ _).trans ?_
    rw [nz]; exact hrot
  have n1' := abs_le.mp n1
  have lo : (2 : ℝ) ^ (-200 : ℤ) ≤ ‖z1‖ := by
    have e : (2 : ℝ) ^ (-103 : ℤ) * 2 = 2 ^ (-102 : ℤ) := by rw [← zpow_add_one₀ (by norm_num)]; norm_num
    rw [← e] at h1
    have : (2 : ℝ) ^ (-103 : ℤ) ≤ ‖z1‖ := by
      generalize (2 : ℝ) ^ (-103 : ℤ) = q at *
      linarith [n1'.1]
    exact (two_zpow_le (by norm_num)).trans this
  have hi : ‖z1‖ ≤ 2 ^ (400 : ℤ) := by
    have e : (2 : ℝ) ^ (399 : ℤ) * 2 = 2 ^ (400 : ℤ) := by rw [← zpow_add_one₀ (by norm_num)]; norm_num
    rw [← e]
    exact (show ‖z1‖ ≤ ‖toC v‖ * 2 by linarith [n1'.2]).trans (mul_le_mul_of_nonneg_right h2 (by norm_num))
  have hz1p : 0 < ‖z1‖ := (two_zpow_pos _).trans_le lo
  have hs := scale_near L.toLibrary dx dy lo hi d1 d2
  rw [← hw, ← hz1] at hs
  have nd : ‖(d : ℂ) * dir z1‖ = d := by
    rw [norm_mul, norm_dir hz1p, Complex.norm_real, Real.norm_eq_abs, abs_of_pos hd, mul_one]
  have dd : dir ((d : ℂ) * dir z1) = dir z1 := by
    have : (d : ℂ) ≠ 0 := by exact_mod_cast hd.ne'
    rw [dir, nd]
    field_simp
  have hud : u * d ≤ 1e-15 * d := mul_le_mul_of_nonneg_right (by linarith) hd.le
  refine ⟨?_, ?_, ?_⟩
  · have e : toC w - d * (dir (toC v) * Complex.exp (turn r * Complex.I)) =
        (toC w - d * dir z1) + d * (dir z1 - dir (toC v) * Complex.exp (turn r * Complex.I)) := by ring
    rw [e]
    refine (norm_add_le _ _).trans ?_
    rw [norm_mul, Complex.norm_real, Real.norm_eq_abs, abs_of_pos hd]
    have := mul_le_mul_of_nonneg_left hdir hd.le
    nlinarith
  · have h := dir_near (a := toC w) (b := (d : ℂ) * dir z1) (ε := 16 * u) (by rw [nd]; exact hd) (by rw [nd]; exact hs)
    rw [dd] at h
    have e : dir (toC w) - dir (toC v) * Complex.exp (turn r * Complex.I) =
        (dir (toC w) - dir z1) + (dir z1 - dir (toC v) * Complex.exp (turn r * Complex.I)) := by ring
    rw [e]
    refine (norm_add_le _ _).trans ?_
    linarith
  · have := abs_norm_sub_norm_le (toC w) ((d : ℂ) * dir z1)
    rw [nd] at this
    exact this.trans hs

variable (L : SunLibrary) (al : ℕ → AlignmentPoint ℝ) (origin : P3)

/-- The points and vectors one after the other. -/
noncomputable def st : ℕ → P3 × V2
  | 0 => (origin, ⟨1, 0⟩)
  | k + 1 => Course.fromVector L (st k).1 (rnd ((al (k + 1)).station - (al k).station))
      (rnd ((al (k + 1)).elevation - (al k).elevation)) (al k).rotation (st k).2

theorem loop_eq (m : ℕ) : ∀ k, Course.alignmentLoop L (al k) (st L al origin k).1 (st L al origin k).2
    ((List.range' (k + 1) m).map al) = (List.range' (k + 1) m).map fun j => (st L al origin j).1 := by
  induction m with
  | zero => intro k; rfl
  | succ m ih =>
    intro k
    rw [List.range'_succ, List.map_cons, List.map_cons, Course.alignmentLoop]
    exact congrArg₂ _ rfl (ih (k + 1))

theorem points_eq (n : ℕ) : Course.pointsAlignment L origin ((List.range (n + 1)).map al) =
    (List.range (n + 1)).map fun k => (st L al origin k).1 := by
  rw [List.range_eq_range', List.range'_succ, List.map_cons, List.map_cons, Course.pointsAlignment]
  exact congrArg₂ _ rfl (loop_eq L al origin n 0)

theorem point_at {n k : ℕ} (h : k ≤ n) :
    (Course.pointsAlignment L origin ((List.range (n + 1)).map al))[k]? = some (st L al origin k).1 := by
  rw [points_eq, List.getElem?_map, List.getElem?_range (by omega)]
  rfl

/-- The direction in which the alignment leaves point `k`, in radians from that in which it reaches the first: the
sum of the rotations up to this point, each left out if it is less than 0.00005 degrees. -/
noncomputable def heading (k : ℕ) : ℝ := ∑ l ∈ Finset.range (k + 1), turn (al l).rotation

/-- Where point `k` is: from the origin, go along each segment by the difference of stations. -/
noncomputable def place (k : ℕ) : ℂ := toC ⟨origin.x, origin.y⟩ +
  ∑ j ∈ Finset.range k, (((al (j + 1)).station - (al j).station : ℝ) : ℂ) * Complex.exp (heading al j * Complex.I)

/-- What is assumed of the alignment: all numbers are doubles, rotations are valid, and stations increase by
something that is neither extremely small nor extremely large. -/
structure Regular (n : ℕ) : Prop where
  origin_x : IsDouble origin.x
  origin_y : IsDouble origin.y
  origin_z : IsDouble origin.z
  station : ∀ k ≤ n, IsDouble (al k).station
  elevation : ∀ k ≤ n, IsDouble (al k).elevation
  rotation : ∀ k ≤ n, |(al k).rotation| ≤ 360
  near : ∀ k < n, (2 : ℝ) ^ (-100 : ℤ) ≤ (al (k + 1)).station - (al k).station
  far : ∀ k < n, (al (k + 1)).station - (al k).station ≤ 2 ^ (398 : ℤ)
  count : n ≤ 10 ^ 11

/-- What holds after `k` points. -/
structure Inv (k : ℕ) : Prop where
  px : IsDouble (st L al origin k).1.x
  py : IsDouble (st L al origin k).1.y
  vx : IsDouble (st L al origin k).2.x
  vy : IsDouble (st L al origin k).2.y
  lo : (2 : ℝ) ^ (-102 : ℤ) ≤ ‖toC (st L al origin k).2‖
  hi : ‖toC (st L al origin k).2‖ ≤ 2 ^ (399 : ℤ)
  dir : ‖dir (toC (st L al origin k).2) -
    Complex.exp ((∑ l ∈ Finset.range k, turn (al l).rotation : ℝ) * Complex.I)‖ ≤ k * 3.1e-13
  near : ‖toC ⟨(st L al origin k).1.x, (st L al origin k).1.y⟩ - place al origin k‖ ≤
    k * (4e-13 * ((al k).station - (al 0).station) +
      5 * u * (‖toC ⟨origin.x, origin.y⟩‖ + ((al k).station - (al 0).station)))

variable {L al origin} {n : ℕ}

theorem Regular.mono (h : Regular al origin n) : ∀ k ≤ n, (al 0).station ≤ (al k).station := by
  intro k
  induction k with
  | zero => intro _; exact le_rfl
  | succ k ih =>
    intro hk
    have := (two_zpow_pos (-100)).trans_le (h.near k (by omega))
    linarith [ih (by omega)]

theorem Regular.place_le (h : Regular al origin n) : ∀ k ≤ n, ‖place al origin k‖ ≤
    ‖toC ⟨origin.x, origin.y⟩‖ + ((al k).station - (al 0).station) := by
  intro k
  induction k with
  | zero => intro _; unfold place; simp
  | succ k ih =>
    intro hk
    have hp := (two_zpow_pos (-100)).trans_le (h.near k (by omega))
    have e : place al origin (k + 1) = place al origin k +
        (((al (k + 1)).station - (al k).station : ℝ) : ℂ) * Complex.exp (heading al k * Complex.I) := by
      unfold place; rw [Finset.sum_range_succ]; ring
    rw [e]
    refine (norm_add_le _ _).trans ?_
    rw [norm_mul, Complex.norm_exp_ofReal_mul_I, Complex.norm_real, Real.norm_eq_abs, abs_of_pos hp]
    linarith [ih (by omega)]

/-- Rounding both coordinates of a sum of points with coordinates that are doubles. -/
theorem sum_near {a b c d : ℝ} (ha : IsDouble a) (hb : IsDouble b) (hc : IsDouble c) (hd : IsDouble d) :
    ‖toC ⟨rnd (a + c), rnd (b + d)⟩ - (toC ⟨a, b⟩ + toC ⟨c, d⟩)‖ ≤ 2 * u * ‖toC ⟨a, b⟩ + toC ⟨c, d⟩‖ := by
  have hu0 := u_pos
  refine (norm_le_add _).trans ?_
  have h1 : |rnd (a + c) - (a + c)| ≤ u * ‖toC ⟨a, b⟩ + toC ⟨c, d⟩‖ :=
    (rnd_add_relative ha hc).trans (mul_le_mul_of_nonneg_left (Complex.abs_re_le_norm (toC ⟨a, b⟩ + toC ⟨c, d⟩)) hu0.le)
  have h2 : |rnd (b + d) - (b + d)| ≤ u * ‖toC ⟨a, b⟩ + toC ⟨c, d⟩‖ :=
    (rnd_add_relative hb hd).trans (mul_le_mul_of_nonneg_left (Complex.abs_im_le_norm (toC ⟨a, b⟩ + toC ⟨c, d⟩)) hu0.le)
  have e1 : (toC ⟨rnd (a + c), rnd (b + d)⟩ - (toC ⟨a, b⟩ + toC ⟨c, d⟩)).re = rnd (a + c) - (a + c) := rfl
  have e2 : (toC ⟨rnd (a + c), rnd (b + d)⟩ - (toC ⟨a, b⟩ + toC ⟨c, d⟩)).im = rnd (b + d) - (b + d) := rfl
  rw [e1, e2]
  linarith

/-- One segment: the vector and how far the point is. -/
theorem segment (h : Regular al origin n) {k : ℕ} (hk : k < n) (i : Inv L al origin k) :
    (2 : ℝ) ^ (-102 : ℤ) ≤ ‖toC (st L al origin (k + 1)).2‖ ∧ ‖toC (st L al origin (k + 1)).2‖ ≤ 2 ^ (399 : ℤ) ∧
    ‖dir (toC (st L al origin (k + 1)).2) - Complex.exp (heading al k * Complex.I)‖ ≤ ((k + 1 : ℕ) : ℝ) * 3.1e-13 ∧
    ‖toC (st L al origin (k + 1)).2 -
      (((al (k + 1)).station - (al k).station : ℝ) : ℂ) * Complex.exp (heading al k * Complex.I)‖ ≤
      ((al (k + 1)).station - (al k).station) * (((k + 1 : ℕ) : ℝ) * 3.1e-13 + 2 * u) ∧
    ‖toC ⟨(st L al origin (k + 1)).1.x, (st L al origin (k + 1)).1.y⟩ -
      (toC ⟨(st L al origin k).1.x, (st L al origin k).1.y⟩ + toC (st L al origin (k + 1)).2)‖ ≤
      4 * u * (‖toC ⟨origin.x, origin.y⟩‖ + ((al (k + 1)).station - (al 0).station)) := by
  have hu0 := u_pos
  have hu := u_small
  have hn1 := h.near k hk
  have hf1 := h.far k hk
  set D := (al (k + 1)).station - (al k).station with hD
  have hD0 : 0 < D := (two_zpow_pos _).trans_le hn1
  have hd := rnd_sub_relative (h.station (k + 1) hk) (h.station k hk.le)
  rw [← hD, abs_of_pos hD0] at hd
  set d := rnd D with hdd
  have hd' := abs_le.mp hd
  have huD : u * D ≤ 1e-15 * D := mul_le_mul_of_nonneg_right (by linarith) hD0.le
  have d1 : (2 : ℝ) ^ (-101 : ℤ) ≤ d := by
    have e : (2 : ℝ) ^ (-101 : ℤ) * 2 = 2 ^ (-100 : ℤ) := by rw [← zpow_add_one₀ (by norm_num)]; norm_num
    rw [← e] at hn1
    generalize (2 : ℝ) ^ (-101 : ℤ) = q at *
    linarith [hd'.1]
  have e2 : (2 : ℝ) ^ (398 : ℤ) * 2 = 2 ^ (399 : ℤ) := by rw [← zpow_add_one₀ (by norm_num)]; norm_num
  have d2' : d ≤ D * 1.5 := by linarith [hd'.2]
  have d2 : d ≤ 2 ^ (399 : ℤ) := by
    rw [← e2]
    exact (show d ≤ D * 2 by linarith).trans (mul_le_mul_of_nonneg_right hf1 (by norm_num))
  have hd0 : 0 < d := (two_zpow_pos _).trans_le d1
  have hw : (st L al origin (k + 1)).2 = Course.scale (Course.rotate L (st L al origin k).2 (al k).rotation)
      (rnd (d / Double.magnitude L.toLibrary (Course.rotate L (st L al origin k).2 (al k).rotation))) := rfl
  obtain ⟨s1, s2, s3⟩ := step_near L i.vx i.vy i.lo i.hi (h.rotation k hk.le) d1 d2 hw
  have wx : IsDouble (st L al origin (k + 1)).2.x := by rw [hw]; exact rnd_isDouble _
  have wy : IsDouble (st L al origin (k + 1)).2.y := by rw [hw]; exact rnd_isDouble _
  have s3' := abs_le.mp s3
  have hud : u * d ≤ 1e-15 * d := mul_le_mul_of_nonneg_right (by linarith) hd0.le
  have he : Complex.exp (heading al k * Complex.I) =
      Complex.exp ((∑ l ∈ Finset.range k, turn (al l).rotation : ℝ) * Complex.I) *
        Complex.exp (turn (al k).rotation * Complex.I) := by
    rw [← Complex.exp_add, heading, Finset.sum_range_succ]
    push_cast
    ring_nf
  have hv0 : 0 < ‖toC (st L al origin k).2‖ := (two_zpow_pos _).trans_le i.lo
  have ne : ‖Complex.exp (turn (al k).rotation * Complex.I)‖ = 1 := Complex.norm_exp_ofReal_mul_I _
  have nE : ‖Complex.exp (heading al k * Complex.I)‖ = 1 := Complex.norm_exp_ofReal_mul_I _
  set w := toC (st L al origin (k + 1)).2 with hwd
  set v := toC (st L al origin k).2 with hvd
  set E0 := Complex.exp ((∑ l ∈ Finset.range k, turn (al l).rotation : ℝ) * Complex.I) with hE0
  set t := Complex.exp (turn (al k).rotation * Complex.I) with ht
  have ndv : ‖dir v * t‖ = 1 := by rw [norm_mul, norm_dir hv0, ne, mul_one]
  have hdir0 : ‖dir v * t - E0 * t‖ ≤ k * 3.1e-13 := by
    rw [← sub_mul, norm_mul, ne, mul_one]; exact i.dir
  have hcast : ((k + 1 : ℕ) : ℝ) = k + 1 := by push_cast; ring
  have hwlo : (2 : ℝ) ^ (-102 : ℤ) ≤ ‖w‖ := by
    have e : (2 : ℝ) ^ (-102 : ℤ) * 2 = 2 ^ (-101 : ℤ) := by rw [← zpow_add_one₀ (by norm_num)]; norm_num
    rw [← e] at d1
    generalize (2 : ℝ) ^ (-102 : ℤ) = q at *
    linarith [s3'.1]
  have hwD : ‖w‖ ≤ D * 2 := by linarith [s3'.2]
  have hS := h.mono k hk.le
  refine ⟨hwlo, ?_, ?_, ?_, ?_⟩
  · rw [← e2]
    exact hwD.trans (mul_le_mul_of_nonneg_right hf1 (by norm_num))
  · rw [he, hcast]
    have := norm_sub_le_norm_sub_add_norm_sub (dir w) (dir v * t) (E0 * t)
    linarith
  · have e : w - (D : ℂ) * Complex.exp (heading al k * Complex.I) =
        (w - d * (dir v * t)) + ((d - D : ℝ) : ℂ) * (dir v * t) + (D : ℂ) * (dir v * t - E0 * t) := by
      rw [he]; push_cast; ring
    rw [e, hcast]
    refine (norm_add_le _ _).trans ?_
    refine (add_le_add_left (norm_add_le _ _) _).trans ?_
    rw [norm_mul _ (dir v * t), norm_mul _ (dir v * t - E0 * t), ndv, Complex.norm_real, Complex.norm_real, Real.norm_eq_abs, Real.norm_eq_abs,
      abs_of_pos hD0, mul_one]
    have a := mul_le_mul_of_nonneg_left hdir0 hD0.le
    have hdu : 3.1e-13 * d ≤ 3.1e-13 * (D + u * D) := mul_le_mul_of_nonneg_left (by linarith [hd'.2]) (by norm_num)
    have : 0 < u * D := by positivity
    linarith
  · have a := sum_near i.px i.py wx wy
    refine le_trans a ?_
    have b := norm_add_le (toC ⟨(st L al origin k).1.x, (st L al origin k).1.y⟩) w
    have c := h.place_le k hk.le
    have e : ‖toC ⟨(st L al origin k).1.x, (st L al origin k).1.y⟩‖ ≤ ‖place al origin k‖ +
        ‖toC ⟨(st L al origin k).1.x, (st L al origin k).1.y⟩ - place al origin k‖ := by
      have := norm_add_le (place al origin k) (toC ⟨(st L al origin k).1.x, (st L al origin k).1.y⟩ - place al origin k)
      rwa [add_sub_cancel] at this
    have f := i.near
    have hS' : (al (k + 1)).station - (al 0).station = ((al k).station - (al 0).station) + D := by rw [hD]; ring
    rw [hS']
    have hO := norm_nonneg (toC ⟨origin.x, origin.y⟩)
    generalize ‖toC ⟨origin.x, origin.y⟩‖ = O at *
    have hS0 : 0 ≤ (al k).station - (al 0).station := by linarith
    generalize (al k).station - (al 0).station = S at *
    have hkk : (k : ℝ) ≤ 1e11 := by
      have : (k : ℝ) ≤ (10 ^ 11 : ℕ) := by exact_mod_cast hk.le.trans h.count
      refine this.trans (by norm_num)
    have g : k * (4e-13 * S + 5 * u * (O + S)) ≤ 0.5 * (O + S) := by
      have g1 : 4e-13 * S + 5 * u * (O + S) ≤ 1e-12 * (O + S) := by
        have : u * (O + S) ≤ 1e-15 * (O + S) := mul_le_mul_of_nonneg_right (by linarith) (by linarith)
        linarith
      have g2 : k * (4e-13 * S + 5 * u * (O + S)) ≤ 1e11 * (1e-12 * (O + S)) :=
        mul_le_mul hkk g1 (by positivity) (by norm_num)
      linarith
    have l : ‖toC ⟨(st L al origin k).1.x, (st L al origin k).1.y⟩ + w‖ ≤ 2 * (O + (S + D)) := by linarith
    have := mul_le_mul_of_nonneg_left l (by positivity : 0 ≤ 2 * u)
    linarith

theorem inv (L : SunLibrary) (h : Regular al origin n) : ∀ k ≤ n, Inv L al origin k := by
  intro k
  induction k with
  | zero =>
    intro _
    have e : toC (st L al origin 0).2 = 1 := rfl
    refine ⟨h.origin_x, h.origin_y, isDouble_one, isDouble_zero, ?_, ?_, ?_, ?_⟩
    · rw [e, norm_one]; exact_mod_cast (two_zpow_le (by norm_num : (-102 : ℤ) ≤ 0)).trans (by norm_num)
    · rw [e, norm_one]
      have := two_zpow_le (by norm_num : (0 : ℤ) ≤ 399)
      rwa [zpow_zero] at this
    · rw [e]; simp [dir]
    · simp [st, place]
  | succ k ih =>
    intro hk
    have i := ih (by omega)
    have hkn : k < n := by omega
    obtain ⟨s1, s2, s3, s4, s5⟩ := segment h hkn i
    refine ⟨rnd_isDouble _, rnd_isDouble _, rnd_isDouble _, rnd_isDouble _, s1, s2, s3, ?_⟩
    have e : place al origin (k + 1) = place al origin k +
        (((al (k + 1)).station - (al k).station : ℝ) : ℂ) * Complex.exp (heading al k * Complex.I) := by
      unfold place; rw [Finset.sum_range_succ]; ring
    rw [e]
    have hu0 := u_pos
    have hD0 := (two_zpow_pos (-100)).trans_le (h.near k hkn)
    have hS := h.mono k hkn.le
    set p' := toC ⟨(st L al origin (k + 1)).1.x, (st L al origin (k + 1)).1.y⟩ with hp'
    set p := toC ⟨(st L al origin k).1.x, (st L al origin k).1.y⟩ with hp
    set w := toC (st L al origin (k + 1)).2
    set z := (((al (k + 1)).station - (al k).station : ℝ) : ℂ) * Complex.exp (heading al k * Complex.I)
    have f := i.near
    rw [← hp] at f
    have e2 : p' - (place al origin k + z) = (p' - (p + w)) + (p - place al origin k) + (w - z) := by ring
    rw [e2]
    refine (norm_add_le _ _).trans ((add_le_add_left (norm_add_le _ _) _).trans ?_)
    have hS' : (al (k + 1)).station - (al 0).station =
      ((al k).station - (al 0).station) + ((al (k + 1)).station - (al k).station) := by ring
    rw [hS'] at s5 ⊢
    have hO := norm_nonneg (toC ⟨origin.x, origin.y⟩)
    generalize ‖toC ⟨origin.x, origin.y⟩‖ = O at *
    have hS0 : 0 ≤ (al k).station - (al 0).station := by linarith
    generalize (al k).station - (al 0).station = S at *
    generalize (al (k + 1)).station - (al k).station = D at *
    have hcast : ((k + 1 : ℕ) : ℝ) = k + 1 := by push_cast; ring
    rw [hcast] at s4 ⊢
    have hk0 : (0 : ℝ) ≤ k := Nat.cast_nonneg k
    have a1 : 0 ≤ k * (u * D) := by positivity
    have a2 : 0 ≤ k * D := by positivity
    have a3 : 0 ≤ u * (O + S) := by positivity
    have a4 : 0 < u * D := by positivity
    have hu := u_small
    have a5 : u * D ≤ 1e-15 * D := mul_le_mul_of_nonneg_right (by linarith) hD0.le
    linarith

end Traverse

open Traverse

/-- The coordinates of alignment points are where they should be. -/
theorem C188_points_partial (L : SunLibrary) (al : ℕ → AlignmentPoint ℝ) (origin : P3) (n : ℕ) (h : Regular al origin n)
    (k : ℕ) (hk : k ≤ n) :
    ∃ p, (Course.pointsAlignment L origin ((List.range (n + 1)).map al))[k]? = some p ∧
      ‖(⟨p.x, p.y⟩ : ℂ) - place al origin k‖ ≤
        k * (5e-13 * ((al k).station - (al 0).station) + 1e-15 * √(origin.x ^ 2 + origin.y ^ 2)) := by
  refine ⟨_, point_at L al origin hk, ((inv L h k hk).near).trans ?_⟩
  have hu0 := u_pos
  have hu := u_small
  have hS := h.mono k hk
  have e : ‖toC ⟨origin.x, origin.y⟩‖ = √(origin.x ^ 2 + origin.y ^ 2) := norm_toC _
  rw [e]
  have hO := Real.sqrt_nonneg (origin.x ^ 2 + origin.y ^ 2)
  refine mul_le_mul_of_nonneg_left ?_ (Nat.cast_nonneg k)
  generalize √(origin.x ^ 2 + origin.y ^ 2) = O at *
  have hS0 : 0 ≤ (al k).station - (al 0).station := by linarith
  generalize (al k).station - (al 0).station = S at *
  have : 5 * u * (O + S) ≤ 1e-15 * (O + S) := mul_le_mul_of_nonneg_right (by linarith) (by linarith)
  linarith

/-- So are their elevations, however the stations are. -/
theorem C188_elevation (L : SunLibrary) (al : ℕ → AlignmentPoint ℝ) (origin : P3) (n : ℕ) (hz : IsDouble origin.z)
    (he : ∀ k ≤ n, IsDouble (al k).elevation) (hn : n ≤ 10 ^ 11) {H : ℝ}
    (hH : ∀ k ≤ n, |origin.z + ((al k).elevation - (al 0).elevation)| ≤ H) (k : ℕ) (hk : k ≤ n) :
    ∃ p, (Course.pointsAlignment L origin ((List.range (n + 1)).map al))[k]? = some p ∧
      |p.z - (origin.z + ((al k).elevation - (al 0).elevation))| ≤ k * (5e-16 * H) := by
  refine ⟨_, point_at L al origin hk, ?_⟩
  have hu0 := u_pos
  have hu := u_small
  have hH0 : 0 ≤ H := (abs_nonneg _).trans (hH 0 (by omega))
  have key : ∀ k ≤ n, IsDouble (st L al origin k).1.z ∧
      |(st L al origin k).1.z - (origin.z + ((al k).elevation - (al 0).elevation))| ≤ k * (4 * u * H) := by
    intro k
    induction k with
    | zero => intro _; exact ⟨hz, by simp [st]⟩
    | succ k ih =>
      intro hk
      obtain ⟨i1, i2⟩ := ih (by omega)
      refine ⟨rnd_isDouble _, ?_⟩
      have a := rnd_sub_relative (he (k + 1) hk) (he k (by omega))
      have b := rnd_add_relative i1 (rnd_isDouble ((al (k + 1)).elevation - (al k).elevation))
      have h1 := hH (k + 1) hk
      have h0 := hH k (by omega)
      show |rnd ((st L al origin k).1.z + rnd ((al (k + 1)).elevation - (al k).elevation)) - _| ≤ _
      have hkk : (k : ℝ) ≤ 1e11 := by
        have : (k : ℝ) ≤ (10 ^ 11 : ℕ) := by exact_mod_cast (by omega : k ≤ 10 ^ 11)
        refine this.trans (by norm_num)
      have huH : u * H ≤ H / 9000000000000000 := by
        have := mul_le_mul_of_nonneg_right hu.le hH0; linarith
      have i3 : k * (4 * u * H) ≤ 0.1 * H := by
        have : k * (4 * u * H) ≤ 1e11 * (4 * u * H) := mul_le_mul_of_nonneg_right hkk (by positivity)
        linarith
      have hdh : |(al (k + 1)).elevation - (al k).elevation| ≤ 2 * H := by
        rw [abs_le] at h1 h0 ⊢; constructor <;> linarith [h1.1, h1.2, h0.1, h0.2]
      have a' := a.trans (mul_le_mul_of_nonneg_left hdh hu0.le)
      have hsum : |(st L al origin k).1.z + rnd ((al (k + 1)).elevation - (al k).elevation)| ≤ 1.2 * H := by
        rw [abs_le] at a' i2 h1 ⊢; constructor <;> linarith [a'.1, a'.2, i2.1, i2.2, h1.1, h1.2]
      have b' := b.trans (mul_le_mul_of_nonneg_left hsum hu0.le)
      push_cast
      have : 0 ≤ u * H := by positivity
      rw [abs_le] at a' b' i2 ⊢
      constructor <;> linarith [a'.1, a'.2, i2.1, i2.2, b'.1, b'.2]
  refine ((key k hk).2).trans (mul_le_mul_of_nonneg_left ?_ (Nat.cast_nonneg k))
  have := mul_le_mul_of_nonneg_right hu.le hH0
  linarith

/-- The unit vector along a segment that is not extremely short when compared with how far the alignment is from
the origin of coordinates. -/
theorem C188_segment_partial (L : SunLibrary) (al : ℕ → AlignmentPoint ℝ) (origin : P3) (n : ℕ) (h : Regular al origin n)
    (k : ℕ) (hk : k < n)
    (hshort : √(origin.x ^ 2 + origin.y ^ 2) + ((al (k + 1)).station - (al 0).station) ≤
      1e14 * ((al (k + 1)).station - (al k).station)) :
    ∃ p q v, (Course.pointsAlignment L origin ((List.range (n + 1)).map al))[k]? = some p ∧
      (Course.pointsAlignment L origin ((List.range (n + 1)).map al))[k + 1]? = some q ∧
      Course.vectorSegment L p q = some v ∧
      ‖(⟨v.x, v.y⟩ : ℂ) - Complex.exp (heading al k * Complex.I)‖ ≤ (k + 1) * 7e-13 +
        2e-15 * ((√(origin.x ^ 2 + origin.y ^ 2) + ((al (k + 1)).station - (al 0).station)) /
          ((al (k + 1)).station - (al k).station)) := by
  have hu0 := u_pos
  have hu := u_small
  have i := inv L h k hk.le
  obtain ⟨-, -, -, s4, s5⟩ := segment h hk i
  have hnear := h.near k hk
  have hfar := h.far k hk
  have hD0 := (two_zpow_pos (-100)).trans_le hnear
  have hS := h.mono (k + 1) hk
  have e : ‖toC ⟨origin.x, origin.y⟩‖ = √(origin.x ^ 2 + origin.y ^ 2) := norm_toC _
  rw [e] at s5
  have hO := Real.sqrt_nonneg (origin.x ^ 2 + origin.y ^ 2)
  set D := (al (k + 1)).station - (al k).station with hD
  set Q := √(origin.x ^ 2 + origin.y ^ 2) + ((al (k + 1)).station - (al 0).station) with hQ
  have hQ0 : 0 ≤ Q := by rw [hQ]; linarith
  set p := (st L al origin k).1 with hp
  set q := (st L al origin (k + 1)).1 with hq
  set w := toC (st L al origin (k + 1)).2 with hw
  set E := Complex.exp (heading al k * Complex.I) with hE
  have nE : ‖E‖ = 1 := Complex.norm_exp_ofReal_mul_I _
  have hcast : ((k + 1 : ℕ) : ℝ) = k + 1 := by push_cast; ring
  rw [hcast] at s4
  have hk0 : (0 : ℝ) ≤ k := Nat.cast_nonneg k
  have hkk : (k : ℝ) + 1 ≤ 1e11 := by
    have : ((k + 1 : ℕ) : ℝ) ≤ (10 ^ 11 : ℕ) := by exact_mod_cast (Nat.succ_le_of_lt hk).trans h.count
    rw [hcast] at this
    refine this.trans (by norm_num)
  have nDE : ‖(D : ℂ) * E‖ = D := by
    rw [norm_mul, nE, Complex.norm_real, Real.norm_eq_abs, abs_of_pos hD0, mul_one]
  -- the rounded difference
  set v : V2 := ⟨rnd (q.x - p.x), rnd (q.y - p.y)⟩ with hv
  have hqx : IsDouble q.x := rnd_isDouble _
  have hqy : IsDouble q.y := rnd_isDouble _
  have d0 : ‖toC v - (toC ⟨q.x, q.y⟩ - toC ⟨p.x, p.y⟩)‖ ≤ 2 * u * ‖toC ⟨q.x, q.y⟩ - toC ⟨p.x, p.y⟩‖ := by
    have := sum_near hqx hqy i.px.neg i.py.neg
    have e1 : toC ⟨-(st L al origin k).1.x, -(st L al origin k).1.y⟩ = - toC ⟨p.x, p.y⟩ := rfl
    rw [e1, ← sub_eq_add_neg, ← sub_eq_add_neg, ← sub_eq_add_neg] at this
    exact this
  have d1 : ‖toC ⟨q.x, q.y⟩ - toC ⟨p.x, p.y⟩ - D * E‖ ≤ D * ((k + 1) * 3.1e-13 + 2 * u) + 4 * u * Q := by
    have e1 : toC ⟨q.x, q.y⟩ - toC ⟨p.x, p.y⟩ - D * E = (toC ⟨q.x, q.y⟩ - (toC ⟨p.x, p.y⟩ + w)) + (w - D * E) := by ring
    rw [e1]
    refine (norm_add_le _ _).trans ?_
    linarith
  have huQ : u * Q ≤ 1e14 * D / 9000000000000000 := by
    have h1 := mul_le_mul_of_nonneg_left hshort hu0.le
    have h2 := mul_le_mul_of_nonneg_right hu.le (by positivity : (0 : ℝ) ≤ 1e14 * D)
    linarith
  have hkD : D * ((k + 1) * 3.1e-13) ≤ D * 0.031 := mul_le_mul_of_nonneg_left (by linarith) hD0.le
  have huD : u * D ≤ D / 9000000000000000 := by
    have h2 := mul_le_mul_of_nonneg_right hu.le hD0.le
    linarith
  have d2 : ‖toC ⟨q.x, q.y⟩ - toC ⟨p.x, p.y⟩‖ ≤ 2 * D := by
    have := norm_add_le (toC ⟨q.x, q.y⟩ - toC ⟨p.x, p.y⟩ - D * E) (D * E)
    rw [sub_add_cancel, nDE] at this
    linarith
  have d3 : ‖toC v - D * E‖ ≤ D * ((k + 1) * 3.1e-13 + 6 * u) + 4 * u * Q := by
    have := norm_sub_le_norm_sub_add_norm_sub (toC v) (toC ⟨q.x, q.y⟩ - toC ⟨p.x, p.y⟩) (D * E)
    have h1 := mul_le_mul_of_nonneg_left d2 (by positivity : 0 ≤ 2 * u)
    linarith
  set ε := (k + 1) * 3.1e-13 + 6 * u + 4 * u * (Q / D) with hε
  have d4 : ‖toC v - D * E‖ ≤ ε * ‖(D : ℂ) * E‖ := by
    rw [nDE]
    refine d3.trans (le_of_eq ?_)
    rw [hε]; field_simp
  have hQD : u * (Q / D) ≤ 1e14 / 9000000000000000 := by
    rw [← mul_div_assoc, div_le_iff₀ hD0]; linarith
  have hε2 : ε ≤ 0.1 := by rw [hε]; linarith
  have d5 := dir_near (by rw [nDE]; exact hD0) d4
  have dDE : dir ((D : ℂ) * E) = E := by
    have : (D : ℂ) ≠ 0 := by exact_mod_cast hD0.ne'
    rw [dir, nDE]; field_simp
  rw [dDE] at d5
  have nv : |‖toC v‖ - D| ≤ 0.1 * D := by
    have := abs_norm_sub_norm_le (toC v) ((D : ℂ) * E)
    rw [nDE] at this d4
    exact (this.trans d4).trans (mul_le_mul_of_nonneg_right hε2 hD0.le)
  have nv' := abs_le.mp nv
  have lo : (2 : ℝ) ^ (-200 : ℤ) ≤ ‖toC v‖ := by
    have e : (2 : ℝ) ^ (-101 : ℤ) * 2 = 2 ^ (-100 : ℤ) := by rw [← zpow_add_one₀ (by norm_num)]; norm_num
    rw [← e] at hnear
    have : (2 : ℝ) ^ (-101 : ℤ) ≤ ‖toC v‖ := by
      generalize (2 : ℝ) ^ (-101 : ℤ) = a at *
      linarith [nv'.1]
    exact (two_zpow_le (by norm_num)).trans this
  have hi : ‖toC v‖ ≤ 2 ^ (400 : ℤ) := by
    have e : (2 : ℝ) ^ (398 : ℤ) * 2 = 2 ^ (399 : ℤ) := by rw [← zpow_add_one₀ (by norm_num)]; norm_num
    refine le_trans ?_ (two_zpow_le (by norm_num : (399 : ℤ) ≤ 400))
    rw [← e]
    exact (show ‖toC v‖ ≤ D * 2 by linarith [nv'.2]).trans (mul_le_mul_of_nonneg_right hfar (by norm_num))
  have sc := scale_near L.toLibrary (v := v) (rnd_isDouble _) (rnd_isDouble _) lo hi (d := 1)
    (by exact_mod_cast (two_zpow_le (by norm_num : (-101 : ℤ) ≤ 0)).trans (by norm_num))
    (by have := two_zpow_le (by norm_num : (0 : ℤ) ≤ 399); rwa [zpow_zero] at this)
  have hm := magnitude_near L.toLibrary (v := v) (rnd_isDouble _) (rnd_isDouble _) ((two_zpow_le (by norm_num)).trans lo)
  have hv0 : 0 < ‖toC v‖ := (two_zpow_pos _).trans_le lo
  have hm0 : Double.magnitude L.toLibrary v ≠ 0 := by
    intro h0
    rw [h0, zero_sub, abs_neg, abs_of_pos hv0] at hm
    have := mul_lt_mul_of_pos_right hu hv0
    linarith
  refine ⟨p, q, Course.scale v (rnd (1 / Double.magnitude L.toLibrary v)), point_at L al origin hk.le,
    point_at L al origin hk, ?_, ?_⟩
  · unfold Course.vectorSegment
    exact if_neg hm0
  · rw [Complex.ofReal_one, one_mul] at sc
    have t := norm_sub_le_norm_sub_add_norm_sub (toC (Course.scale v (rnd (1 / Double.magnitude L.toLibrary v))))
      (dir (toC v)) E
    refine t.trans ?_
    have : 0 ≤ Q / D := by positivity
    have h1 := mul_le_mul_of_nonneg_right hu.le this
    rw [hε] at d5
    linarith

/-- A segment that is extremely short in this sense can vanish: both of its ends get the same coordinates, and there
is no unit vector along it; with it go all coordinates computed from stations and offsets on this segment. -/
theorem C188_segment_fails (L : SunLibrary) : ∃ (al : ℕ → AlignmentPoint ℝ) (origin : P3), Regular al origin 1 ∧
    (al 0).station < (al 1).station ∧
    ∃ p, Course.pointsAlignment L origin ((List.range 2).map al) = [p, p] ∧ Course.vectorSegment L p p = none := by
  have p1 : L.pow 1 2 = 1 := by
    have := (L.pow_faithful 1 2 isDouble_one (.inr (by norm_num)))
    rw [one_zpow] at this
    exact this.exact isDouble_one
  have p0 : L.pow 0 2 = 0 := by
    have := (L.pow_faithful 0 2 isDouble_zero (.inr (by norm_num)))
    rw [zero_zpow _ (by norm_num)] at this
    exact this.exact isDouble_zero
  have m1 : Double.magnitude L.toLibrary ⟨1, 0⟩ = 1 := by
    unfold Double.magnitude
    dsimp only
    rw [p1, p0, add_zero, rnd_of_isDouble isDouble_one, Real.sqrt_one, rnd_of_isDouble isDouble_one]
  have m0 : Double.magnitude L.toLibrary ⟨0, 0⟩ = 0 := by
    unfold Double.magnitude
    dsimp only
    rw [p0, add_zero, rnd_zero, Real.sqrt_zero, rnd_zero]
  have dd : IsDouble ((2 : ℝ) ^ (-40 : ℤ)) := isDouble_two_zpow (by norm_num)
  have d22 : IsDouble ((4194304 : ℝ)) := by exact_mod_cast isDouble_int (n := 4194304) (by norm_num)
  have r1 : rnd (4194304 + (2 : ℝ) ^ (-40 : ℤ)) = 4194304 := by
    have := rnd_eq (x := 4194304 + (2 : ℝ) ^ (-40 : ℤ)) 4503599627370496 (-30) (by norm_num)
      (by rw [abs_of_pos (by positivity)]; norm_num) (by rw [abs_of_pos (by positivity)]; norm_num)
      (by rw [abs_lt]; constructor <;> norm_num)
    rw [this]; norm_num
  have thr : |(0 : ℝ)| < rnd 0.00005 := by
    rw [abs_zero]
    have : (2 : ℝ) ^ (-20 : ℤ) ≤ rnd 0.00005 := le_rnd (isDouble_two_zpow (by norm_num)) (by norm_num)
    exact (two_zpow_pos _).trans_le this
  refine ⟨fun k => if k = 0 then ⟨0, 0, 0⟩ else ⟨0, 0, 2 ^ (-40 : ℤ)⟩, ⟨4194304, 0, 0⟩, ?_, ?_, ⟨4194304, 0, 0⟩, ?_, ?_⟩
  · refine ⟨d22, isDouble_zero, isDouble_zero, ?_, ?_, ?_, ?_, ?_, by norm_num⟩
    · intro k _; split
      · exact isDouble_zero
      · exact dd
    · intro k _; split <;> exact isDouble_zero
    · intro k _; split <;> norm_num
    · intro k hk
      obtain rfl : k = 0 := by omega
      norm_num
    · intro k hk
      obtain rfl : k = 0 := by omega
      rw [if_neg (by omega), if_pos rfl]
      dsimp only
      rw [sub_zero]
      exact two_zpow_le (by norm_num)
  · norm_num
  · show Course.pointsAlignment L ⟨4194304, 0, 0⟩ [⟨0, 0, 0⟩, ⟨0, 0, 2 ^ (-40 : ℤ)⟩] = _
    unfold Course.pointsAlignment Course.alignmentLoop Course.alignmentLoop Course.fromVector Course.rotate Course.scale
    dsimp only
    rw [if_pos thr, m1, sub_zero, rnd_of_isDouble dd, div_one, rnd_of_isDouble dd, one_mul, zero_mul, rnd_zero,
      rnd_of_isDouble dd, r1, sub_zero, rnd_zero, add_zero, rnd_zero]
  · unfold Course.vectorSegment
    dsimp only
    rw [sub_self, sub_self, rnd_zero, m0]
    exact if_pos rfl

/-- Example: three points with a turn of 30 degrees at the second, far from the origin of coordinates. -/
noncomputable def exampleAlignment (k : ℕ) : AlignmentPoint ℝ :=
  if k = 0 then ⟨100, 0, 0⟩ else if k = 1 then ⟨110, 30, 1000⟩ else ⟨95, 0, 2500⟩

theorem exampleAlignment_regular : Regular exampleAlignment ⟨500000, 4000000, 100⟩ 2 := by
  have int : ∀ m : ℤ, |m| ≤ 2 ^ 53 → IsDouble (m : ℝ) := fun m h => isDouble_int (by exact_mod_cast h)
  have b : (2 : ℝ) ^ (-100 : ℤ) ≤ 1 ∧ (4096 : ℝ) ≤ 2 ^ (398 : ℤ) := by
    constructor
    · exact_mod_cast (two_zpow_le (by norm_num : (-100 : ℤ) ≤ 0)).trans (by norm_num)
    · refine le_trans (by norm_num) (two_zpow_le (by norm_num : (12 : ℤ) ≤ 398))
  refine ⟨?_, ?_, ?_, ?_, ?_, ?_, ?_, ?_, by norm_num⟩
  · exact_mod_cast int 500000 (by norm_num)
  · exact_mod_cast int 4000000 (by norm_num)
  · exact_mod_cast int 100 (by norm_num)
  · intro k hk
    interval_cases k <;> norm_num [exampleAlignment]
    · exact isDouble_zero
    · exact_mod_cast int 1000 (by norm_num)
    · exact_mod_cast int 2500 (by norm_num)
  · intro k hk
    interval_cases k <;> norm_num [exampleAlignment]
    · exact_mod_cast int 100 (by norm_num)
    · exact_mod_cast int 110 (by norm_num)
    · exact_mod_cast int 95 (by norm_num)
  · intro k hk
    interval_cases k <;> norm_num [exampleAlignment]
  · intro k hk
    refine b.1.trans ?_
    interval_cases k <;> norm_num [exampleAlignment]
  · intro k hk
    refine le_trans ?_ b.2
    interval_cases k <;> norm_num [exampleAlignment]

example (L : SunLibrary) : ∃ p,
    (Course.pointsAlignment L ⟨500000, 4000000, 100⟩ ((List.range 3).map exampleAlignment))[2]? = some p ∧
      ‖(⟨p.x, p.y⟩ : ℂ) - place exampleAlignment ⟨500000, 4000000, 100⟩ 2‖ ≤
        2 * (5e-13 * 2500 + 1e-15 * √(500000 ^ 2 + 4000000 ^ 2)) := by
  obtain ⟨p, h1, h2⟩ := C188_points_partial L _ _ 2 exampleAlignment_regular 2 le_rfl
  refine ⟨p, h1, h2.trans (le_of_eq ?_)⟩
  norm_num [exampleAlignment]

example (L : SunLibrary) : ∃ p q v,
    (Course.pointsAlignment L ⟨500000, 4000000, 100⟩ ((List.range 3).map exampleAlignment))[1]? = some p ∧
    (Course.pointsAlignment L ⟨500000, 4000000, 100⟩ ((List.range 3).map exampleAlignment))[2]? = some q ∧
      Course.vectorSegment L p q = some v := by
  have e : √((500000 : ℝ) ^ 2 + 4000000 ^ 2) ≤ 4100000 := by
    rw [Real.sqrt_le_left (by norm_num)]; norm_num
  obtain ⟨p, q, v, h1, h2, h3, -⟩ := C188_segment_partial L _ _ 2 exampleAlignment_regular 1 (by norm_num)
    (by
      refine (add_le_add_left e _).trans ?_
      norm_num [exampleAlignment])
  exact ⟨p, q, v, h1, h2, h3⟩

example (L : SunLibrary) : ∃ p,
    (Course.pointsAlignment L ⟨500000, 4000000, 100⟩ ((List.range 3).map exampleAlignment))[2]? = some p ∧
      |p.z - 95| ≤ (2 * (5e-16 * 110) : ℝ) := by
  obtain ⟨p, h1, h2⟩ := C188_elevation L exampleAlignment ⟨500000, 4000000, 100⟩ 2 exampleAlignment_regular.origin_z
    exampleAlignment_regular.elevation (by norm_num) (H := 110)
    (by intro k hk; interval_cases k <;> norm_num [exampleAlignment]) 2 le_rfl
  refine ⟨p, h1, ?_⟩
  norm_num [exampleAlignment] at h2 ⊢
  exact h2

end Verif.Props
