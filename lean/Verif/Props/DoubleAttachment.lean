import Verif.DoubleAttachment
import Verif.Props.DoubleStation

/-!
# C190: the coordinates of attachments in double arithmetic
-/

set_option linter.unusedSectionVars false

namespace Verif.Props

open Verif.Double Real

namespace Traverse

variable {L : SunLibrary} {al : ℕ → AlignmentPoint ℝ} {origin : P3} {n : ℕ}

/-- A rotation of any vector, the shortest included. -/
theorem rotate_abs (L : SunLibrary) {v : V2} (hx : IsDouble v.x) (hy : IsDouble v.y) {r : ℝ} (hr : |r| ≤ 360) :
    IsDouble (Course.rotate L v r).x ∧ IsDouble (Course.rotate L v r).y ∧
    ‖toC (Course.rotate L v r) - toC v * Complex.exp (turn r * Complex.I)‖ ≤ 1.5e-13 * ‖toC v‖ + 2 ^ (-290 : ℤ) := by
  have hp := two_zpow_pos (-290)
  rcases le_or_gt ((2 : ℝ) ^ (-300 : ℤ)) ‖toC v‖ with h | h
  · obtain ⟨a, b, c⟩ := rotate_near L hx hy h hr
    exact ⟨a, b, c.trans (by linarith)⟩
  · have n0 := norm_nonneg (toC v)
    have ne : ‖Complex.exp (turn r * Complex.I)‖ = 1 := Complex.norm_exp_ofReal_mul_I _
    have small : ‖toC (Course.rotate L v r)‖ ≤ 2 ^ (-297 : ℤ) ∧ IsDouble (Course.rotate L v r).x ∧
        IsDouble (Course.rotate L v r).y := by
      unfold Course.rotate
      split
      · exact ⟨h.le.trans (two_zpow_le (by norm_num)), hx, hy⟩
      · refine ⟨?_, rnd_isDouble _, rnd_isDouble _⟩
        dsimp only
        have M : 0 ≤ Double.magnitude L.toLibrary v ∧ Double.magnitude L.toLibrary v ≤ 2 ^ (-299 : ℤ) := by
          have sq : ∀ a : ℝ, IsDouble a → |a| ≤ ‖toC v‖ → 0 ≤ L.pow a 2 ∧ L.pow a 2 ≤ 2 ^ (-600 : ℤ) := by
            intro a ha hle
            have f := L.pow_faithful a 2 ha (.inr (by norm_num))
            have e2 : a ^ (2 : ℤ) = |a| ^ 2 := by rw [sq_abs]; norm_cast
            have b : |a| ^ 2 ≤ 2 ^ (-600 : ℤ) := by
              have := pow_le_pow_left₀ (abs_nonneg a) (hle.trans h.le) 2
              rwa [← zpow_natCast (2 ^ (-300 : ℤ)), ← zpow_mul, show (-300 * ((2 : ℕ) : ℤ)) = -600 by norm_num] at this
            rw [e2] at f
            refine ⟨f.nonneg (by positivity), ?_⟩
            have := f.abs_le (isDouble_two_zpow (by norm_num : (-1074 : ℤ) ≤ -600)) (by rwa [abs_of_nonneg (by positivity)])
            exact (le_abs_self _).trans this
          have hxn : |v.x| ≤ ‖toC v‖ := Complex.abs_re_le_norm (toC v)
          have hyn : |v.y| ≤ ‖toC v‖ := Complex.abs_im_le_norm (toC v)
          have s1 := sq v.x hx hxn
          have s2 := sq v.y hy hyn
          unfold Double.magnitude
          refine ⟨rnd_nonneg (Real.sqrt_nonneg _), rnd_le (isDouble_two_zpow (by norm_num)) ?_⟩
          rw [Real.sqrt_le_left (two_zpow_pos _).le]
          have e : ((2 : ℝ) ^ (-299 : ℤ)) ^ 2 = 2 ^ (-598 : ℤ) := by
            rw [← zpow_natCast, ← zpow_mul]; norm_num
          rw [e]
          refine rnd_le (isDouble_two_zpow (by norm_num)) ?_
          have e' : (2 : ℝ) ^ (-598 : ℤ) = 2 ^ (-600 : ℤ) * 4 := by
            have : (4 : ℝ) = 2 ^ (2 : ℤ) := by norm_num
            rw [this, ← zpow_add₀ (by norm_num)]; norm_num
          rw [e']
          have := two_zpow_pos (-600)
          linarith
        have lim : ∀ c : ℝ, |c| ≤ 1 → |rnd (Double.magnitude L.toLibrary v * c)| ≤ 2 ^ (-299 : ℤ) := by
          intro c hc
          rw [← rnd_abs]
          refine rnd_le (isDouble_two_zpow (by norm_num)) ?_
          rw [abs_mul, abs_of_nonneg M.1]
          have := mul_le_mul M.2 hc (abs_nonneg _) (two_zpow_pos _).le
          linarith
        have td := toRadians_double L (rnd (Double.angle L.toLibrary v + r))
        refine (norm_le_add _).trans ?_
        have a := lim _ (lib_cos_le L td)
        have b := lim _ (lib_sin_le L td)
        have e : (2 : ℝ) ^ (-297 : ℤ) = 2 ^ (-299 : ℤ) * 4 := by
          have : (4 : ℝ) = 2 ^ (2 : ℤ) := by norm_num
          rw [this, ← zpow_add₀ (by norm_num)]; norm_num
        rw [e]
        have := two_zpow_pos (-299)
        exact (add_le_add a b).trans (by linarith)
    refine ⟨small.2.1, small.2.2, (norm_sub_le _ _).trans ?_⟩
    rw [norm_mul, ne, mul_one]
    have a : (2 : ℝ) ^ (-297 : ℤ) ≤ 2 ^ (-291 : ℤ) := two_zpow_le (by norm_num)
    have b : (2 : ℝ) ^ (-300 : ℤ) ≤ 2 ^ (-291 : ℤ) := two_zpow_le (by norm_num)
    have e : (2 : ℝ) ^ (-290 : ℤ) = 2 ^ (-291 : ℤ) * 2 := by rw [← zpow_add_one₀ (by norm_num)]; norm_num
    rw [e]
    have := (small.1.trans a)
    have := (h.le.trans b)
    linarith

theorem threshold : 0.00004999999 ≤ rnd 0.00005 ∧ rnd 0.00005 ≤ 0.00005000001 := by
  have := rnd_error_le 0.00005
  have h1 := abs_le.mp this
  have ht := tiny_le_u.2
  have := u_small
  have := u_pos
  rw [abs_of_pos (by norm_num)] at h1
  generalize (2 : ℝ) ^ (-1075 : ℤ) = η at *
  constructor <;> linarith [h1.1, h1.2]

theorem exp_near (a b : ℝ) : ‖Complex.exp (a * Complex.I) - Complex.exp (b * Complex.I)‖ ≤ 2 * |a - b| := by
  refine (norm_le_add _).trans ?_
  rw [Complex.sub_re, Complex.sub_im, Complex.exp_ofReal_mul_I_re, Complex.exp_ofReal_mul_I_re,
    Complex.exp_ofReal_mul_I_im, Complex.exp_ofReal_mul_I_im]
  have := abs_cos_sub_cos_le a b
  have := abs_sin_sub_sin_le a b
  linarith

/-- The direction of a vector from its angle: to within 0.00005 degrees below that angle, accurate above it. -/
theorem angle_dir (L : SunLibrary) {w : V2} (hw : ¬ (w.x = 0 ∧ w.y = 0)) :
    |Double.angle L.toLibrary w| ≤ 360 ∧
    ‖Complex.exp (turn (Double.angle L.toLibrary w) * Complex.I) - dir (toC w)‖ ≤ 1.8e-6 ∧
    (rnd 0.00005 ≤ Double.angle L.toLibrary w →
      ‖Complex.exp (turn (Double.angle L.toLibrary w) * Complex.I) - dir (toC w)‖ ≤ 1e-13) := by
  obtain ⟨a0, a1, φ, k, hk0, hk2, hφ, ex, ey⟩ := w.angle_spec hw
  have ha := (C178_accuracy L.toLibrary w hw).1
  have hr := (C178_range_partial L.toLibrary w hw).1
  have m0 : 0 < ‖toC w‖ := by
    rw [norm_pos_iff]
    intro h
    exact hw ⟨congrArg Complex.re h, congrArg Complex.im h⟩
  have hd : dir (toC w) = Complex.exp (φ * Complex.I) := by
    have : toC w = ‖toC w‖ * Complex.exp (φ * Complex.I) := by
      rw [norm_toC]
      apply Complex.ext
      · simp only [toC, Complex.re_ofReal_mul, Complex.exp_ofReal_mul_I_re]; exact ex
      · simp only [toC, Complex.im_ofReal_mul, Complex.exp_ofReal_mul_I_im]; exact ey
    have c0 : (‖toC w‖ : ℂ) ≠ 0 := by exact_mod_cast m0.ne'
    unfold dir
    nth_rewrite 1 [this]
    field_simp
  have hpi1 := kPi_lt_pi
  have hpi2 := pi_sub_kPi
  have hk1 : 0 < Units.kPi / 180 ∧ Units.kPi / 180 ≤ 0.01746 := by unfold Units.kPi; constructor <;> norm_num
  rw [Verif.toRadians_eq] at hφ
  set A := Double.angle L.toLibrary w
  have thr := threshold.2
  have kb : k * (π - Units.kPi) ≤ 2 * 4e-15 := mul_le_mul hk2 hpi2.le (by linarith) (by norm_num)
  have kb0 : 0 ≤ k * (π - Units.kPi) := mul_nonneg hk0 (by linarith)
  have fine : rnd 0.00005 ≤ A → ‖Complex.exp (turn A * Complex.I) - dir (toC w)‖ ≤ 1e-13 := by
    intro hA
    have e : turn A = A * π / 180 := by
      unfold turn; rw [if_neg]; rw [abs_of_nonneg hr.1]; exact not_lt.mpr hA
    rw [hd, e]
    refine (exp_near _ _).trans ?_
    have e2 : A * π / 180 - φ = (A - w.angle) * (Units.kPi / 180) + A / 180 * (π - Units.kPi) - k * (π - Units.kPi) := by
      rw [hφ]; ring
    have x : |(A - w.angle) * (Units.kPi / 180)| ≤ 1e-12 * 0.01746 := by
      rw [abs_mul, abs_of_pos hk1.1]; exact mul_le_mul ha hk1.2 hk1.1.le (by norm_num)
    have y : A / 180 * (π - Units.kPi) ≤ 2 * 4e-15 := mul_le_mul (by linarith [hr.2]) hpi2.le (by linarith) (by norm_num)
    have y0 : 0 ≤ A / 180 * (π - Units.kPi) := mul_nonneg (by linarith [hr.1]) (by linarith)
    have : |A * π / 180 - φ| ≤ 3e-14 := by
      rw [e2]
      rw [abs_le] at x ⊢
      constructor <;> linarith [x.1, x.2]
    linarith
  refine ⟨by rw [abs_of_nonneg hr.1]; exact hr.2, ?_, fine⟩
  rcases le_or_gt (rnd 0.00005) A with h | h
  · exact (fine h).trans (by norm_num)
  · have e : turn A = 0 := by
      unfold turn; rw [if_pos]; rw [abs_of_nonneg hr.1]; exact h
    rw [hd, e]
    refine (exp_near _ _).trans ?_
    have b : w.angle * (Units.kPi / 180) ≤ 0.0000500001 * 0.01746 :=
      mul_le_mul (by have := (abs_le.mp ha).1; linarith) hk1.2 hk1.1.le (by norm_num)
    have b0 : 0 ≤ w.angle * (Units.kPi / 180) := mul_nonneg a0 hk1.1.le
    have e3 : φ = w.angle * (Units.kPi / 180) + k * (π - Units.kPi) := hφ
    rw [zero_sub, abs_neg, abs_of_nonneg (by linarith)]
    linarith

/-- Where an attachment is in the axes of the structure's alignment, without rounding. -/
noncomputable def localPlace (s : LineStructure ℝ) (a : StructureAttachment ℝ) : ℂ :=
  toC ⟨a.offsetLongitudinal, -a.offsetTransverse⟩ * Complex.exp (turn s.rotation * Complex.I) - s.offset * Complex.I

/-- How far an attachment can be from the alignment. -/
noncomputable def reach (s : LineStructure ℝ) (a : StructureAttachment ℝ) : ℝ :=
  √(a.offsetLongitudinal ^ 2 + a.offsetTransverse ^ 2) + |s.offset|

theorem reach_eq (s : LineStructure ℝ) (a : StructureAttachment ℝ) :
    reach s a = ‖toC ⟨a.offsetLongitudinal, -a.offsetTransverse⟩‖ + |s.offset| := by
  rw [norm_toC]; unfold reach V2.magnitude; rw [neg_sq]

theorem norm_mul_I (x : ℝ) : ‖(x : ℂ) * Complex.I‖ = |x| := by
  rw [norm_mul, Complex.norm_I, mul_one, Complex.norm_real, Real.norm_eq_abs]

theorem localPlace_le (s : LineStructure ℝ) (a : StructureAttachment ℝ) : ‖localPlace s a‖ ≤ reach s a := by
  have ne : ‖Complex.exp (turn s.rotation * Complex.I)‖ = 1 := Complex.norm_exp_ofReal_mul_I _
  rw [reach_eq]
  unfold localPlace
  refine (norm_sub_le _ _).trans ?_
  rw [norm_mul, ne, mul_one, norm_mul_I]

theorem local_near (L : SunLibrary) {s : LineStructure ℝ} (t : Structure ℝ) {a : StructureAttachment ℝ}
    (h1 : IsDouble a.offsetLongitudinal) (h2 : IsDouble a.offsetTransverse) (h3 : IsDouble s.offset)
    (hr : |s.rotation| ≤ 360) :
    IsDouble (Course.attachmentLocal L s t a).x ∧ IsDouble (Course.attachmentLocal L s t a).y ∧
    ‖toC ⟨(Course.attachmentLocal L s t a).x, (Course.attachmentLocal L s t a).y⟩ - localPlace s a‖ ≤
      2e-13 * reach s a + 2 ^ (-289 : ℤ) := by
  have hu0 := u_pos
  have hu := u_small
  obtain ⟨d1, d2, e⟩ := rotate_abs L (v := ⟨a.offsetLongitudinal, -a.offsetTransverse⟩) h1 h2.neg hr
  refine ⟨d1, rnd_isDouble _, ?_⟩
  have ne : ‖Complex.exp (turn s.rotation * Complex.I)‖ = 1 := Complex.norm_exp_ofReal_mul_I _
  rw [reach_eq]
  unfold Course.attachmentLocal localPlace
  dsimp only
  set v := Course.rotate L ⟨a.offsetLongitudinal, -a.offsetTransverse⟩ s.rotation
  set z := toC ⟨a.offsetLongitudinal, -a.offsetTransverse⟩
  have f := rnd_sub_relative d2 h3
  have g : toC ⟨v.x, rnd (v.y - s.offset)⟩ - (z * Complex.exp (turn s.rotation * Complex.I) - s.offset * Complex.I) =
      (toC v - z * Complex.exp (turn s.rotation * Complex.I)) + ((rnd (v.y - s.offset) - (v.y - s.offset) : ℝ) : ℂ) * Complex.I := by
    have : toC ⟨v.x, rnd (v.y - s.offset)⟩ = toC v + ((rnd (v.y - s.offset) - v.y : ℝ) : ℂ) * Complex.I := by
      apply Complex.ext <;> simp [toC]
    rw [this]
    push_cast
    ring
  rw [g]
  refine (norm_add_le _ _).trans ?_
  rw [norm_mul_I]
  have nv : ‖toC v‖ ≤ 2 * ‖z‖ + 2 ^ (-290 : ℤ) := by
    have := norm_add_le (toC v - z * Complex.exp (turn s.rotation * Complex.I)) (z * Complex.exp (turn s.rotation * Complex.I))
    rw [sub_add_cancel, norm_mul, ne, mul_one] at this
    have := norm_nonneg z
    generalize (2 : ℝ) ^ (-290 : ℤ) = ω at *
    linarith
  have hy : |v.y| ≤ ‖toC v‖ := Complex.abs_im_le_norm (toC v)
  have hs := abs_sub v.y s.offset
  have e2 : (2 : ℝ) ^ (-289 : ℤ) = 2 ^ (-290 : ℤ) * 2 := by rw [← zpow_add_one₀ (by norm_num)]; norm_num
  rw [e2]
  have o := two_zpow_pos (-290)
  generalize (2 : ℝ) ^ (-290 : ℤ) = ω at *
  have b : |v.y - s.offset| ≤ 2 * ‖z‖ + ω + |s.offset| := by linarith
  have c := f.trans (mul_le_mul_of_nonneg_left b hu0.le)
  have d := mul_le_mul_of_nonneg_right hu.le (by have := norm_nonneg z; have := abs_nonneg s.offset; linarith :
    0 ≤ 2 * ‖z‖ + ω + |s.offset|)
  have := norm_nonneg z
  have := abs_nonneg s.offset
  linarith

/-- Turning an attachment to the alignment and adding the point of the structure. -/
theorem turned_near (L : SunLibrary) {s : LineStructure ℝ} (t : Structure ℝ) {a : StructureAttachment ℝ}
    (h1 : IsDouble a.offsetLongitudinal) (h2 : IsDouble a.offsetTransverse) (h3 : IsDouble s.offset)
    (hr : |s.rotation| ≤ 360) {w : V2} (hw : ¬ (w.x = 0 ∧ w.y = 0)) {base : P3} (bx : IsDouble base.x)
    (bz : IsDouble base.y) {E : ℂ} (hE : ‖E‖ = 1) {ε δ : ℝ} (hε : ‖dir (toC w) - E‖ ≤ ε)
    (hδ : ‖Complex.exp (turn (Double.angle L.toLibrary w) * Complex.I) - dir (toC w)‖ ≤ δ) (hδ2 : δ ≤ 2) (hε2 : ε ≤ 2) :
    ‖toC ⟨(Course.attachmentTurned L (Course.attachmentLocal L s t a) w base).x,
        (Course.attachmentTurned L (Course.attachmentLocal L s t a) w base).y⟩ -
      (toC ⟨base.x, base.y⟩ + localPlace s a * E)‖ ≤
      (δ + ε + 2e-12) * reach s a + 2.5e-16 * ‖toC ⟨base.x, base.y⟩‖ + 2 ^ (-285 : ℤ) := by
  have hu0 := u_pos
  have hu := u_small
  obtain ⟨l1, l2, l3⟩ := local_near L t h1 h2 h3 hr
  set p := Course.attachmentLocal L s t a
  obtain ⟨ha, -⟩ := angle_dir L hw
  set A := Double.angle L.toLibrary w
  obtain ⟨r1, r2, r3⟩ := rotate_abs L (v := ⟨p.x, p.y⟩) l1 l2 ha
  set v := Course.rotate L ⟨p.x, p.y⟩ A with hv
  have sm := sum_near r1 r2 bx bz
  have ev : toC ⟨v.x, v.y⟩ = toC v := rfl
  rw [ev] at sm
  unfold Course.attachmentTurned
  rw [← hv]
  dsimp only
  set B := toC ⟨base.x, base.y⟩
  set l := toC ⟨p.x, p.y⟩
  set X := localPlace s a with hX
  have hXR := localPlace_le s a
  rw [← hX] at hXR
  set R := reach s a
  have hR0 : 0 ≤ R := (norm_nonneg _).trans hXR
  set V := toC v
  set T := Complex.exp (turn A * Complex.I)
  have nT : ‖T‖ = 1 := Complex.norm_exp_ofReal_mul_I _
  have hδ0 : 0 ≤ δ := (norm_nonneg _).trans hδ
  have hε0 : 0 ≤ ε := (norm_nonneg _).trans hε
  have nl : ‖l‖ ≤ 1.1 * R + 2 ^ (-289 : ℤ) := by
    have := norm_add_le (l - X) X
    rw [sub_add_cancel] at this
    generalize (2 : ℝ) ^ (-289 : ℤ) = ω at *
    linarith
  have TE : ‖T - E‖ ≤ δ + ε := (norm_sub_le_norm_sub_add_norm_sub _ (dir (toC w)) _).trans (add_le_add hδ hε)
  have e1 : V - X * E = (V - l * T) + (l - X) * (T - E) + X * (T - E) + (l - X) * E := by ring
  have k1 : ‖(l - X) * (T - E)‖ ≤ (2e-13 * R + 2 ^ (-289 : ℤ)) * 4 := by
    rw [norm_mul]
    exact mul_le_mul l3 (by linarith) (norm_nonneg _) (by have := two_zpow_pos (-289); positivity)
  have k2 : ‖X * (T - E)‖ ≤ R * (δ + ε) := by
    rw [norm_mul]; exact mul_le_mul hXR TE (norm_nonneg _) hR0
  have k3 : ‖(l - X) * E‖ ≤ 2e-13 * R + 2 ^ (-289 : ℤ) := by rw [norm_mul, hE, mul_one]; exact l3
  have q1 : (2 : ℝ) ^ (-285 : ℤ) = 2 ^ (-290 : ℤ) * 32 := by
    have : (32 : ℝ) = 2 ^ (5 : ℤ) := by norm_num
    rw [this, ← zpow_add₀ (by norm_num)]; norm_num
  have q2 : (2 : ℝ) ^ (-289 : ℤ) = 2 ^ (-290 : ℤ) * 2 := by rw [← zpow_add_one₀ (by norm_num)]; norm_num
  rw [q1]
  rw [q2] at k1 k3 nl
  have o := two_zpow_pos (-290)
  generalize (2 : ℝ) ^ (-290 : ℤ) = ω at *
  have main : ‖V - X * E‖ ≤ (δ + ε + 1.2e-12) * R + ω * 12 := by
    rw [e1]
    have a1 := norm_add_le (V - l * T) ((l - X) * (T - E))
    have a2 := norm_add_le ((V - l * T) + (l - X) * (T - E)) (X * (T - E))
    have a3 := norm_add_le ((V - l * T) + (l - X) * (T - E) + X * (T - E)) ((l - X) * E)
    linarith
  have nV : ‖V‖ ≤ 7 * R + ω * 12 := by
    have a1 := norm_add_le (V - X * E) (X * E)
    rw [sub_add_cancel, norm_mul X, hE, mul_one] at a1
    have := mul_le_mul_of_nonneg_right (by linarith : δ + ε + 1.2e-12 ≤ 5) hR0
    linarith
  have nB := norm_nonneg B
  have s2 : 2 * u * ‖V + B‖ ≤ 2.3e-16 * (7 * R + ω * 12 + ‖B‖) :=
    mul_le_mul (by linarith) ((norm_add_le V B).trans (by linarith)) (norm_nonneg _) (by norm_num)
  have e2 : toC ⟨rnd (v.x + base.x), rnd (v.y + base.y)⟩ - (B + X * E) =
      (toC ⟨rnd (v.x + base.x), rnd (v.y + base.y)⟩ - (V + B)) + (V - X * E) := by ring
  rw [e2]
  refine (norm_add_le _ _).trans ?_
  linarith

/-- The unit vector along a segment, as the function for structures gets it. -/
theorem segmentAt_near (L : SunLibrary) (h : Regular al origin n) {k : ℕ} (hk : k < n)
    (hs : shortness al origin (k + 1) ≤ 1e14) :
    ∃ v : V2, Course.segmentAt L (Course.pointsAlignment L origin ((List.range (n + 1)).map al)) k = .val (some v) ∧
      IsDouble v.x ∧ IsDouble v.y ∧
      ‖toC v - Complex.exp (heading al k * Complex.I)‖ ≤ (k + 1) * 7e-13 + 2e-15 * shortness al origin (k + 1) := by
  have hD0 := (two_zpow_pos (-100)).trans_le (h.near k hk)
  have es : shortness al origin (k + 1) = (√(origin.x ^ 2 + origin.y ^ 2) + ((al (k + 1)).station - (al 0).station)) /
      ((al (k + 1)).station - (al k).station) := by
    unfold shortness; rw [if_neg (by omega)]; rfl
  rw [es] at hs ⊢
  obtain ⟨p, q, v, h1, h2, h3, h4⟩ := C188_segment_partial L al origin n h k hk ((div_le_iff₀ hD0).mp hs)
  have hd : IsDouble v.x ∧ IsDouble v.y := by
    unfold Course.vectorSegment at h3
    dsimp only at h3
    split at h3
    · simp at h3
    · simp only [Option.some.injEq] at h3
      rw [← h3]
      exact ⟨rnd_isDouble _, rnd_isDouble _⟩
  refine ⟨v, ?_, hd.1, hd.2, h4⟩
  unfold Course.segmentAt
  rw [if_neg (by omega), Int.toNat_natCast, h1, h2]
  dsimp only
  rw [h3]

theorem count_le (h : Regular al origin n) {k : ℕ} (hk : k < n) : (k : ℝ) + 1 ≤ 1e11 := by
  have : ((k + 1 : ℕ) : ℝ) ≤ (10 ^ 11 : ℕ) := by exact_mod_cast (by have := h.count; omega : k + 1 ≤ 10 ^ 11)
  push_cast at this
  refine this.trans (by norm_num)

theorem shortness_nonneg (h : Regular al origin n) {k : ℕ} (hk : k ≤ n) : 0 ≤ shortness al origin k := by
  unfold shortness
  split
  · exact le_rfl
  · have a := h.mono k hk
    have b := h.lt (j := k - 1) (k := k) (by omega) hk
    have := Real.sqrt_nonneg (origin.x ^ 2 + origin.y ^ 2)
    exact div_nonneg (by linarith) (by linarith)

/-- A vector near one of length one. -/
theorem unit_dir {v : V2} {E : ℂ} (hE : ‖E‖ = 1) {ε : ℝ} (h : ‖toC v - E‖ ≤ ε) (hε : ε < 1) :
    ¬ (v.x = 0 ∧ v.y = 0) ∧ ‖dir (toC v) - E‖ ≤ 2 * ε := by
  constructor
  · rintro ⟨h1, h2⟩
    have e : toC v = 0 := Complex.ext h1 h2
    rw [e, zero_sub, norm_neg, hE] at h
    linarith
  · have a := dir_near (ε := ε) (a := toC v) (b := E) (by rw [hE]; norm_num) (by rw [hE, mul_one]; exact h)
    have e : dir E = E := by rw [dir, hE]; simp
    rwa [e] at a

theorem head_last (al : ℕ → AlignmentPoint ℝ) (n : ℕ) : ((List.range (n + 1)).map al).head? = some (al 0) ∧
    ((List.range (n + 1)).map al).getLast? = some (al n) := by
  constructor
  · rw [List.head?_map, List.head?_range]; rfl
  · rw [List.getLast?_map, List.getLast?_range]; simp

/-- The orientation of the alignment between two points. -/
theorem orientation_between (L : SunLibrary) (h : Regular al origin n) {k : ℕ} (hk : k < n) {s : ℝ}
    (h1 : (al k).station < s) (h2 : s < (al (k + 1)).station) (hs : shortness al origin (k + 1) ≤ 1e14) :
    ∃ w : V2, Course.vectorStructure L ((List.range (n + 1)).map al)
        (Course.pointsAlignment L origin ((List.range (n + 1)).map al)) s = .val (some w) ∧ ¬ (w.x = 0 ∧ w.y = 0) ∧
      ‖dir (toC w) - Complex.exp (heading al k * Complex.I)‖ ≤
        (k + 1) * 1.4e-12 + 4e-15 * shortness al origin (k + 1) := by
  obtain ⟨v, e, -, -, hv⟩ := segmentAt_near L h hk hs
  have hc := count_le h hk
  obtain ⟨v0, v1⟩ := unit_dir (Complex.norm_exp_ofReal_mul_I _) hv (by linarith)
  refine ⟨v, ?_, v0, v1.trans (by linarith)⟩
  unfold Course.vectorStructure
  rw [h.index hk h1 h2, (head_last al n).1, (head_last al n).2]
  dsimp only
  have nope : ∀ j ≤ n, s ≠ (al j).station := by
    intro j hj e
    rcases Nat.lt_or_ge k j with h3 | h3
    · rcases Nat.lt_or_eq_of_le (Nat.succ_le_of_lt h3) with h4 | h4
      · have := h.lt h4 hj
        have e' : k.succ = k + 1 := rfl
        rw [e'] at this
        linarith
      · rw [← h4] at e
        exact absurd e h2.ne
    · rcases Nat.lt_or_eq_of_le h3 with h4 | h4
      · have := h.lt h4 hk.le
        linarith
      · rw [h4] at e
        linarith
  have hany : ((List.range (n + 1)).map al).any (fun p => decide (s = p.station)) = false := by
    rw [List.any_eq_false]
    intro x hx
    obtain ⟨j, hj, rfl⟩ := List.mem_map.mp hx
    rw [List.mem_range] at hj
    simpa using nope j (by omega)
  rw [if_neg (by rintro (h3 | h3); exacts [nope 0 (by omega) h3, nope n le_rfl h3]), if_pos (by convert hany)]
  exact e

/-- The segment of the function for a point of the alignment: the one before it. -/
theorem Regular.index_vertex (h : Regular al origin n) {k : ℕ} (hk : k < n) :
    Alignment.indexSegment ((List.range (n + 1)).map al) (al (k + 1)).station = .val (k : ℤ) := by
  have len : ((List.range (n + 1)).map al).length = n + 1 := by simp
  obtain ⟨i, hi, e, a1, a2, a3⟩ := Alignment.segment_found h.sorted (by rw [len]; omega) (al (k + 1)).station
    (by
      rw [List.getElem_map, List.getElem_range]
      exact h.mono (k + 1) hk)
    (by
      rw [List.getElem_map, List.getElem_range, len, Nat.add_sub_cancel]
      rcases Nat.lt_or_eq_of_le (Nat.succ_le_of_lt hk) with h3 | h3
      · exact (h.lt h3 le_rfl).le
      · exact le_of_eq (by rw [← h3]))
  rw [len] at hi
  rw [List.getElem_map, List.getElem_range] at a1 a2 a3
  have h2 : k + 1 ≤ i + 1 := by
    by_contra h3
    exact absurd (h.lt (not_le.mp h3) hk) (not_lt.mpr a2)
  have h1 : i ≤ k := by
    rcases a3 with a3 | a3
    · omega
    · by_contra h3
      rcases Nat.lt_or_eq_of_le (Nat.succ_le_of_lt (not_le.mp h3)) with h4 | h4
      · exact absurd (h.lt h4 (by omega)) (not_lt.mpr a3.le)
      · have e' : k + 1 = i := h4
        rw [e'] at a3
        exact absurd a3 (lt_irrefl _)
  obtain rfl : i = k := by omega
  exact e

theorem Regular.index_first (h : Regular al origin n) (hn : 0 < n) :
    Alignment.indexSegment ((List.range (n + 1)).map al) (al 0).station = .val 0 := by
  have len : ((List.range (n + 1)).map al).length = n + 1 := by simp
  obtain ⟨i, hi, e, a1, a2, a3⟩ := Alignment.segment_found h.sorted (by rw [len]; omega) (al 0).station
    (by rw [List.getElem_map, List.getElem_range])
    (by
      rw [List.getElem_map, List.getElem_range, len, Nat.add_sub_cancel]
      exact (h.lt hn le_rfl).le)
  rw [len] at hi
  rw [List.getElem_map, List.getElem_range] at a1 a2 a3
  have : i = 0 := by
    by_contra h3
    exact absurd (h.lt (Nat.pos_of_ne_zero h3) (by omega)) (not_lt.mpr a1)
  rw [e, this]
  rfl

/-- The orientation of the alignment at its ends. -/
theorem orientation_first (L : SunLibrary) (h : Regular al origin n) (hn : 0 < n) (hs : shortness al origin 1 ≤ 1e14) :
    ∃ w : V2, Course.vectorStructure L ((List.range (n + 1)).map al)
        (Course.pointsAlignment L origin ((List.range (n + 1)).map al)) (al 0).station = .val (some w) ∧
      ¬ (w.x = 0 ∧ w.y = 0) ∧
      ‖dir (toC w) - Complex.exp (heading al 0 * Complex.I)‖ ≤ 1.4e-12 + 4e-15 * shortness al origin 1 := by
  obtain ⟨v, e, -, -, hv⟩ := segmentAt_near L h hn hs
  rw [Nat.cast_zero, zero_add, zero_add] at hv
  obtain ⟨v0, v1⟩ := unit_dir (Complex.norm_exp_ofReal_mul_I _) hv (by linarith)
  refine ⟨v, ?_, v0, v1.trans (by linarith)⟩
  unfold Course.vectorStructure
  rw [h.index_first hn, (head_last al n).1, (head_last al n).2]
  dsimp only
  rw [if_pos (Or.inl rfl)]
  exact e

theorem orientation_last (L : SunLibrary) (h : Regular al origin (n + 1)) (hs : shortness al origin (n + 1) ≤ 1e14) :
    ∃ w : V2, Course.vectorStructure L ((List.range (n + 1 + 1)).map al)
        (Course.pointsAlignment L origin ((List.range (n + 1 + 1)).map al)) (al (n + 1)).station = .val (some w) ∧
      ¬ (w.x = 0 ∧ w.y = 0) ∧
      ‖dir (toC w) - Complex.exp (heading al n * Complex.I)‖ ≤ (n + 1) * 1.4e-12 + 4e-15 * shortness al origin (n + 1) := by
  obtain ⟨v, e, -, -, hv⟩ := segmentAt_near L h (Nat.lt_succ_self n) hs
  have hc := count_le h (Nat.lt_succ_self n)
  obtain ⟨v0, v1⟩ := unit_dir (Complex.norm_exp_ofReal_mul_I _) hv (by linarith)
  refine ⟨v, ?_, v0, v1.trans (by linarith)⟩
  unfold Course.vectorStructure
  rw [h.index_vertex (Nat.lt_succ_self n), (head_last al (n + 1)).1, (head_last al (n + 1)).2]
  dsimp only
  rw [if_pos (Or.inr rfl)]
  exact e

/-- The sum of two directions. -/
theorem sum_dir (θ : ℝ) {τ : ℝ} (hτ : |τ| ≤ 2 * π / 3) :
    1 ≤ ‖Complex.exp (θ * Complex.I) + Complex.exp ((θ + τ : ℝ) * Complex.I)‖ ∧
    dir (Complex.exp (θ * Complex.I) + Complex.exp ((θ + τ : ℝ) * Complex.I)) =
      Complex.exp ((θ + τ / 2 : ℝ) * Complex.I) := by
  have c : 1 / 2 ≤ cos (τ / 2) := by
    rw [← cos_pi_div_three, ← cos_abs (τ / 2)]
    apply cos_le_cos_of_nonneg_of_le_pi (abs_nonneg _) (by linarith [pi_pos])
    rw [abs_div, abs_two]
    linarith
  have e : Complex.exp (θ * Complex.I) + Complex.exp ((θ + τ : ℝ) * Complex.I) =
      ((2 * cos (τ / 2) : ℝ) : ℂ) * Complex.exp ((θ + τ / 2 : ℝ) * Complex.I) := by
    have t := Complex.two_cos ((τ / 2 : ℝ) : ℂ)
    rw [Complex.ofReal_mul, Complex.ofReal_cos, Complex.ofReal_ofNat, t, add_mul, ← Complex.exp_add, ← Complex.exp_add,
      add_comm]
    congr 2 <;> push_cast <;> ring
  have ne : ‖Complex.exp ((θ + τ / 2 : ℝ) * Complex.I)‖ = 1 := Complex.norm_exp_ofReal_mul_I _
  have nn : ‖((2 * cos (τ / 2) : ℝ) : ℂ) * Complex.exp ((θ + τ / 2 : ℝ) * Complex.I)‖ = 2 * cos (τ / 2) := by
    rw [norm_mul, ne, mul_one, Complex.norm_real, Real.norm_eq_abs, abs_of_nonneg (by linarith)]
  rw [e]
  constructor
  · rw [nn]; linarith
  · have c0 : ((2 * cos (τ / 2) : ℝ) : ℂ) ≠ 0 := by
      rw [Ne, Complex.ofReal_eq_zero]; linarith
    unfold dir
    rw [nn]
    exact mul_div_cancel_left₀ _ c0

/-- The average of two unit vectors. -/
theorem average_near (L : SunLibrary) {b a : V2} (bx : IsDouble b.x) (hby : IsDouble b.y) (ax : IsDouble a.x)
    (ay : IsDouble a.y) {E F : ℂ} (hE : ‖E‖ = 1) (hF : ‖F‖ = 1) {ε₁ ε₂ : ℝ} (h1 : ‖toC b - E‖ ≤ ε₁) (h2 : ‖toC a - F‖ ≤ ε₂)
    (hEF : 1 ≤ ‖E + F‖) (hε : ε₁ + ε₂ ≤ 0.4) :
    ∃ w : V2, Course.average L b a = some w ∧ ‖toC w - dir (E + F)‖ ≤ 2 * (ε₁ + ε₂) + 4e-15 := by
  have hu0 := u_pos
  have hu := u_small
  have sm := sum_near bx hby ax ay
  have eb : toC ⟨b.x, b.y⟩ = toC b := rfl
  have ea : toC ⟨a.x, a.y⟩ = toC a := rfl
  rw [eb, ea] at sm
  have hε1 : 0 ≤ ε₁ := (norm_nonneg _).trans h1
  have hε2 : 0 ≤ ε₂ := (norm_nonneg _).trans h2
  have n1 : ‖toC b + toC a - (E + F)‖ ≤ ε₁ + ε₂ := by
    have : toC b + toC a - (E + F) = (toC b - E) + (toC a - F) := by ring
    rw [this]; exact (norm_add_le _ _).trans (add_le_add h1 h2)
  have n2 : ‖E + F‖ ≤ 2 := (norm_add_le _ _).trans (by rw [hE, hF]; norm_num)
  have n3 : ‖toC b + toC a‖ ≤ 2.4 := by
    have := norm_add_le (toC b + toC a - (E + F)) (E + F)
    rw [sub_add_cancel] at this
    linarith
  unfold Course.average
  dsimp only
  set v : V2 := ⟨rnd (b.x + a.x), rnd (b.y + a.y)⟩ with hv
  have s2 : 2 * u * ‖toC b + toC a‖ ≤ 2.3e-16 * 2.4 := mul_le_mul (by linarith) n3 (norm_nonneg _) (by norm_num)
  have n4 : ‖toC v - (E + F)‖ ≤ ε₁ + ε₂ + 6e-16 := by
    have := norm_sub_le_norm_sub_add_norm_sub (toC v) (toC b + toC a) (E + F)
    linarith
  have lo : 0.5 ≤ ‖toC v‖ := by
    have := abs_norm_sub_norm_le (toC v) (E + F)
    have := (abs_le.mp this).1
    linarith
  have hi : ‖toC v‖ ≤ 3 := by
    have := abs_norm_sub_norm_le (toC v) (E + F)
    have := (abs_le.mp this).2
    linarith
  have lo' : (2 : ℝ) ^ (-200 : ℤ) ≤ ‖toC v‖ := by
    refine le_trans ((two_zpow_le (by norm_num : (-200 : ℤ) ≤ -1)).trans (by norm_num)) lo
  have hi' : ‖toC v‖ ≤ 2 ^ (400 : ℤ) :=
    hi.trans (le_trans (by norm_num) (two_zpow_le (by norm_num : (2 : ℤ) ≤ 400)))
  have sc := scale_near L.toLibrary (v := v) (rnd_isDouble _) (rnd_isDouble _) lo' hi' (d := 1)
    ((two_zpow_le (by norm_num : (-101 : ℤ) ≤ 0)).trans (by norm_num))
    (le_trans (by norm_num) (two_zpow_le (by norm_num : (0 : ℤ) ≤ 399)))
  have hm := magnitude_near L.toLibrary (v := v) (rnd_isDouble _) (rnd_isDouble _) ((two_zpow_le (by norm_num)).trans lo')
  have hm0 : Double.magnitude L.toLibrary v ≠ 0 := by
    intro h0
    rw [h0, zero_sub, abs_neg, abs_of_pos (by linarith)] at hm
    have := mul_lt_mul_of_pos_right hu (by linarith : 0 < ‖toC v‖)
    linarith
  rw [if_neg hm0]
  refine ⟨_, rfl, ?_⟩
  have d := dir_near (ε := ε₁ + ε₂ + 6e-16) (a := toC v) (b := E + F) (by linarith)
    (n4.trans (by have := mul_le_mul_of_nonneg_left hEF (by linarith : 0 ≤ ε₁ + ε₂ + 6e-16); linarith))
  rw [Complex.ofReal_one, one_mul] at sc
  have t := norm_sub_le_norm_sub_add_norm_sub (toC (Course.scale v (rnd (1 / Double.magnitude L.toLibrary v))))
    (dir (toC v)) (dir (E + F))
  linarith

/-- The orientation of the alignment at a point between its ends: half way between those of the two segments. -/
theorem orientation_vertex (L : SunLibrary) (h : Regular al origin n) {k : ℕ} (hk : k + 1 < n)
    (hrot : |(al (k + 1)).rotation| ≤ 120) (h1 : shortness al origin (k + 1) ≤ 1e13) (h2 : shortness al origin (k + 2) ≤ 1e13) :
    ∃ w : V2, Course.vectorStructure L ((List.range (n + 1)).map al)
        (Course.pointsAlignment L origin ((List.range (n + 1)).map al)) (al (k + 1)).station = .val (some w) ∧
      ¬ (w.x = 0 ∧ w.y = 0) ∧
      ‖dir (toC w) - Complex.exp ((heading al k + turn (al (k + 1)).rotation / 2 : ℝ) * Complex.I)‖ ≤
        (k + 2) * 6e-12 + 8e-15 * (shortness al origin (k + 1) + shortness al origin (k + 2)) := by
  obtain ⟨b, eb, bx, hby, hb⟩ := segmentAt_near L h (k := k) (by omega) (by linarith)
  obtain ⟨a, ea, ax, ay, ha⟩ := segmentAt_near L h hk (by linarith)
  have hc := count_le h hk
  have hk0 : (0 : ℝ) ≤ k := Nat.cast_nonneg k
  push_cast at hc ha
  have hturn : |turn (al (k + 1)).rotation| ≤ 2 * π / 3 := by
    unfold turn
    split
    · rw [abs_zero]; positivity
    · rw [mul_div_assoc, abs_mul, abs_of_pos (a := π / 180) (by positivity)]
      have := mul_le_mul_of_nonneg_right hrot (by positivity : 0 ≤ π / 180)
      linarith
  have eh : heading al (k + 1) = heading al k + turn (al (k + 1)).rotation := by
    unfold heading; rw [Finset.sum_range_succ]
  rw [eh] at ha
  obtain ⟨s1, s2⟩ := sum_dir (heading al k) hturn
  obtain ⟨w, hw, nw⟩ := average_near L bx hby ax ay (Complex.norm_exp_ofReal_mul_I _) (Complex.norm_exp_ofReal_mul_I _)
    hb ha s1 (by linarith)
  rw [s2] at nw
  have r1 := shortness_nonneg h (k := k + 1) (by omega)
  have r2 := shortness_nonneg h (k := k + 2) (by omega)
  obtain ⟨w0, w1⟩ := unit_dir (Complex.norm_exp_ofReal_mul_I _) nw (by linarith)
  refine ⟨w, ?_, w0, w1.trans (by linarith)⟩
  unfold Course.vectorStructure
  rw [h.index_vertex (k := k) (by omega), (head_last al n).1, (head_last al n).2]
  dsimp only
  have hany : ¬ ((List.range (n + 1)).map al).any (fun p => decide ((al (k + 1)).station = p.station)) = false := by
    rw [Bool.not_eq_false, List.any_eq_true]
    exact ⟨al (k + 1), List.mem_map.mpr ⟨k + 1, List.mem_range.mpr (by omega), rfl⟩, by simp⟩
  rw [if_neg (by
    rintro (h3 | h3)
    · exact (h.lt (j := 0) (k := k + 1) (by omega) (by omega)).ne' h3
    · exact (h.lt (j := k + 1) (k := n) hk le_rfl).ne h3), if_neg (by convert hany), eb]
  have e2 : ((k : ℤ) + 1) = ((k + 1 : ℕ) : ℤ) := by push_cast; ring
  rw [e2, ea]
  dsimp only
  rw [hw]

theorem attachment_eq (L : SunLibrary) {al : List (AlignmentPoint ℝ)} {pts : List P3} {s : LineStructure ℝ}
    (t : Structure ℝ) (a : StructureAttachment ℝ) {w : V2} {b : P3}
    (hw : Course.vectorStructure L al pts s.station = .val (some w))
    (hb : Course.fromStation L al pts s.station = .val (some b)) :
    Course.attachmentPoint L al pts s t a = .val (some (Course.attachmentTurned L (Course.attachmentLocal L s t a) w b)) := by
  unfold Course.attachmentPoint
  rw [hw, hb]

/-- The loss of the rotation threshold does not happen away from the first axis. -/
theorem fine_angle (L : SunLibrary) {w : V2} (hw : ¬ (w.x = 0 ∧ w.y = 0)) {E : ℂ} {ε : ℝ}
    (hE : ‖dir (toC w) - E‖ ≤ ε) (hε : ε ≤ 1e-7) (h1 : 2e-6 ≤ ‖E - 1‖) :
    ‖Complex.exp (turn (Double.angle L.toLibrary w) * Complex.I) - dir (toC w)‖ ≤ 1e-13 := by
  obtain ⟨-, a, b⟩ := angle_dir L hw
  have hr := (C178_range_partial L.toLibrary w hw).1
  rcases le_or_gt (rnd 0.00005) (Double.angle L.toLibrary w) with h | h
  · exact b h
  · have e : turn (Double.angle L.toLibrary w) = 0 := by
      unfold turn; rw [if_pos]; rw [abs_of_nonneg hr.1]; exact h
    rw [e] at a
    simp only [Complex.ofReal_zero, zero_mul, Complex.exp_zero] at a
    rw [norm_sub_rev] at a
    have := norm_sub_le_norm_sub_add_norm_sub E (dir (toC w)) 1
    rw [norm_sub_rev E (dir (toC w))] at this
    linarith

/-- The point of a structure between two alignment points. -/
theorem station_base (L : SunLibrary) (h : Regular al origin n) {k : ℕ} (hk : k < n) {s : ℝ} (hs : IsDouble s)
    (h1 : (al k).station + 2 ^ (-100 : ℤ) ≤ s) (h2 : s < (al (k + 1)).station) (hshort : shortness al origin k ≤ 1e14) :
    ∃ b, Course.fromStation L ((List.range (n + 1)).map al) (Course.pointsAlignment L origin ((List.range (n + 1)).map al))
        s = .val (some b) ∧ IsDouble b.x ∧ IsDouble b.y ∧
      ‖toC ⟨b.x, b.y⟩ - (place al origin k + ((s - (al k).station : ℝ) : ℂ) * Complex.exp (heading al k * Complex.I))‖ ≤
        (k + 1) * (1.5e-12 * (s - (al 0).station) + 1e-15 * √(origin.x ^ 2 + origin.y ^ 2)) +
          4e-15 * shortness al origin k * (s - (al k).station) ∧
      ‖toC ⟨b.x, b.y⟩‖ ≤ 2 * (√(origin.x ^ 2 + origin.y ^ 2) + (s - (al 0).station)) := by
  have hpos := two_zpow_pos (-100)
  obtain ⟨b, e, hb⟩ := C189_station_partial L al origin n h k hk s hs h1 h2 hshort
  obtain ⟨v, hv, -⟩ := before L h hk.le hshort
  have e' := fromStation_eq L h hk (by linarith) h2 hv
  rw [e] at e'
  simp only [Option.map_some, Res.val.injEq, Option.some.injEq] at e'
  refine ⟨b, e, by rw [e']; exact rnd_isDouble _, by rw [e']; exact rnd_isDouble _, hb, ?_⟩
  have ne : ‖Complex.exp (heading al k * Complex.I)‖ = 1 := Complex.norm_exp_ofReal_mul_I _
  have hS0 : 0 < s - (al k).station := by linarith
  have c := h.place_le k hk.le
  have eo : ‖toC ⟨origin.x, origin.y⟩‖ = √(origin.x ^ 2 + origin.y ^ 2) := norm_toC _
  rw [eo] at c
  have hm := h.mono k hk.le
  have hc := count_le h hk
  have n1 : ‖place al origin k + ((s - (al k).station : ℝ) : ℂ) * Complex.exp (heading al k * Complex.I)‖ ≤
      √(origin.x ^ 2 + origin.y ^ 2) + (s - (al 0).station) := by
    refine (norm_add_le _ _).trans ?_
    rw [norm_mul, ne, mul_one, Complex.norm_real, Real.norm_eq_abs, abs_of_pos hS0]
    linarith
  have n2 := norm_add_le (toC ⟨b.x, b.y⟩ - (place al origin k +
    ((s - (al k).station : ℝ) : ℂ) * Complex.exp (heading al k * Complex.I)))
    (place al origin k + ((s - (al k).station : ℝ) : ℂ) * Complex.exp (heading al k * Complex.I))
  rw [sub_add_cancel] at n2
  have hO := Real.sqrt_nonneg (origin.x ^ 2 + origin.y ^ 2)
  have hb' : ‖toC ⟨b.x, b.y⟩ - (place al origin k +
      ((s - (al k).station : ℝ) : ℂ) * Complex.exp (heading al k * Complex.I))‖ ≤ _ := hb
  have k1 : (k + 1) * (1.5e-12 * (s - (al 0).station) + 1e-15 * √(origin.x ^ 2 + origin.y ^ 2)) ≤
      1e11 * (1.5e-12 * (s - (al 0).station) + 1e-15 * √(origin.x ^ 2 + origin.y ^ 2)) :=
    mul_le_mul_of_nonneg_right hc (by linarith)
  have k2 : 4e-15 * shortness al origin k * (s - (al k).station) ≤ 0.4 * (s - (al k).station) :=
    mul_le_mul_of_nonneg_right (by linarith) hS0.le
  linarith

end Traverse

open Traverse

/-- An attachment of a structure between two points of the alignment: at the offsets of the attachment and the structure
from the station of the structure, turned by the rotation of the structure and the direction of the line. -/
theorem C190_between_partial (L : SunLibrary) (al : ℕ → AlignmentPoint ℝ) (origin : P3) (n : ℕ) (h : Regular al origin n)
    (s : LineStructure ℝ) (t : Structure ℝ) (a : StructureAttachment ℝ)
    (d1 : IsDouble a.offsetLongitudinal) (d2 : IsDouble a.offsetTransverse) (d3 : IsDouble s.offset)
    (hr : |s.rotation| ≤ 360) (hs : IsDouble s.station) (k : ℕ) (hk : k < n)
    (h1 : (al k).station + 2 ^ (-100 : ℤ) ≤ s.station) (h2 : s.station < (al (k + 1)).station)
    (s1 : shortness al origin k ≤ 1e14) (s2 : shortness al origin (k + 1) ≤ 1e14) :
    ∃ p, Course.attachmentPoint L ((List.range (n + 1)).map al)
        (Course.pointsAlignment L origin ((List.range (n + 1)).map al)) s t a = .val (some p) ∧
      ‖(⟨p.x, p.y⟩ : ℂ) - (place al origin k + (((s.station - (al k).station : ℝ) : ℂ) +
          ((⟨a.offsetLongitudinal, -a.offsetTransverse⟩ : ℂ) * Complex.exp (turn s.rotation * Complex.I) -
            s.offset * Complex.I)) * Complex.exp (heading al k * Complex.I))‖ ≤
        (k + 1) * (1.6e-12 * (s.station - (al 0).station) + 2e-15 * √(origin.x ^ 2 + origin.y ^ 2)) +
          4e-15 * shortness al origin k * (s.station - (al k).station) +
          (2e-6 + (k + 1) * 1.4e-12 + 4e-15 * shortness al origin (k + 1)) * reach s a + 2 ^ (-285 : ℤ) := by
  have hpos := two_zpow_pos (-100)
  obtain ⟨w, hw, w0, wE⟩ := orientation_between L h hk (by linarith) h2 s2
  obtain ⟨b, hb, bx, hby, bE, bn⟩ := station_base L h hk hs h1 h2 s1
  refine ⟨_, attachment_eq L t a hw hb, ?_⟩
  have hc := count_le h hk
  have tn := turned_near L t d1 d2 d3 hr w0 bx hby (Complex.norm_exp_ofReal_mul_I (heading al k)) wE (angle_dir L w0).2.1
    (by norm_num) (by linarith)
  set P := Course.attachmentTurned L (Course.attachmentLocal L s t a) w b
  set E := Complex.exp (heading al k * Complex.I)
  have R0 : 0 ≤ reach s a := (norm_nonneg _).trans (localPlace_le s a)
  set X := localPlace s a with hX
  have goal : ‖toC ⟨P.x, P.y⟩ - (place al origin k + (((s.station - (al k).station : ℝ) : ℂ) + X) * E)‖ ≤
        (k + 1) * (1.6e-12 * (s.station - (al 0).station) + 2e-15 * √(origin.x ^ 2 + origin.y ^ 2)) +
          4e-15 * shortness al origin k * (s.station - (al k).station) +
          (2e-6 + (k + 1) * 1.4e-12 + 4e-15 * shortness al origin (k + 1)) * reach s a + 2 ^ (-285 : ℤ) := by
    have e : toC ⟨P.x, P.y⟩ - (place al origin k + (((s.station - (al k).station : ℝ) : ℂ) + X) * E) =
        (toC ⟨P.x, P.y⟩ - (toC ⟨b.x, b.y⟩ + X * E)) +
          (toC ⟨b.x, b.y⟩ - (place al origin k + ((s.station - (al k).station : ℝ) : ℂ) * E)) := by ring
    rw [e]
    refine (norm_add_le _ _).trans ?_
    have hO := Real.sqrt_nonneg (origin.x ^ 2 + origin.y ^ 2)
    have hm := h.mono k hk.le
    have hk0 : (0 : ℝ) ≤ k := Nat.cast_nonneg k
    generalize √(origin.x ^ 2 + origin.y ^ 2) = O at *
    generalize (2 : ℝ) ^ (-285 : ℤ) = ω at *
    have hT : 0 ≤ s.station - (al 0).station := by linarith
    have x1 : 0 ≤ k * (s.station - (al 0).station) := by positivity
    have x2 : 0 ≤ k * O := by positivity
    linarith
  exact goal

/-- The same, to rounding only, where the line is not within 2e-6 radians of the direction of the first axis. -/
theorem C190_fine_partial (L : SunLibrary) (al : ℕ → AlignmentPoint ℝ) (origin : P3) (n : ℕ) (h : Regular al origin n)
    (s : LineStructure ℝ) (t : Structure ℝ) (a : StructureAttachment ℝ)
    (d1 : IsDouble a.offsetLongitudinal) (d2 : IsDouble a.offsetTransverse) (d3 : IsDouble s.offset)
    (hr : |s.rotation| ≤ 360) (hs : IsDouble s.station) (k : ℕ) (hk : k < n)
    (h1 : (al k).station + 2 ^ (-100 : ℤ) ≤ s.station) (h2 : s.station < (al (k + 1)).station)
    (s1 : shortness al origin k ≤ 1e14) (s2 : shortness al origin (k + 1) ≤ 1e7) (hk4 : k < 10000)
    (hE : 2e-6 ≤ ‖Complex.exp (heading al k * Complex.I) - 1‖) :
    ∃ p, Course.attachmentPoint L ((List.range (n + 1)).map al)
        (Course.pointsAlignment L origin ((List.range (n + 1)).map al)) s t a = .val (some p) ∧
      ‖(⟨p.x, p.y⟩ : ℂ) - (place al origin k + (((s.station - (al k).station : ℝ) : ℂ) +
          ((⟨a.offsetLongitudinal, -a.offsetTransverse⟩ : ℂ) * Complex.exp (turn s.rotation * Complex.I) -
            s.offset * Complex.I)) * Complex.exp (heading al k * Complex.I))‖ ≤
        (k + 1) * (1.6e-12 * (s.station - (al 0).station) + 2e-15 * √(origin.x ^ 2 + origin.y ^ 2)) +
          4e-15 * shortness al origin k * (s.station - (al k).station) +
          ((k + 1) * 3.6e-12 + 4e-15 * shortness al origin (k + 1)) * reach s a + 2 ^ (-285 : ℤ) := by
  have hpos := two_zpow_pos (-100)
  obtain ⟨w, hw, w0, wE⟩ := orientation_between L h hk (by linarith) h2 (by linarith)
  obtain ⟨b, hb, bx, hby, bE, bn⟩ := station_base L h hk hs h1 h2 s1
  refine ⟨_, attachment_eq L t a hw hb, ?_⟩
  have hk5 : (k : ℝ) + 1 ≤ 10000 := by
    have : ((k + 1 : ℕ) : ℝ) ≤ (10000 : ℕ) := by exact_mod_cast hk4
    push_cast at this
    exact this
  have tn := turned_near L t d1 d2 d3 hr w0 bx hby (Complex.norm_exp_ofReal_mul_I (heading al k)) wE
    (fine_angle L w0 wE (by linarith) hE) (by norm_num) (by linarith)
  set P := Course.attachmentTurned L (Course.attachmentLocal L s t a) w b
  set E := Complex.exp (heading al k * Complex.I)
  have R0 : 0 ≤ reach s a := (norm_nonneg _).trans (localPlace_le s a)
  set X := localPlace s a with hX
  have goal : ‖toC ⟨P.x, P.y⟩ - (place al origin k + (((s.station - (al k).station : ℝ) : ℂ) + X) * E)‖ ≤
        (k + 1) * (1.6e-12 * (s.station - (al 0).station) + 2e-15 * √(origin.x ^ 2 + origin.y ^ 2)) +
          4e-15 * shortness al origin k * (s.station - (al k).station) +
          ((k + 1) * 3.6e-12 + 4e-15 * shortness al origin (k + 1)) * reach s a + 2 ^ (-285 : ℤ) := by
    have e : toC ⟨P.x, P.y⟩ - (place al origin k + (((s.station - (al k).station : ℝ) : ℂ) + X) * E) =
        (toC ⟨P.x, P.y⟩ - (toC ⟨b.x, b.y⟩ + X * E)) +
          (toC ⟨b.x, b.y⟩ - (place al origin k + ((s.station - (al k).station : ℝ) : ℂ) * E)) := by ring
    rw [e]
    refine (norm_add_le _ _).trans ?_
    have hO := Real.sqrt_nonneg (origin.x ^ 2 + origin.y ^ 2)
    have hm := h.mono k hk.le
    have hk0 : (0 : ℝ) ≤ k := Nat.cast_nonneg k
    generalize √(origin.x ^ 2 + origin.y ^ 2) = O at *
    generalize (2 : ℝ) ^ (-285 : ℤ) = ω at *
    have hT : 0 ≤ s.station - (al 0).station := by linarith
    have x1 : 0 ≤ k * (s.station - (al 0).station) := by positivity
    have x2 : 0 ≤ k * O := by positivity
    have x3 : 0 ≤ k * reach s a := by positivity
    linarith
  exact goal

/-- An attachment of a structure at a point of the alignment between its ends: turned to the direction half way between
those of the two segments. -/
theorem C190_angle_partial (L : SunLibrary) (al : ℕ → AlignmentPoint ℝ) (origin : P3) (n : ℕ) (h : Regular al origin n)
    (s : LineStructure ℝ) (t : Structure ℝ) (a : StructureAttachment ℝ)
    (d1 : IsDouble a.offsetLongitudinal) (d2 : IsDouble a.offsetTransverse) (d3 : IsDouble s.offset)
    (hr : |s.rotation| ≤ 360) (k : ℕ) (hk : k + 1 < n) (hs : s.station = (al (k + 1)).station)
    (hrot : |(al (k + 1)).rotation| ≤ 120) (s1 : shortness al origin (k + 1) ≤ 1e13)
    (s2 : shortness al origin (k + 2) ≤ 1e13) :
    ∃ p, Course.attachmentPoint L ((List.range (n + 1)).map al)
        (Course.pointsAlignment L origin ((List.range (n + 1)).map al)) s t a = .val (some p) ∧
      ‖(⟨p.x, p.y⟩ : ℂ) - (place al origin (k + 1) +
          ((⟨a.offsetLongitudinal, -a.offsetTransverse⟩ : ℂ) * Complex.exp (turn s.rotation * Complex.I) -
            s.offset * Complex.I) *
              Complex.exp ((heading al k + turn (al (k + 1)).rotation / 2 : ℝ) * Complex.I))‖ ≤
        (k + 1) * (6e-13 * (s.station - (al 0).station) + 2e-15 * √(origin.x ^ 2 + origin.y ^ 2)) +
          (2e-6 + (k + 2) * 6e-12 + 8e-15 * (shortness al origin (k + 1) + shortness al origin (k + 2))) * reach s a +
          2 ^ (-285 : ℤ) := by
  obtain ⟨w, hw, w0, wE⟩ := orientation_vertex L h hk hrot s1 s2
  obtain ⟨b, hb0, hb⟩ := C189_vertex L al origin n h (by omega) (k + 1) (by omega)
  rw [← hs] at hb hw
  refine ⟨_, attachment_eq L t a hw hb, ?_⟩
  obtain ⟨b', hb', bE⟩ := C188_points_partial L al origin n h (k + 1) (by omega)
  rw [hb0] at hb'
  simp only [Option.some.injEq] at hb'
  subst hb'
  rw [point_at L al origin (by omega)] at hb0
  simp only [Option.some.injEq] at hb0
  have i := inv L h (k + 1) (by omega)
  have hc := count_le h hk
  push_cast at hc
  have tn := turned_near L t d1 d2 d3 hr w0 (base := b) (by rw [← hb0]; exact i.px) (by rw [← hb0]; exact i.py)
    (Complex.norm_exp_ofReal_mul_I (heading al k + turn (al (k + 1)).rotation / 2)) wE (angle_dir L w0).2.1
    (by norm_num) (by linarith)
  set P := Course.attachmentTurned L (Course.attachmentLocal L s t a) w b
  set E := Complex.exp ((heading al k + turn (al (k + 1)).rotation / 2 : ℝ) * Complex.I)
  have R0 : 0 ≤ reach s a := (norm_nonneg _).trans (localPlace_le s a)
  set X := localPlace s a with hX
  have bE' : ‖toC ⟨b.x, b.y⟩ - place al origin (k + 1)‖ ≤ _ := bE
  have pl := h.place_le (k + 1) (by omega)
  have eo : ‖toC ⟨origin.x, origin.y⟩‖ = √(origin.x ^ 2 + origin.y ^ 2) := norm_toC _
  rw [eo] at pl
  have nb := norm_add_le (toC ⟨b.x, b.y⟩ - place al origin (k + 1)) (place al origin (k + 1))
  rw [sub_add_cancel] at nb
  rw [hs]
  have goal : ‖toC ⟨P.x, P.y⟩ - (place al origin (k + 1) + X * E)‖ ≤
        (k + 1) * (6e-13 * ((al (k + 1)).station - (al 0).station) + 2e-15 * √(origin.x ^ 2 + origin.y ^ 2)) +
          (2e-6 + (k + 2) * 6e-12 + 8e-15 * (shortness al origin (k + 1) + shortness al origin (k + 2))) * reach s a +
          2 ^ (-285 : ℤ) := by
    have e : toC ⟨P.x, P.y⟩ - (place al origin (k + 1) + X * E) =
        (toC ⟨P.x, P.y⟩ - (toC ⟨b.x, b.y⟩ + X * E)) + (toC ⟨b.x, b.y⟩ - place al origin (k + 1)) := by ring
    rw [e]
    refine (norm_add_le _ _).trans ?_
    have hO := Real.sqrt_nonneg (origin.x ^ 2 + origin.y ^ 2)
    have hm := h.mono (k + 1) (by omega)
    have hk0 : (0 : ℝ) ≤ k := Nat.cast_nonneg k
    push_cast at bE'
    generalize √(origin.x ^ 2 + origin.y ^ 2) = O at *
    generalize (2 : ℝ) ^ (-285 : ℤ) = ω at *
    have hT : 0 ≤ (al (k + 1)).station - (al 0).station := by linarith
    generalize (al (k + 1)).station - (al 0).station = T at *
    have x1 : 0 ≤ k * T := by positivity
    have x2 : 0 ≤ k * O := by positivity
    have x3 : (k + 1) * (5e-13 * T + 1e-15 * O) ≤ 1e11 * (5e-13 * T + 1e-15 * O) :=
      mul_le_mul_of_nonneg_right (by linarith) (by positivity)
    linarith
  exact goal

/-- Attachments of structures at the two ends of the alignment: turned to the first and the last segment. -/
theorem C190_ends_partial (L : SunLibrary) (al : ℕ → AlignmentPoint ℝ) (origin : P3) (n : ℕ)
    (h : Regular al origin (n + 1)) (s : LineStructure ℝ) (t : Structure ℝ) (a : StructureAttachment ℝ)
    (d1 : IsDouble a.offsetLongitudinal) (d2 : IsDouble a.offsetTransverse) (d3 : IsDouble s.offset)
    (hr : |s.rotation| ≤ 360) :
    (s.station = (al 0).station → shortness al origin 1 ≤ 1e14 →
      ∃ p, Course.attachmentPoint L ((List.range (n + 2)).map al)
          (Course.pointsAlignment L origin ((List.range (n + 2)).map al)) s t a = .val (some p) ∧
        ‖(⟨p.x, p.y⟩ : ℂ) - ((⟨origin.x, origin.y⟩ : ℂ) +
            ((⟨a.offsetLongitudinal, -a.offsetTransverse⟩ : ℂ) * Complex.exp (turn s.rotation * Complex.I) -
              s.offset * Complex.I) * Complex.exp (heading al 0 * Complex.I))‖ ≤
          2.5e-16 * √(origin.x ^ 2 + origin.y ^ 2) + (2e-6 + 4e-15 * shortness al origin 1) * reach s a +
            2 ^ (-285 : ℤ)) ∧
    (s.station = (al (n + 1)).station → shortness al origin (n + 1) ≤ 1e14 →
      ∃ p, Course.attachmentPoint L ((List.range (n + 2)).map al)
          (Course.pointsAlignment L origin ((List.range (n + 2)).map al)) s t a = .val (some p) ∧
        ‖(⟨p.x, p.y⟩ : ℂ) - (place al origin (n + 1) +
            ((⟨a.offsetLongitudinal, -a.offsetTransverse⟩ : ℂ) * Complex.exp (turn s.rotation * Complex.I) -
              s.offset * Complex.I) * Complex.exp (heading al n * Complex.I))‖ ≤
          (n + 1) * (6e-13 * (s.station - (al 0).station) + 2e-15 * √(origin.x ^ 2 + origin.y ^ 2)) +
            (2e-6 + (n + 1) * 1.4e-12 + 4e-15 * shortness al origin (n + 1)) * reach s a + 2 ^ (-285 : ℤ)) := by
  have R0 : 0 ≤ reach s a := (norm_nonneg _).trans (localPlace_le s a)
  have eo : ‖toC ⟨origin.x, origin.y⟩‖ = √(origin.x ^ 2 + origin.y ^ 2) := norm_toC _
  constructor
  · intro hs s1
    obtain ⟨w, hw, w0, wE⟩ := orientation_first L h (Nat.succ_pos n) s1
    obtain ⟨b, hb0, hb⟩ := C189_vertex L al origin (n + 1) h (by omega) 0 (by omega)
    rw [← hs] at hb hw
    refine ⟨_, attachment_eq L t a hw hb, ?_⟩
    rw [point_at L al origin (by omega)] at hb0
    simp only [Option.some.injEq] at hb0
    have hb1 : b = origin := hb0.symm
    subst hb1
    have tn := turned_near L t d1 d2 d3 hr w0 (base := b) h.origin_x h.origin_y
      (Complex.norm_exp_ofReal_mul_I (heading al 0)) wE (angle_dir L w0).2.1 (by norm_num) (by linarith)
    rw [eo] at tn
    refine le_trans (le_of_eq ?_) (tn.trans ?_)
    · rfl
    · generalize (2 : ℝ) ^ (-285 : ℤ) = ω at *
      linarith
  · intro hs s1
    obtain ⟨w, hw, w0, wE⟩ := orientation_last L h s1
    obtain ⟨b, hb0, hb⟩ := C189_vertex L al origin (n + 1) h (by omega) (n + 1) le_rfl
    rw [← hs] at hb hw
    refine ⟨_, attachment_eq L t a hw hb, ?_⟩
    obtain ⟨b', hb', bE⟩ := C188_points_partial L al origin (n + 1) h (n + 1) le_rfl
    rw [hb0] at hb'
    simp only [Option.some.injEq] at hb'
    subst hb'
    rw [point_at L al origin le_rfl] at hb0
    simp only [Option.some.injEq] at hb0
    have i := inv L h (n + 1) le_rfl
    have hc := count_le h (Nat.lt_succ_self n)
    have tn := turned_near L t d1 d2 d3 hr w0 (base := b) (by rw [← hb0]; exact i.px) (by rw [← hb0]; exact i.py)
      (Complex.norm_exp_ofReal_mul_I (heading al n)) wE (angle_dir L w0).2.1 (by norm_num) (by linarith)
    set P := Course.attachmentTurned L (Course.attachmentLocal L s t a) w b
    set E := Complex.exp (heading al n * Complex.I)
    set X := localPlace s a with hX
    have bE' : ‖toC ⟨b.x, b.y⟩ - place al origin (n + 1)‖ ≤ _ := bE
    have pl := h.place_le (n + 1) le_rfl
    rw [eo] at pl
    have nb := norm_add_le (toC ⟨b.x, b.y⟩ - place al origin (n + 1)) (place al origin (n + 1))
    rw [sub_add_cancel] at nb
    rw [hs]
    have goal : ‖toC ⟨P.x, P.y⟩ - (place al origin (n + 1) + X * E)‖ ≤
          (n + 1) * (6e-13 * ((al (n + 1)).station - (al 0).station) + 2e-15 * √(origin.x ^ 2 + origin.y ^ 2)) +
            (2e-6 + (n + 1) * 1.4e-12 + 4e-15 * shortness al origin (n + 1)) * reach s a + 2 ^ (-285 : ℤ) := by
      have e : toC ⟨P.x, P.y⟩ - (place al origin (n + 1) + X * E) =
          (toC ⟨P.x, P.y⟩ - (toC ⟨b.x, b.y⟩ + X * E)) + (toC ⟨b.x, b.y⟩ - place al origin (n + 1)) := by ring
      rw [e]
      refine (norm_add_le _ _).trans ?_
      have hO := Real.sqrt_nonneg (origin.x ^ 2 + origin.y ^ 2)
      have hm := h.mono (n + 1) le_rfl
      have hk0 : (0 : ℝ) ≤ n := Nat.cast_nonneg n
      push_cast at bE'
      generalize √(origin.x ^ 2 + origin.y ^ 2) = O at *
      generalize (2 : ℝ) ^ (-285 : ℤ) = ω at *
      have hT : 0 ≤ (al (n + 1)).station - (al 0).station := by linarith
      generalize (al (n + 1)).station - (al 0).station = T at *
      have x1 : 0 ≤ n * T := by positivity
      have x2 : 0 ≤ n * O := by positivity
      have x3 : (n + 1) * (5e-13 * T + 1e-15 * O) ≤ 1e11 * (5e-13 * T + 1e-15 * O) :=
        mul_le_mul_of_nonneg_right (by linarith) (by positivity)
      linarith
    exact goal

/-- The height of an attachment: the elevation of the structure's point, the height of the structure with its adjustment
and the offset from the top, to within rounding. -/
theorem C190_height (L : SunLibrary) (al : List (AlignmentPoint ℝ)) (pts : List P3) (s : LineStructure ℝ) (t : Structure ℝ)
    (a : StructureAttachment ℝ) (p b : P3) (hp : Course.attachmentPoint L al pts s t a = .val (some p))
    (hb : Course.fromStation L al pts s.station = .val (some b)) :
    |p.z - (b.z + (s.heightAdjustment + t.height + a.offsetVerticalTop))| ≤
      4e-16 * (|s.heightAdjustment| + |t.height| + |a.offsetVerticalTop| + |b.z|) + 2 ^ (-1072 : ℤ) := by
  have hu0 := u_pos
  have hu := u_small
  have e : p.z = rnd (rnd (rnd (s.heightAdjustment + t.height) + a.offsetVerticalTop) + b.z) := by
    unfold Course.attachmentPoint at hp
    rw [hb] at hp
    cases hw : Course.vectorStructure L al pts s.station with
    | ub => rw [hw] at hp; simp at hp
    | throws => rw [hw] at hp; simp at hp
    | val w =>
      rw [hw] at hp
      cases w with
      | none => simp at hp
      | some w =>
        simp only [Res.val.injEq, Option.some.injEq] at hp
        rw [← hp]
        rfl
  rw [e]
  have r1 := rnd_error_le (s.heightAdjustment + t.height)
  have r2 := rnd_error_le (rnd (s.heightAdjustment + t.height) + a.offsetVerticalTop)
  have r3 := rnd_error_le (rnd (rnd (s.heightAdjustment + t.height) + a.offsetVerticalTop) + b.z)
  have q : (2 : ℝ) ^ (-1072 : ℤ) = 2 ^ (-1075 : ℤ) * 8 := by
    have : (8 : ℝ) = 2 ^ (3 : ℤ) := by norm_num
    rw [this, ← zpow_add₀ (by norm_num)]; norm_num
  rw [q]
  have η0 := two_zpow_pos (-1075)
  generalize (2 : ℝ) ^ (-1075 : ℤ) = η at *
  generalize s.heightAdjustment = x at *
  generalize t.height = y at *
  generalize a.offsetVerticalTop = z at *
  generalize b.z = w at *
  set A := rnd (x + y)
  set B := rnd (A + z)
  have uη : u * η ≤ η / 1000 := by have := mul_le_mul_of_nonneg_right hu.le η0.le; linarith
  have x0 := abs_nonneg x
  have y0 := abs_nonneg y
  have z0 := abs_nonneg z
  have w0 := abs_nonneg w
  have a1 : |x + y| ≤ |x| + |y| := abs_add_le _ _
  have m1 := mul_le_mul_of_nonneg_left a1 hu0.le
  have s1 : u * (|x| + |y|) ≤ 1.2e-16 * (|x| + |y|) := mul_le_mul_of_nonneg_right (by linarith) (by linarith)
  have A1 : |A| ≤ 1.001 * (|x| + |y|) + η := by
    have := abs_add_le (A - (x + y)) (x + y)
    rw [sub_add_cancel] at this
    linarith
  have a2 : |A + z| ≤ 1.001 * (|x| + |y| + |z|) + η := (abs_add_le _ _).trans (by linarith)
  have m2 : u * |A + z| ≤ 1.2e-16 * (1.001 * (|x| + |y| + |z|) + η) :=
    mul_le_mul (by linarith) a2 (abs_nonneg _) (by norm_num)
  have B1 : |B| ≤ 1.002 * (|x| + |y| + |z|) + 3 * η := by
    have := abs_add_le (B - (A + z)) (A + z)
    rw [sub_add_cancel] at this
    linarith
  have a3 : |B + w| ≤ 1.002 * (|x| + |y| + |z| + |w|) + 3 * η := (abs_add_le _ _).trans (by linarith)
  have m3 : u * |B + w| ≤ 1.2e-16 * (1.002 * (|x| + |y| + |z| + |w|) + 3 * η) :=
    mul_le_mul (by linarith) a3 (abs_nonneg _) (by norm_num)
  have f1 : |A - (x + y)| ≤ 1.2e-16 * (|x| + |y|) + η := by linarith
  have f2 : |B - (A + z)| ≤ 1.3e-16 * (|x| + |y| + |z|) + 2 * η := by linarith
  have f3 : |rnd (B + w) - (B + w)| ≤ 1.3e-16 * (|x| + |y| + |z| + |w|) + 2 * η := by linarith
  rw [abs_le] at f1 f2 f3 ⊢
  constructor <;> linarith

/-- Along a segment turned by `2⁻¹⁵` degrees from the first axis an attachment is placed as if it were not turned at all:
64 units ahead of the structure it has the second coordinate of the structure, and is off the line by more than 3.4e-5. -/
theorem C190_fine_fails (L : SunLibrary) : ∃ (al : ℕ → AlignmentPoint ℝ) (s : LineStructure ℝ) (t : Structure ℝ)
    (a : StructureAttachment ℝ) (p b : P3), Regular al ⟨0, 0, 0⟩ 2 ∧ (al 1).station < s.station ∧
    s.station < (al 2).station ∧ s.rotation = 0 ∧ s.offset = 0 ∧ a.offsetTransverse = 0 ∧ a.offsetLongitudinal = 64 ∧
    Course.fromStation L ((List.range 3).map al) (Course.pointsAlignment L ⟨0, 0, 0⟩ ((List.range 3).map al)) s.station =
      .val (some b) ∧
    Course.attachmentPoint L ((List.range 3).map al) (Course.pointsAlignment L ⟨0, 0, 0⟩ ((List.range 3).map al)) s t a =
      .val (some p) ∧ p.y = b.y ∧ 3.4e-5 ≤ (64 * Complex.exp (heading al 1 * Complex.I)).im := by
  let al : ℕ → AlignmentPoint ℝ := fun k =>
    if k = 0 then ⟨0, 30, 0⟩ else if k = 1 then ⟨0, -30 + 2 ^ (-15 : ℤ), 1000⟩ else ⟨0, 0, 2000⟩
  have int : ∀ m : ℤ, |m| ≤ 2 ^ 53 → IsDouble (m : ℝ) := fun m h => isDouble_int (by exact_mod_cast h)
  have b1 : (2 : ℝ) ^ (-100 : ℤ) ≤ 1 ∧ (4096 : ℝ) ≤ 2 ^ (398 : ℤ) := by
    constructor
    · exact_mod_cast (two_zpow_le (by norm_num : (-100 : ℤ) ≤ 0)).trans (by norm_num)
    · refine le_trans (by norm_num) (two_zpow_le (by norm_num : (12 : ℤ) ≤ 398))
  have hR : Regular al ⟨0, 0, 0⟩ 2 := by
    refine ⟨isDouble_zero, isDouble_zero, isDouble_zero, ?_, ?_, ?_, ?_, ?_, by norm_num⟩
    · intro k hk
      interval_cases k
      · exact isDouble_zero
      · exact_mod_cast int 1000 (by norm_num)
      · exact_mod_cast int 2000 (by norm_num)
    · intro k hk
      interval_cases k <;> exact isDouble_zero
    · intro k hk
      interval_cases k
      · show |(30 : ℝ)| ≤ 360
        norm_num
      · show |(-30 : ℝ) + 2 ^ (-15 : ℤ)| ≤ 360
        rw [abs_le]; constructor <;> norm_num
      · show |(0 : ℝ)| ≤ 360
        norm_num
    · intro k hk
      refine b1.1.trans ?_
      interval_cases k <;> norm_num [al]
    · intro k hk
      refine le_trans ?_ b1.2
      interval_cases k <;> norm_num [al]
  have hθ : heading al 1 = 2 ^ (-15 : ℤ) * π / 180 := by
    have th := threshold.2
    have e : heading al 1 = turn 30 + turn (-30 + 2 ^ (-15 : ℤ)) := by
      unfold heading
      rw [Finset.sum_range_succ, Finset.sum_range_one]
      rfl
    have t1 : turn 30 = 30 * π / 180 := by
      unfold turn; rw [if_neg]; rw [abs_of_pos (by norm_num)]; linarith
    have t2 : turn (-30 + 2 ^ (-15 : ℤ)) = (-30 + 2 ^ (-15 : ℤ)) * π / 180 := by
      unfold turn; rw [if_neg]
      have : (2 : ℝ) ^ (-15 : ℤ) ≤ 1 := by norm_num
      rw [abs_of_neg (by linarith)]; linarith
    rw [e, t1, t2]; ring
  have hpl := Real.pi_gt_d6
  have hpu := Real.pi_lt_d6
  have hc15 : (2 : ℝ) ^ (-15 : ℤ) = 1 / 32768 := by norm_num
  rw [hc15] at hθ
  set θ := heading al 1 with hθd
  have θ1 : 5.32e-7 ≤ θ ∧ θ ≤ 5.33e-7 := by rw [hθ]; constructor <;> linarith
  have sθ : 5.3199e-7 ≤ sin θ ∧ sin θ ≤ 5.33e-7 := by
    have hl := Real.sin_gt_sub_cube (x := θ) (by linarith [θ1.1])
    have hu := Real.sin_le (x := θ) (by linarith [θ1.1])
    have : θ ^ 3 ≤ 1e-18 := by
      have := pow_le_pow_left₀ (by linarith [θ1.1]) (by linarith [θ1.2] : θ ≤ 1e-6) 3
      linarith [this]
    constructor
    · linarith [θ1.1]
    · linarith [θ1.2]
  have cθ : 1 - 1e-12 ≤ cos θ := by
    have := Real.one_sub_sq_div_two_le_cos (x := θ)
    have : θ ^ 2 ≤ 1e-12 := by
      have := pow_le_pow_left₀ (by linarith [θ1.1]) (by linarith [θ1.2] : θ ≤ 1e-6) 2
      linarith [this]
    linarith
  have sh1 : shortness al ⟨0, 0, 0⟩ 1 = 1 := by
    unfold shortness; norm_num [al]
  have sh2 : shortness al ⟨0, 0, 0⟩ 2 = 2 := by
    unfold shortness; norm_num [al]
  have hs : IsDouble (1500 : ℝ) := by exact_mod_cast int 1500 (by norm_num)
  have l1 : (al 1).station = 1000 := rfl
  have l2 : (al 2).station = 2000 := rfl
  obtain ⟨w, hw, w0, wE⟩ := orientation_between L hR (k := 1) (by norm_num) (s := 1500) (by rw [l1]; norm_num)
    (by show (1500 : ℝ) < (al 2).station; rw [l2]; norm_num) (by show shortness al ⟨0, 0, 0⟩ 2 ≤ _; rw [sh2]; norm_num)
  obtain ⟨b, hb, bx, hby, -⟩ := station_base L hR (k := 1) (by norm_num) hs (by rw [l1]; linarith [b1.1])
    (by show (1500 : ℝ) < (al 2).station; rw [l2]; norm_num) (by rw [sh1]; norm_num)
  have wE' : ‖dir (toC w) - Complex.exp (θ * Complex.I)‖ ≤ 1e-11 := by
    refine wE.trans ?_
    show ((1 : ℕ) + 1 : ℝ) * 1.4e-12 + 4e-15 * shortness al ⟨0, 0, 0⟩ 2 ≤ _
    rw [sh2]; norm_num
  -- the angle of the line is below the threshold
  have m0 : 0 < ‖toC w‖ := by
    rw [norm_pos_iff]
    intro h
    exact w0 ⟨congrArg Complex.re h, congrArg Complex.im h⟩
  have dre : (dir (toC w)).re = w.x / ‖toC w‖ := by unfold dir; rw [Complex.div_ofReal_re]; rfl
  have dim : (dir (toC w)).im = w.y / ‖toC w‖ := by unfold dir; rw [Complex.div_ofReal_im]; rfl
  have ere := abs_le.mp ((Complex.abs_re_le_norm _).trans wE')
  have eim := abs_le.mp ((Complex.abs_im_le_norm _).trans wE')
  rw [Complex.sub_re, Complex.exp_ofReal_mul_I_re, dre] at ere
  rw [Complex.sub_im, Complex.exp_ofReal_mul_I_im, dim] at eim
  have wx : 0 < w.x := by
    have : 0 < w.x / ‖toC w‖ := by linarith [ere.1]
    rwa [div_pos_iff_of_pos_right m0] at this
  have wy : 0 < w.y := by
    have : 0 < w.y / ‖toC w‖ := by linarith [eim.1, sθ.1]
    rwa [div_pos_iff_of_pos_right m0] at this
  have ratio : w.y / w.x ≤ 6e-7 := by
    rw [div_le_iff₀ wx]
    have x1 : (1 - 1e-10) * ‖toC w‖ ≤ w.x := by
      have : 1 - 1e-10 ≤ w.x / ‖toC w‖ := by linarith [ere.1]
      rwa [le_div_iff₀ m0] at this
    have y1 : w.y ≤ 5.4e-7 * ‖toC w‖ := by
      have : w.y / ‖toC w‖ ≤ 5.4e-7 := by linarith [eim.2, sθ.2]
      rwa [div_le_iff₀ m0] at this
    linarith
  have hang : w.angle ≤ 4e-5 := by
    have e : w.angle = Verif.toDegrees (Real.arctan (w.y / w.x)) := by
      unfold V2.angle
      rw [if_neg w0]
      simp [wx.ne', wy.ne', wx.le, wy.le]
    rw [e, Verif.toDegrees_eq]
    have a1 : Real.arctan (w.y / w.x) ≤ 6e-7 := by
      have := Real.le_tan (Real.arctan_nonneg.mpr (by positivity : 0 ≤ w.y / w.x)) (Real.arctan_lt_pi_div_two _)
      rw [Real.tan_arctan] at this
      exact this.trans ratio
    have k1 : 0 < 180 / Units.kPi ∧ 180 / Units.kPi ≤ 58 := by unfold Units.kPi; constructor <;> norm_num
    exact (mul_le_mul a1 k1.2 k1.1.le (by norm_num)).trans (by norm_num)
  have small : |Double.angle L.toLibrary w| < rnd 0.00005 := by
    rw [abs_of_nonneg (C178_range_partial L.toLibrary w w0).1.1]
    have := (abs_le.mp (C178_accuracy L.toLibrary w w0).1).2
    linarith [threshold.1]
  have zero : |(0 : ℝ)| < rnd 0.00005 := by rw [abs_zero]; linarith [threshold.1]
  have d64 : IsDouble (64 : ℝ) := by exact_mod_cast int 64 (by norm_num)
  refine ⟨al, ⟨[], 0, 0, 0, 1500, none⟩, ⟨[], 0⟩, ⟨64, 0, 0⟩, _, b, hR, by rw [l1]; norm_num, by rw [l2]; norm_num, rfl, rfl,
    rfl, rfl, hb, attachment_eq L _ _ hw hb, ?_, ?_⟩
  · show rnd ((Course.rotate L ⟨(Course.rotate L ⟨64, -0⟩ 0).x, rnd ((Course.rotate L ⟨64, -0⟩ 0).y - 0)⟩
      (Double.angle L.toLibrary w)).y + b.y) = b.y
    unfold Course.rotate
    rw [if_pos zero, if_pos small]
    dsimp only
    rw [neg_zero, sub_zero, rnd_zero, zero_add, rnd_of_isDouble hby]
  · have e : (64 * Complex.exp (θ * Complex.I)).im = 64 * sin θ := by
      have : (64 : ℂ) = ((64 : ℝ) : ℂ) := by norm_num
      rw [this, Complex.im_ofReal_mul, Complex.exp_ofReal_mul_I_im]
    rw [e]
    linarith [sθ.1]

/-- Structure used in the examples: at station 1600, moved by 2, turned by 10 degrees. -/
noncomputable def exampleTower (station : ℝ) : LineStructure ℝ := ⟨[], 1, 2, 10, station, none⟩

theorem example_shortness : (shortness exampleAlignment ⟨500000, 4000000, 100⟩ 1 ≤ 4200 ∧
    shortness exampleAlignment ⟨500000, 4000000, 100⟩ 2 ≤ 4200) ∧
    √((500000 : ℝ) ^ 2 + 4000000 ^ 2) ≤ 4.1e6 := by
  have q : √((500000 : ℝ) ^ 2 + 4000000 ^ 2) ≤ 4.1e6 := by
    rw [Real.sqrt_le_left (by norm_num)]; norm_num
  refine ⟨⟨?_, ?_⟩, q⟩ <;>
  · unfold shortness
    norm_num [exampleAlignment] at q ⊢
    rw [div_le_iff₀ (by norm_num)]
    linarith

theorem example_reach (s : ℝ) : reach (exampleTower s) ⟨0, 20, -3⟩ = 22 := by
  unfold reach exampleTower
  have : √((0 : ℝ) ^ 2 + 20 ^ 2) = 20 := by
    rw [zero_pow (by norm_num), zero_add]; exact Real.sqrt_sq (by norm_num)
  dsimp only
  rw [this]
  norm_num

/-- Example: an attachment 20 to the side of a structure at station 1600 is found to within 4e-8. -/
example (L : SunLibrary) : ∃ p, Course.attachmentPoint L ((List.range 3).map exampleAlignment)
    (Course.pointsAlignment L ⟨500000, 4000000, 100⟩ ((List.range 3).map exampleAlignment)) (exampleTower 1600)
      ⟨[], 80⟩ ⟨0, 20, -3⟩ = .val (some p) ∧
    ‖(⟨p.x, p.y⟩ : ℂ) - (place exampleAlignment ⟨500000, 4000000, 100⟩ 1 + (((600 : ℝ) : ℂ) +
      ((⟨0, -20⟩ : ℂ) * Complex.exp (turn 10 * Complex.I) - ((2 : ℝ) : ℂ) * Complex.I)) *
        Complex.exp (heading exampleAlignment 1 * Complex.I))‖ ≤ 4e-8 := by
  have d : IsDouble (1600 : ℝ) := by exact_mod_cast isDouble_int (n := 1600) (by norm_num)
  have d20 : IsDouble (20 : ℝ) := by exact_mod_cast isDouble_int (n := 20) (by norm_num)
  have d2 : IsDouble (2 : ℝ) := by exact_mod_cast isDouble_int (n := 2) (by norm_num)
  have c : (2 : ℝ) ^ (-100 : ℤ) ≤ 1 := by exact_mod_cast (two_zpow_le (by norm_num : (-100 : ℤ) ≤ 0)).trans (by norm_num)
  obtain ⟨⟨sh1, sh2⟩, q⟩ := example_shortness
  have hθ : heading exampleAlignment 1 = π / 6 := by
    have th := threshold
    have e : heading exampleAlignment 1 = turn 0 + turn 30 := by
      unfold heading
      rw [Finset.sum_range_succ, Finset.sum_range_one]
      rfl
    have t1 : turn 0 = 0 := by
      unfold turn; rw [if_pos]; rw [abs_zero]; linarith [th.1]
    have t2 : turn 30 = 30 * π / 180 := by
      unfold turn; rw [if_neg]; rw [abs_of_pos (by norm_num)]; linarith [th.2]
    rw [e, t1, t2]; ring
  have far : 2e-6 ≤ ‖Complex.exp (heading exampleAlignment 1 * Complex.I) - 1‖ := by
    refine le_trans ?_ (Complex.abs_im_le_norm _)
    rw [Complex.sub_im, Complex.exp_ofReal_mul_I_im, hθ, Real.sin_pi_div_six]
    norm_num
  obtain ⟨p, h1, h2⟩ := C190_fine_partial L exampleAlignment ⟨500000, 4000000, 100⟩ 2 exampleAlignment_regular
    (exampleTower 1600) ⟨[], 80⟩ ⟨0, 20, -3⟩ isDouble_zero d20 d2 (by norm_num [exampleTower]) d 1 (by norm_num)
    (by norm_num [exampleAlignment, exampleTower]) (by norm_num [exampleAlignment, exampleTower])
    (by linarith) (by linarith) (by norm_num) far
  refine ⟨p, h1, ?_⟩
  have e : (exampleTower 1600).station - (exampleAlignment 1).station = 600 := by norm_num [exampleAlignment, exampleTower]
  have e0 : (exampleTower 1600).station - (exampleAlignment 0).station = 1600 := by
    norm_num [exampleAlignment, exampleTower]
  rw [e, e0, example_reach] at h2
  refine le_trans (le_of_eq ?_) (h2.trans ?_)
  · rfl
  dsimp only
  have t : (2 : ℝ) ^ (-285 : ℤ) ≤ 2 ^ (-50 : ℤ) := two_zpow_le (by norm_num)
  generalize √((500000 : ℝ) ^ 2 + 4000000 ^ 2) = O at *
  generalize (2 : ℝ) ^ (-285 : ℤ) = ω at *
  norm_num at t ⊢
  linarith

/-- Example: an attachment of a structure at the angle of 30 degrees, and those of structures at the ends. -/
example (L : SunLibrary) := C190_angle_partial L exampleAlignment ⟨500000, 4000000, 100⟩ 2 exampleAlignment_regular
  (exampleTower 1000) ⟨[], 80⟩ ⟨0, 20, -3⟩ isDouble_zero (by exact_mod_cast isDouble_int (n := 20) (by norm_num))
  (by exact_mod_cast isDouble_int (n := 2) (by norm_num)) (by norm_num [exampleTower]) 0 (by norm_num)
  (by norm_num [exampleAlignment, exampleTower]) (by norm_num [exampleAlignment])
  (by have := example_shortness.1.1; norm_num at this ⊢; linarith)
  (by have := example_shortness.1.2; norm_num at this ⊢; linarith)

example (L : SunLibrary) := (C190_ends_partial L exampleAlignment ⟨500000, 4000000, 100⟩ 1 exampleAlignment_regular
  (exampleTower 2500) ⟨[], 80⟩ ⟨0, 20, -3⟩ isDouble_zero (by exact_mod_cast isDouble_int (n := 20) (by norm_num))
  (by exact_mod_cast isDouble_int (n := 2) (by norm_num)) (by norm_num [exampleTower])).2
  (by norm_num [exampleAlignment, exampleTower]) (by have := example_shortness.1.2; norm_num at this ⊢; linarith)

end Verif.Props
