import Verif.Props.CatenaryTighter
import Verif.Props.CableReloader
import Verif.Props.SagCorrector

/-!
# What a longer span does at the same tension (C212)
-/

set_option linter.unusedSectionVars false

namespace Verif.Props

open Catenary3d

theorem longer_chord {k k' : Catenary3d} (S : k.Span) (S' : k'.Span) (w : k'.weightUnit = k.weightUnit)
    (z : k'.spacing.z = k.spacing.z) (x : k.spacing.x < k'.spacing.x) :
    k.spacing2d.x < k'.spacing2d.x ∧ k'.spacing2d.y = k.spacing2d.y := by
  constructor
  · unfold spacing2d
    have p : 0 < k.spacing2d.x := S.s2_pos
    unfold spacing2d at p
    have p' := Real.sqrt_pos.1 p
    refine Real.sqrt_lt_sqrt p'.le ?_
    have := S.sx
    simp only [V3.magnitude_sq, w, z, S.sy, S'.sy]
    nlinarith
  · unfold spacing2d
    simp only [w, z]

theorem level_chord {k : Catenary3d} (S : k.Span) (z : k.spacing.z = 0) :
    k.spacing2d.x = k.spacing.x ∧ k.spacing2d.y = 0 ∧ k.spacing.magnitude = k.spacing.x := by
  have m : k.spacing.magnitude = k.spacing.x := by
    unfold V3.magnitude
    rw [S.sy, z]
    simp only [ne_eq, OfNat.ofNat_ne_zero, not_false_eq_true, zero_pow, add_zero]
    exact Real.sqrt_sq S.sx.le
  refine ⟨?_, ?_, m⟩
  · unfold spacing2d
    simp only [z, zero_mul, m]
    rw [zero_pow two_ne_zero, sub_zero]
    exact Real.sqrt_sq S.sx.le
  · unfold spacing2d
    simp only [z, zero_mul]

section

variable {k k' : Catenary3d} (R : k.Reachable) (R' : k'.Reachable) (V : k.validate.1 = true)
  (V' : k'.validate.1 = true) (w : k'.weightUnit = k.weightUnit) (t : k'.tensionHorizontal = k.tensionHorizontal)
  (x : k.spacing.x < k'.spacing.x)
include R R' V V' w t x

/-- **C212**. Two accepted catenaries, whatever was called on them before, with the same load, horizontal tension and
height difference of the supports, the second with the larger horizontal spacing: the second cable is longer. -/
theorem C212_length (z : k'.spacing.z = k.spacing.z) : k.length < k'.length := by
  obtain ⟨S, hk⟩ := accepted_span R V
  obtain ⟨S', -⟩ := accepted_span R' V'
  obtain ⟨h0, hc, -⟩ := S.ratio hk
  have e : k.length = (k.setTension k.tensionHorizontal).length := own_tension R .length
  have e' : k'.length = (k'.setTension k'.tensionHorizontal).length := own_tension R' .length
  obtain ⟨a, b⟩ := longer_chord S S' w z x
  have hx := S.s2_pos
  rw [e, e', length_fam S ⟨R, rfl, rfl⟩ h0, length_fam S' ⟨R', rfl, rfl⟩ (t ▸ h0)]
  unfold lengthFn
  rw [t, w, b]
  have q : Real.sinh (k.spacing2d.x / 2 / (k.tensionHorizontal / k.weightUnit.magnitude)) <
      Real.sinh (k'.spacing2d.x / 2 / (k.tensionHorizontal / k.weightUnit.magnitude)) := by
    rw [Real.sinh_lt_sinh]
    gcongr
  have q0 : 0 < Real.sinh (k.spacing2d.x / 2 / (k.tensionHorizontal / k.weightUnit.magnitude)) :=
    Real.sinh_pos_iff.2 (by positivity)
  refine Real.sqrt_lt_sqrt (by positivity) ?_
  gcongr

/-- **C212** for level spans: length and slack grow more than in proportion to the span, the sag by more than the square,
and the tensions at the supports and the largest tension grow. -/
theorem C212_level (z : k.spacing.z = 0) (z' : k'.spacing.z = 0) :
    k'.spacing.x / k.spacing.x * k.length < k'.length ∧
    k'.spacing.x / k.spacing.x * k.lengthSlack < k'.lengthSlack ∧
    (k'.spacing.x / k.spacing.x) ^ 2 * k.sag < k'.sag ∧
    k.tension 0 < k'.tension 0 ∧ k.tension 1 < k'.tension 1 ∧ k.tensionMax < k'.tensionMax := by
  obtain ⟨S, hk⟩ := accepted_span R V
  obtain ⟨S', -⟩ := accepted_span R' V'
  obtain ⟨h0, hc, -⟩ := S.ratio hk
  have h0' : 0 < k'.tensionHorizontal := t ▸ h0
  have F : Fam k k := ⟨R, rfl, rfl⟩
  have F' : Fam k' k' := ⟨R', rfl, rfl⟩
  obtain ⟨a1, a2, a3⟩ := level_chord S z
  obtain ⟨b1, b2, b3⟩ := level_chord S' z'
  have hx := S.sx
  have hx' := S'.sx
  set c := k.tensionHorizontal / k.weightUnit.magnitude with hcd
  have hc' : k'.tensionHorizontal / k'.weightUnit.magnitude = c := by rw [t, w]
  have len : ∀ {k : Catenary3d} (_ : k.Reachable) (_ : k.Span) (_ : 0 < k.tensionHorizontal) (_ : k.spacing.z = 0)
      (_ : k.tensionHorizontal / k.weightUnit.magnitude = c),
      k.length = 2 * (c * Real.sinh (k.spacing.x / 2 / c)) := by
    intro k R S h z e
    obtain ⟨a1, a2, a3⟩ := level_chord S z
    have q : k.length = (k.setTension k.tensionHorizontal).length := own_tension R .length
    rw [q, length_fam S ⟨R, rfl, rfl⟩ h]
    unfold lengthFn
    rw [a1, a2, e, zero_pow two_ne_zero, zero_add]
    have := S.sx
    have : 0 < Real.sinh (k.spacing.x / 2 / c) := Real.sinh_pos_iff.2 (by positivity)
    exact Real.sqrt_sq (by positivity)
  have l := len R S h0 z rfl
  have l' := len R' S' h0' z' hc'
  have sg : k.sag = c * (Real.cosh (k.spacing.x / 2 / c) - 1) := by
    have q : k.sag = (k.setTension k.tensionHorizontal).sag := own_tension R .sag
    rw [q, sag_fam S F z h0]
    unfold levelSag
    rw [a1]
  have sg' : k'.sag = c * (Real.cosh (k'.spacing.x / 2 / c) - 1) := by
    have q : k'.sag = (k'.setTension k'.tensionHorizontal).sag := own_tension R' .sag
    rw [q, sag_fam S' F' z' h0']
    unfold levelSag
    rw [b1, hc']
  have dbl : ∀ u : ℝ, Real.cosh u - 1 = 2 * Real.sinh (u / 2) ^ 2 := fun u => by
    have h := Real.cosh_two_mul (u / 2)
    have h2 := Real.cosh_sq (u / 2)
    rw [show 2 * (u / 2) = u by ring] at h
    rw [h, h2]; ring
  have grow : ∀ r : ℝ, 0 < r → k'.spacing.x / k.spacing.x * Real.sinh (k.spacing.x / r) < Real.sinh (k'.spacing.x / r) := by
    intro r hr
    have h := sinh_div_lt (show 0 < k.spacing.x / r by positivity) (show k.spacing.x / r < k'.spacing.x / r by gcongr)
    rw [div_lt_div_iff₀ (by positivity) (by positivity)] at h
    rw [div_mul_eq_mul_div, div_lt_iff₀ hx]
    have e1 : Real.sinh (k.spacing.x / r) * (k'.spacing.x / r) = k'.spacing.x * Real.sinh (k.spacing.x / r) / r := by ring
    have e2 : Real.sinh (k'.spacing.x / r) * (k.spacing.x / r) = Real.sinh (k'.spacing.x / r) * k.spacing.x / r := by ring
    rw [e1, e2] at h
    exact (div_lt_div_iff_of_pos_right hr).1 h
  have g1 : k'.spacing.x / k.spacing.x * k.length < k'.length := by
    have g := grow (2 * c) (by positivity)
    rw [l, l', div_div, div_div]
    nlinarith
  have ch : Real.cosh (k.spacing.x / 2 / c) < Real.cosh (k'.spacing.x / 2 / c) := by
    rw [Real.cosh_lt_cosh, abs_of_pos (by positivity), abs_of_pos (by positivity)]
    gcongr
  have tm : k.levelTension k.tensionHorizontal < k'.levelTension k'.tensionHorizontal := by
    unfold levelTension
    rw [a1, b1, hc', t]
    exact mul_lt_mul_of_pos_left ch h0
  have sup : ∀ {k : Catenary3d} (_ : k.Reachable) (_ : k.Span) (_ : 0 < k.tensionHorizontal) (_ : k.spacing.z = 0),
      k.tension 0 = k.levelTension k.tensionHorizontal ∧ k.tension 1 = k.levelTension k.tensionHorizontal ∧
      k.tensionMax = k.levelTension k.tensionHorizontal := by
    intro k R S h z
    have F : Fam k k := ⟨R, rfl, rfl⟩
    have q0 : k.tension 0 = (k.setTension k.tensionHorizontal).tension 0 := own_tension R (.tension 0)
    have q1 : k.tension 1 = (k.setTension k.tensionHorizontal).tension 1 := own_tension R (.tension 1)
    have q2 : k.tensionMax = (k.setTension k.tensionHorizontal).tensionMax := own_tension R .tensionMax
    have h1 := support_fam S F h
    have h2 := max_fam S F h
    have h3 := tension_fam S F z h
    rw [(level_chord S z).2.1] at h1 h2
    simp only [mul_zero, zero_div, add_zero, sub_zero, abs_zero] at h1 h2
    rw [h3] at h2
    rw [q0, q1, q2, h1.1, h1.2, h3, h2]
    exact ⟨rfl, rfl, rfl⟩
  obtain ⟨s0, s1, s2⟩ := sup R S h0 z
  obtain ⟨s0', s1', s2'⟩ := sup R' S' h0' z'
  refine ⟨g1, ?_, ?_, by rw [s0, s0']; exact tm, by rw [s1, s1']; exact tm, by rw [s2, s2']; exact tm⟩
  · have e1 : k.refresh.catenary2d.refresh.spacing.magnitude = k.spacing.x := by
      rw [R.inner.1.refresh_eq, Catenary2d.update_sp, R.inner.2.1, S.chord, a3]
    have e2 : k'.refresh.catenary2d.refresh.spacing.magnitude = k'.spacing.x := by
      rw [R'.inner.1.refresh_eq, Catenary2d.update_sp, R'.inner.2.1, S'.chord, b3]
    show k'.spacing.x / k.spacing.x * (k.length - k.refresh.catenary2d.refresh.spacing.magnitude) <
      k'.length - k'.refresh.catenary2d.refresh.spacing.magnitude
    rw [e1, e2, mul_sub, div_mul_cancel₀ _ hx.ne']
    linarith
  · have g := grow (2 * c * 2) (by positivity)
    have p : 0 < Real.sinh (k.spacing.x / (2 * c * 2)) := Real.sinh_pos_iff.2 (by positivity)
    rw [sg, sg', dbl, dbl, div_div, div_div, div_div, div_div]
    have g2 := pow_lt_pow_left₀ g (by positivity) two_ne_zero
    rw [mul_pow] at g2
    have g3 := mul_lt_mul_of_pos_left g2 (show 0 < c * 2 by positivity)
    refine lt_of_eq_of_lt ?_ (g3.trans_eq ?_) <;> ring

end

/-- Spans of 100 and 110 at a tension of 6000: the sag grows by more than a fifth. -/
example : 1.21 * (exSpanOf 100 100 6000).sag < (exSpanOf 110 100 6000).sag := by
  have h := (C212_level (exSpanOf_reachable 100 100 6000) (exSpanOf_reachable 110 100 6000)
    (exSpanOf_valid (by norm_num) (by norm_num) (by norm_num)) (exSpanOf_valid (by norm_num) (by norm_num) (by norm_num))
    rfl rfl (show (100 : ℝ) < 110 by norm_num) rfl rfl).2.2.1
  have e : ((110 : ℝ) / 100) ^ 2 = 1.21 := by norm_num
  rw [← e]
  exact h

/-- The first theorem applies to the inclined spans with the same height difference. -/
example {k k' : Catenary3d} (hk : k = (exSpanOf 100 100 6000).setSpacing ⟨100, 0, 20⟩)
    (hk' : k' = (exSpanOf 100 100 6000).setSpacing ⟨110, 0, 20⟩) : k.length < k'.length := by
  have w : (⟨0, 0, 100⟩ : V3).magnitude = 100 := by
    unfold V3.magnitude
    rw [show (0 : ℝ) ^ 2 + 0 ^ 2 + 100 ^ 2 = 100 ^ 2 by norm_num]
    exact Real.sqrt_sq (by norm_num)
  have V : ∀ x : ℝ, 0 < x → x ≤ 110 → ((exSpanOf 100 100 6000).setSpacing ⟨x, 0, 20⟩).validate.1 = true := by
    intro x h0 h1
    refine (C54_validate_3d ((exSpanOf_reachable 100 100 6000).step (.setSpacing ⟨x, 0, 20⟩))).1.2 ?_
    refine ⟨show (0 : ℝ) < 6000 by norm_num, h0, rfl, show |(20 : ℝ)| < 2000 by norm_num, rfl, le_refl _,
      show (0 : ℝ) < 100 by norm_num, ?_⟩
    show (⟨x, 0, 20⟩ : V3).magnitude / 2 ≤ 6000 / (⟨0, 0, 100⟩ : V3).magnitude
    rw [w]
    have : (⟨x, 0, 20⟩ : V3).magnitude ≤ 120 := Real.sqrt_le_iff.2 ⟨by norm_num, by nlinarith⟩
    linarith
  subst hk hk'
  exact C212_length ((exSpanOf_reachable 100 100 6000).step (.setSpacing _))
    ((exSpanOf_reachable 100 100 6000).step (.setSpacing _)) (V 100 (by norm_num) (by norm_num))
    (V 110 (by norm_num) (by norm_num)) rfl rfl (show (100 : ℝ) < 110 by norm_num) rfl

/-- A span with a height difference of 1.6, a unit load of 1 and a horizontal tension of 1. -/
noncomputable def exRising (x : ℝ) : Catenary3d := (exSpanOf x 1 1).setSpacing ⟨x, 0, 1.6⟩

theorem exRising_facts {x : ℝ} (h0 : 0 < x) (h1 : x ≤ 1) : (exRising x).Reachable ∧ (exRising x).validate.1 = true ∧
    (exRising x).tensionMax = 1 / 2 * √((1.6 * (Real.cosh (x / 2) / Real.sinh (x / 2))) ^ 2 + (2 * Real.cosh (x / 2)) ^ 2) +
      0.8 := by
  have R : (exRising x).Reachable := (exSpanOf_reachable x 1 1).step (.setSpacing ⟨x, 0, 1.6⟩)
  have w : (exRising x).weightUnit.magnitude = 1 := by
    show √((0 : ℝ) ^ 2 + 0 ^ 2 + 1 ^ 2) = 1
    norm_num
  have S : (exRising x).Span := ⟨h0, rfl, rfl, le_refl _, show (0 : ℝ) < 1 by norm_num⟩
  have y : (exRising x).spacing2d.y = 1.6 := by
    show (1.6 : ℝ) * (|1| / (exRising x).weightUnit.magnitude) = 1.6
    rw [w]; norm_num
  have xx : (exRising x).spacing2d.x = x := by
    have c := S.chord
    have q : (exRising x).spacing2d.x ^ 2 = x ^ 2 := by
      have e1 := V2.magnitude_sq (exRising x).spacing2d
      have e2 := V3.magnitude_sq (exRising x).spacing
      rw [c, y, e2] at e1
      have e3 : x ^ 2 + 0 ^ 2 + 1.6 ^ 2 = (exRising x).spacing2d.x ^ 2 + 1.6 ^ 2 := e1
      linarith
    exact (pow_left_inj₀ S.s2_pos.le h0.le two_ne_zero).1 q
  refine ⟨R, (C54_validate_3d R).1.2 ⟨show (0 : ℝ) < 1 by norm_num, h0, rfl, ?_, rfl, le_refl _,
    show (0 : ℝ) < 1 by norm_num, ?_⟩, ?_⟩
  · show |(1.6 : ℝ)| < 2000
    norm_num
  · rw [w]
    show (⟨x, 0, 1.6⟩ : V3).magnitude / 2 ≤ 1 / 1
    have : (⟨x, 0, 1.6⟩ : V3).magnitude ≤ 2 := by
      refine Real.sqrt_le_iff.2 ⟨by norm_num, ?_⟩
      show x ^ 2 + 0 ^ 2 + (1.6 : ℝ) ^ 2 ≤ 2 ^ 2
      nlinarith
    linarith
  · have q : (exRising x).tensionMax = ((exRising x).setTension 1).tensionMax := own_tension R .tensionMax
    rw [q, max_fam S ⟨R, rfl, rfl⟩ one_pos]
    unfold tensionMean
    simp only [w, y, xx]
    norm_num

/-- **C212** needs level supports for the largest tension: of two accepted catenaries with the same load, horizontal tension
and height difference, the one with the longer span may pull less. -/
theorem C212_inclined : ∃ k k' : Catenary3d, k.Reachable ∧ k'.Reachable ∧ k.validate.1 = true ∧ k'.validate.1 = true ∧
    k'.weightUnit = k.weightUnit ∧ k'.tensionHorizontal = k.tensionHorizontal ∧ k'.spacing.z = k.spacing.z ∧
    k.spacing.x < k'.spacing.x ∧ k'.tensionMax < k.tensionMax := by
  obtain ⟨r, v, t⟩ := exRising_facts (x := 0.2) (by norm_num) (by norm_num)
  obtain ⟨r', v', t'⟩ := exRising_facts (x := 1) (by norm_num) (by norm_num)
  refine ⟨exRising 0.2, exRising 1, r, r', v, v', rfl, rfl, rfl, show (0.2 : ℝ) < 1 by norm_num, ?_⟩
  rw [t, t', show (0.2 : ℝ) / 2 = 0.1 by norm_num]
  have a := sinh_le_mul (show (0 : ℝ) < 0.1 by norm_num) (by norm_num)
  have a0 : 0 < Real.sinh 0.1 := Real.sinh_pos_iff.2 (by norm_num)
  have b := cosh_le_sinh (show (0 : ℝ) ≤ 1 / 2 by norm_num) (by norm_num)
  have b0 : 0 < Real.sinh (1 / 2) := Real.sinh_pos_iff.2 (by norm_num)
  have c := cosh_half_le
  have c0 := Real.one_le_cosh (1 / 2)
  have d0 := Real.one_le_cosh 0.1
  have p : 8 ≤ Real.cosh 0.1 / Real.sinh 0.1 := by rw [le_div_iff₀ a0]; linarith
  have q : Real.cosh (1 / 2) / Real.sinh (1 / 2) ≤ 3 := by rw [div_le_iff₀ b0]; linarith
  have q0 : 0 < Real.cosh (1 / 2) / Real.sinh (1 / 2) := by positivity
  have : √((1.6 * (Real.cosh (1 / 2) / Real.sinh (1 / 2))) ^ 2 + (2 * Real.cosh (1 / 2)) ^ 2) <
      √((1.6 * (Real.cosh 0.1 / Real.sinh 0.1)) ^ 2 + (2 * Real.cosh 0.1) ^ 2) := by
    refine Real.sqrt_lt_sqrt (by positivity) ?_
    nlinarith
  linarith

end Verif.Props
