import Verif.SagLemmas
import Verif.Props.CatenaryUnits

/-!
# C146: pulling a cable tighter shortens it, lifts it and loads its supports more
-/

set_option linter.unusedSectionVars false

namespace Verif.Props

open Catenary3d

/-- Giving a catenary the tension it has changes no answer. -/
theorem own_tension {k : Catenary3d} (R : k.Reachable) {A : Type} (q : Query3 A) :
    q.ask k = q.ask (k.setTension k.tensionHorizontal) :=
  (C50_history_3d R q).trans (C50_history_3d (R.step (.setTension k.tensionHorizontal)) q).symm

/-- An accepted catenary is a span with a tension that the solver would try. -/
theorem accepted_span {k : Catenary3d} (R : k.Reachable) (V : k.validate.1 = true) :
    k.Span ∧ k.spacing.magnitude / 2 * k.weightUnit.magnitude ≤ k.tensionHorizontal := by
  obtain ⟨h, sx, sy, -, wx, wy, wz, hm⟩ := (C54_validate_3d R).1.1 V
  have S : k.Span := ⟨sx, sy, wx, wy, wz⟩
  exact ⟨S, (le_div_iff₀ S.w_pos).1 hm⟩

/-- C146: two catenaries, whatever was called on them before, hang between the same supports under the same
load; Validate accepts the first, and the second has the larger horizontal tension.  Then the second is shorter,
has less slack and less sag, and pulls harder on both supports; its largest tension is larger too. -/
theorem C146_tighter {k k' : Catenary3d} (R : k.Reachable) (R' : k'.Reachable) (V : k.validate.1 = true)
    (s : k'.spacing = k.spacing) (w : k'.weightUnit = k.weightUnit)
    (h : k.tensionHorizontal < k'.tensionHorizontal) :
    k'.length < k.length ∧ k'.lengthSlack < k.lengthSlack ∧ k'.sag < k.sag ∧
    k.tension 0 < k'.tension 0 ∧ k.tension 1 < k'.tension 1 ∧ k.tensionMax < k'.tensionMax := by
  obtain ⟨S, hk⟩ := accepted_span R V
  have hk' : k.spacing.magnitude / 2 * k.weightUnit.magnitude ≤ k'.tensionHorizontal := by linarith
  have F : Fam k k := ⟨R, rfl, rfl⟩
  have F' : Fam k k' := ⟨R', s, w⟩
  have h0 := (S.ratio hk).1
  have h0' := (S.ratio hk').1
  have hL : k'.length < k.length := by
    have e : k.length = (k.setTension k.tensionHorizontal).length := own_tension R .length
    have e' : k'.length = (k'.setTension k'.tensionHorizontal).length := own_tension R' .length
    rw [e, e', length_fam S F h0, length_fam S F' h0']
    exact length_anti S hk h
  have hM : k.tensionMean k.tensionHorizontal < k.tensionMean k'.tensionHorizontal := by
    have a := mean_supported S _ _ hk hk'
    have b := (mean_slope S hk).1
    nlinarith
  refine ⟨hL, ?_, ?_, ?_, ?_, ?_⟩
  · have e1 : k.refresh.catenary2d.refresh.spacing = k.spacing2d := by
      rw [R.inner.1.refresh_eq, Catenary2d.update_sp, R.inner.2.1]
    have e2 : k'.refresh.catenary2d.refresh.spacing = k.spacing2d := by
      rw [R'.inner.1.refresh_eq, Catenary2d.update_sp, R'.inner.2.1, F'.spacing2d]
    show k'.length - k'.refresh.catenary2d.refresh.spacing.magnitude <
      k.length - k.refresh.catenary2d.refresh.spacing.magnitude
    rw [e1, e2]
    linarith
  · have e : k.sag = (k.setTension k.tensionHorizontal).sag := own_tension R .sag
    have e' : k'.sag = (k'.setTension k'.tensionHorizontal).sag := own_tension R' .sag
    rw [e, e', sagFn_fam S F h0, sagFn_fam S F' h0']
    have a := sagFn_supported S _ _ hk' hk
    have b := (sagFn_slope S hk').1
    nlinarith
  · have e : k.tension 0 = (k.setTension k.tensionHorizontal).tension 0 := own_tension R (.tension 0)
    have e' : k'.tension 0 = (k'.setTension k'.tensionHorizontal).tension 0 := own_tension R' (.tension 0)
    rw [e, e', (support_fam S F h0).1, (support_fam S F' h0').1]
    linarith
  · have e : k.tension 1 = (k.setTension k.tensionHorizontal).tension 1 := own_tension R (.tension 1)
    have e' : k'.tension 1 = (k'.setTension k'.tensionHorizontal).tension 1 := own_tension R' (.tension 1)
    rw [e, e', (support_fam S F h0).2, (support_fam S F' h0').2]
    linarith
  · have e : k.tensionMax = (k.setTension k.tensionHorizontal).tensionMax := own_tension R .tensionMax
    have e' : k'.tensionMax = (k'.setTension k'.tensionHorizontal).tensionMax := own_tension R' .tensionMax
    rw [e, e', max_fam S F h0, max_fam S F' h0']
    linarith

/-- C146 for the load: two catenaries that Validate accepts hang between the same supports with the same
horizontal tension, and the load of the second is `f > 1` times the load of the first.  Then the second is
longer, has more slack and more sag. -/
theorem C146_heavier {k k' : Catenary3d} (R : k.Reachable) (R' : k'.Reachable) (V : k.validate.1 = true)
    (V' : k'.validate.1 = true) (s : k'.spacing = k.spacing) {f : ℝ} (hf : 1 < f)
    (w : k'.weightUnit = k.weightUnit.scale f) (h : k'.tensionHorizontal = k.tensionHorizontal)
    (d : k'.direction = k.direction) :
    k.length < k'.length ∧ k.lengthSlack < k'.lengthSlack ∧ k.sag < k'.sag := by
  have f0 : 0 < f := by linarith
  obtain ⟨S, hk⟩ := accepted_span R V
  obtain ⟨S', hk'⟩ := accepted_span R' V'
  have h0 := (S.ratio hk).1
  have hw := S.w_pos
  -- the first span, loosened to the shape of the second
  set g := k.setTension (k.tensionHorizontal / f) with hg
  have Rg : g.Reachable := R.step (.setTension _)
  have hm : k'.weightUnit.magnitude = k.weightUnit.magnitude * f := by
    rw [w, V3.magnitude_scale _ f0.le]
  have Vg : g.validate.1 = true := by
    rw [(C54_validate_3d Rg).1]
    obtain ⟨-, sx, sy, sz, wx, wy, wz, -⟩ := (C54_validate_3d R).1.1 V
    obtain ⟨-, -, -, -, -, -, -, hm'⟩ := (C54_validate_3d R').1.1 V'
    refine ⟨div_pos h0 f0, sx, sy, sz, wx, wy, wz, ?_⟩
    show k.spacing.magnitude / 2 ≤ k.tensionHorizontal / f / k.weightUnit.magnitude
    rw [s, h, hm] at hm'
    rw [div_div, mul_comm f]
    exact hm'
  have O : OtherUnits 1 f g k' := by
    refine ⟨d, ?_, ?_, ?_⟩
    · rw [s]; show k.spacing = k.spacing.scale 1; ext <;> simp [V3.scale]
    · rw [h]; show k.tensionHorizontal = k.tensionHorizontal / f * f; field_simp
    · rw [w, div_one]; rfl
  obtain ⟨-, u1, u2, u3, -⟩ := C139_same_span one_pos f0 Rg R' O
  have hlt : g.tensionHorizontal < k.tensionHorizontal := div_lt_self h0 hf
  obtain ⟨t1, t2, t3, -⟩ := C146_tighter Rg R Vg rfl rfl hlt
  rw [u1, u2, u3, mul_one, mul_one, mul_one]
  exact ⟨t1, t2, t3⟩

/-- The average tension in terms of the tensions at the supports. -/
theorem average_supports {k : Catenary2d} (R : k.Reachable) (P : k.Positive) :
    k.tensionAverage = (k.tension 0 + k.tension 1) / 4 * (1 + k.spacing.y ^ 2 / k.update.length ^ 2) +
      k.spacing.x * k.tensionHorizontal / (2 * k.update.length) := by
  have t0 : k.tension 0 = k.tensionHorizontal * Real.cosh (k.mid - k.z) := by
    unfold Catenary2d.tension
    rw [R.refresh_eq, Catenary2d.tensionBody_update P, Catenary2d.coordinateX_zero P, Catenary2d.left_div P]
  have t1 : k.tension 1 = k.tensionHorizontal * Real.cosh (k.mid + k.z) := by
    unfold Catenary2d.tension
    rw [R.refresh_eq, Catenary2d.tensionBody_update P, Catenary2d.coordinateX_one P, Catenary2d.right_div P]
  have hL := Catenary2d.length_eq P
  have hv := Catenary2d.rise_eq P
  have hL0 := Catenary2d.length_pos P
  have hh := P.h
  have hw := P.w
  have hsz := Real.sinh_pos_iff.2 (Catenary2d.z_pos P)
  have hcm := Real.cosh_pos k.mid
  have hzz : k.spacing.x = 2 * (k.tensionHorizontal / k.weightUnit) * k.z := by
    unfold Catenary2d.z; field_simp
  have e : k.tensionAverage = k.tensionHorizontal ^ 2 / (2 * k.weightUnit * k.update.length) *
      (Real.sinh (k.mid + k.z) * Real.cosh (k.mid + k.z) - Real.sinh (k.mid - k.z) * Real.cosh (k.mid - k.z) +
        2 * k.z) := by
    unfold Catenary2d.tensionAverage
    rw [R.refresh_eq]
    unfold Catenary2d.tensionAverageBody
    rw [if_pos rfl]
    simp only [Catenary2d.update_h, Catenary2d.update_w]
    rw [sub_div, Catenary2d.left_div P, Catenary2d.right_div P]
    ring
  rw [e, t0, t1, ← hv, hzz, hL]
  rw [Real.cosh_add, Real.cosh_sub, Real.sinh_add, Real.sinh_sub]
  have s1 := Real.cosh_sq k.mid
  have s2 := Real.cosh_sq k.z
  set C := Real.cosh k.mid
  set S := Real.sinh k.mid
  set c := Real.cosh k.z
  set s := Real.sinh k.z
  have : 0 < c := Real.cosh_pos _
  field_simp
  ring

/-- The same for a span in space. -/
theorem average_span {k : Catenary3d} (R : k.Reachable) (P : k.Physical) :
    k.tensionAverage = (k.tension 0 + k.tension 1) / 4 * (1 + k.spacing2d.y ^ 2 / k.length ^ 2) +
      k.spacing2d.x * k.tensionHorizontal / (2 * k.length) := by
  have e := average_supports R.inner.1 (P.inner_positive R)
  rw [← R.inner.1.refresh_eq, R.inner.2.1, (refresh_params k).2.2.2] at e
  exact e

/-- C146: and its average tension is larger. -/
theorem C146_average {k k' : Catenary3d} (R : k.Reachable) (R' : k'.Reachable) (V : k.validate.1 = true)
    (s : k'.spacing = k.spacing) (w : k'.weightUnit = k.weightUnit)
    (h : k.tensionHorizontal < k'.tensionHorizontal) : k.tensionAverage < k'.tensionAverage := by
  obtain ⟨S, hk⟩ := accepted_span R V
  have F' : Fam k k' := ⟨R', s, w⟩
  have h0 := (S.ratio hk).1
  have P : k.Physical := ⟨h0, S.sx, S.sy, S.wx, S.wy, S.wz⟩
  have P' : k'.Physical := ⟨by linarith, s ▸ S.sx, s ▸ S.sy, w ▸ S.wx, w ▸ S.wy, w ▸ S.wz⟩
  obtain ⟨hL, -, -, t0, t1, -⟩ := C146_tighter R R' V s w h
  rw [average_span R P, average_span R' P', F'.spacing2d]
  have hL' : 0 < k'.length := by
    have := Catenary2d.length_pos (P'.inner_positive R')
    rw [← R'.inner.1.refresh_eq] at this
    exact this
  have hT : 0 < k.tension 0 + k.tension 1 := by
    have F : Fam k k := ⟨R, rfl, rfl⟩
    have e0 : k.tension 0 = (k.setTension k.tensionHorizontal).tension 0 := own_tension R (.tension 0)
    have e1 : k.tension 1 = (k.setTension k.tensionHorizontal).tension 1 := own_tension R (.tension 1)
    obtain ⟨a, b⟩ := support_fam S F h0
    have := mean_ge S hk
    rw [e0, e1, a, b]; linarith
  have ha := S.s2_pos
  have q : k.spacing2d.y ^ 2 / k.length ^ 2 ≤ k.spacing2d.y ^ 2 / k'.length ^ 2 := by
    apply div_le_div_of_nonneg_left (sq_nonneg _) (by positivity)
    exact pow_le_pow_left₀ hL'.le hL.le 2
  have q0 : 0 ≤ k.spacing2d.y ^ 2 / k.length ^ 2 := by positivity
  have t : k.spacing2d.x * k.tensionHorizontal / (2 * k.length) <
      k.spacing2d.x * k'.tensionHorizontal / (2 * k'.length) := by
    apply div_lt_div₀ (mul_lt_mul_of_pos_left h ha) (by linarith) (by have := P'.h; positivity) (by positivity)
  have u : (k.tension 0 + k.tension 1) / 4 * (1 + k.spacing2d.y ^ 2 / k.length ^ 2) ≤
      (k'.tension 0 + k'.tension 1) / 4 * (1 + k.spacing2d.y ^ 2 / k'.length ^ 2) :=
    mul_le_mul (by linarith) (by linarith) (by linarith) (by linarith)
  linarith

theorem exCat3_accepted : exCat3.validate.1 = true := by
  rw [(C54_validate_3d exCat3_reachable).1]
  have P := exCat3_physical
  refine ⟨P.h, P.sx, P.sy, ?_, P.wx, P.wy, P.wz, ?_⟩
  · show |(400:ℝ)| < 2000
    norm_num
  · have h7 : √7 ^ 2 = (7:ℝ) := Real.sq_sqrt (by norm_num)
    have hw : exCat3.weightUnit.magnitude = 4 := by
      show √(0 ^ 2 + √7 ^ 2 + 3 ^ 2) = 4
      rw [h7, show ((0:ℝ) ^ 2 + 7 + 3 ^ 2) = 4 ^ 2 by norm_num, Real.sqrt_sq (by norm_num)]
    have hs : exCat3.spacing.magnitude = 500 := by
      show √((300:ℝ) ^ 2 + 0 ^ 2 + 400 ^ 2) = 500
      rw [show ((300:ℝ) ^ 2 + 0 ^ 2 + 400 ^ 2) = 500 ^ 2 by norm_num, Real.sqrt_sq (by norm_num)]
    rw [hw, hs]
    show (500:ℝ) / 2 ≤ 100000 / 4
    norm_num

/-- Non-vacuity of C146: an inclined span under wind, its tightening, and the same span under twice the
load. -/
example : exCat3.Reachable ∧ exCat3.validate.1 = true ∧ (exCat3.setTension 120000).Reachable ∧
    exCat3.tensionHorizontal < (exCat3.setTension 120000).tensionHorizontal ∧
    (exCat3.setWeight (exCat3.weightUnit.scale 2)).Reachable ∧
    (exCat3.setWeight (exCat3.weightUnit.scale 2)).validate.1 = true := by
  have R2 : (exCat3.setWeight (exCat3.weightUnit.scale 2)).Reachable :=
    exCat3_reachable.step (.setWeight (exCat3.weightUnit.scale 2))
  refine ⟨exCat3_reachable, exCat3_accepted, exCat3_reachable.step (.setTension 120000), ?_, R2, ?_⟩
  · show (100000:ℝ) < 120000
    norm_num
  · obtain ⟨h, sx, sy, sz, wx, wy, wz, hm⟩ := (C54_validate_3d exCat3_reachable).1.1 exCat3_accepted
    obtain ⟨S, hk⟩ := accepted_span exCat3_reachable exCat3_accepted
    have h7 : √7 ^ 2 = (7:ℝ) := Real.sq_sqrt (by norm_num)
    have hw : exCat3.weightUnit.magnitude = 4 := by
      show √(0 ^ 2 + √7 ^ 2 + 3 ^ 2) = 4
      rw [h7, show ((0:ℝ) ^ 2 + 7 + 3 ^ 2) = 4 ^ 2 by norm_num, Real.sqrt_sq (by norm_num)]
    have hs : exCat3.spacing.magnitude = 500 := by
      show √((300:ℝ) ^ 2 + 0 ^ 2 + 400 ^ 2) = 500
      rw [show ((300:ℝ) ^ 2 + 0 ^ 2 + 400 ^ 2) = 500 ^ 2 by norm_num, Real.sqrt_sq (by norm_num)]
    rw [(C54_validate_3d R2).1]
    refine ⟨h, sx, sy, sz, ?_, ?_, ?_, ?_⟩
    · show exCat3.weightUnit.x * 2 = 0
      rw [wx, zero_mul]
    · show 0 ≤ exCat3.weightUnit.y * 2
      positivity
    · show 0 < exCat3.weightUnit.z * 2
      positivity
    · show exCat3.spacing.magnitude / 2 ≤ (100000:ℝ) / (exCat3.weightUnit.scale 2).magnitude
      rw [V3.magnitude_scale _ (by norm_num), hw, hs]
      norm_num

end Verif.Props
