import Verif.Props.CatenaryTighter
import Verif.Props.SolverTension

/-!
# C208: stricter targets of the catenary solver give tighter cables
-/

set_option linter.unusedSectionVars false

namespace Verif.Props

open Catenary3d CatenarySolver

/-- What the second cable being the tighter one means for a user. -/
def PulledTighter (k k' : Catenary3d) : Prop :=
  k.tensionHorizontal < k'.tensionHorizontal ∧ k'.length < k.length ∧ k'.lengthSlack < k.lengthSlack ∧
  k'.sag < k.sag ∧ k.tension 0 < k'.tension 0 ∧ k.tension 1 < k'.tension 1 ∧ k.tensionMax < k'.tensionMax

/-- What an accepted solve returns. -/
theorem solved_catenary {s : CatenarySolver} (R : s.Reachable) (h : s.validate.1 = true) :
    s.validate.2.catenaryQ.1.Reachable ∧ s.validate.2.catenaryQ.1.validate.1 = true ∧
    s.validate.2.catenaryQ.1.spacing = s.catenary.spacing ∧
    s.validate.2.catenaryQ.1.weightUnit = s.catenary.weightUnit := by
  obtain ⟨s', hs, hv, e⟩ := validate_catenary h
  have F := (solve_frame (solver_catenary R) hs).1
  rw [e]
  refine ⟨F.touch.1, ?_, F.touch.2.1, F.touch.2.2⟩
  obtain ⟨-, b, c, d⟩ := refresh_params s'.catenary
  rw [(C54_validate_3d F.touch.1).1]
  have := (C54_validate_3d F.1).1.1 hv
  have d' : s'.catenary.refresh.tensionHorizontal = s'.catenary.tensionHorizontal := d
  rw [b, c, d']
  exact this

/-- Two cables of the same span under the same load are ordered as soon as one answer that tightening lowers, or
minus one that it raises, is. -/
theorem tighter_of {k k' : Catenary3d} (R : k.Reachable) (R' : k'.Reachable) (V : k.validate.1 = true)
    (V' : k'.validate.1 = true) (s : k'.spacing = k.spacing) (w : k'.weightUnit = k.weightUnit)
    (h : k'.length < k.length ∨ k'.sag < k.sag ∨ k.tension 0 < k'.tension 0 ∨ k.tension 1 < k'.tension 1 ∨
      k.tensionMax < k'.tensionMax) : PulledTighter k k' := by
  have key : k.tensionHorizontal < k'.tensionHorizontal := by
    by_contra hc
    rcases (not_lt.1 hc).lt_or_eq with hl | he
    · obtain ⟨a, -, b, c, d, e⟩ := C146_tighter R' R V' s.symm w.symm hl
      rcases h with h | h | h | h | h
      exacts [lt_asymm h a, lt_asymm h b, lt_asymm h c, lt_asymm h d, lt_asymm h e]
    · obtain ⟨S, hk⟩ := accepted_span R V
      have F : Fam k k := ⟨R, rfl, rfl⟩
      have F' : Fam k k' := ⟨R', s, w⟩
      have h0 := (S.ratio hk).1
      have h0' : 0 < k'.tensionHorizontal := by rw [he]; exact h0
      have a : k'.length = k.length := by
        refine (own_tension R' .length).trans (Eq.trans ?_ (own_tension R .length).symm)
        show (k'.setTension k'.tensionHorizontal).length = (k.setTension k.tensionHorizontal).length
        rw [length_fam S F h0, length_fam S F' h0', he]
      have b : k'.sag = k.sag := by
        refine (own_tension R' .sag).trans (Eq.trans ?_ (own_tension R .sag).symm)
        show (k'.setTension k'.tensionHorizontal).sag = (k.setTension k.tensionHorizontal).sag
        rw [sagFn_fam S F h0, sagFn_fam S F' h0', he]
      have c : k'.tension 0 = k.tension 0 := by
        refine (own_tension R' (.tension 0)).trans (Eq.trans ?_ (own_tension R (.tension 0)).symm)
        show (k'.setTension k'.tensionHorizontal).tension 0 = (k.setTension k.tensionHorizontal).tension 0
        rw [(support_fam S F h0).1, (support_fam S F' h0').1, he]
      have d : k'.tension 1 = k.tension 1 := by
        refine (own_tension R' (.tension 1)).trans (Eq.trans ?_ (own_tension R (.tension 1)).symm)
        show (k'.setTension k'.tensionHorizontal).tension 1 = (k.setTension k.tensionHorizontal).tension 1
        rw [(support_fam S F h0).2, (support_fam S F' h0').2, he]
      have e : k'.tensionMax = k.tensionMax := by
        refine (own_tension R' .tensionMax).trans (Eq.trans ?_ (own_tension R .tensionMax).symm)
        show (k'.setTension k'.tensionHorizontal).tensionMax = (k.setTension k.tensionHorizontal).tensionMax
        rw [max_fam S F h0, max_fam S F' h0', he]
      rcases h with h | h | h | h | h
      exacts [h.ne a, h.ne b, h.ne' c, h.ne' d, h.ne' e]
  exact ⟨key, C146_tighter R R' V s w key⟩

section

variable {s s' : CatenarySolver} (R : s.Reachable) (R' : s'.Reachable) (h : s.validate.1 = true)
  (h' : s'.validate.1 = true) (sp : s'.catenary.spacing = s.catenary.spacing)
  (w : s'.catenary.weightUnit = s.catenary.weightUnit)
include R R' h h' sp w

/-- C208 for lengths: two solvers, whatever was called on them before, look for a length on the same span under
the same load, and Validate accepts both.  If the second length is smaller by more than 0.015 over the unit load, the
second cable is the tighter one. -/
theorem C208_length (t : s.typeTarget = .length) (t' : s'.typeTarget = .length)
    (v : s'.valueTarget + 0.015 / s.catenary.weightUnit.magnitude < s.valueTarget) :
    PulledTighter s.validate.2.catenaryQ.1 s'.validate.2.catenaryQ.1 := by
  obtain ⟨a, b, c, d⟩ := solved_catenary R h
  obtain ⟨a', b', c', d'⟩ := solved_catenary R' h'
  have e := abs_le.1 (C56_length R t h).2.2
  have e' := abs_le.1 (C56_length R' t' h').2.2
  rw [w] at e'
  refine tighter_of a a' b b' (by rw [c, c', sp]) (by rw [d, d', w]) (.inl ?_)
  have : (0.015:ℝ) / s.catenary.weightUnit.magnitude = 2 * (0.0075 / s.catenary.weightUnit.magnitude) := by ring
  linarith [e.1, e'.2]

/-- C208 for the largest sag: the tolerance is 0.03 times the distance of the end points over their horizontal
distance, over the unit load. -/
theorem C208_sag (t : s.typeTarget = .sag) (t' : s'.typeTarget = .sag) (p : s.positionTarget = -1)
    (p' : s'.positionTarget = -1)
    (v : s'.valueTarget + 0.03 * (s.catenary.spacing.magnitude / s.catenary.spacing.x) /
      s.catenary.weightUnit.magnitude < s.valueTarget) :
    PulledTighter s.validate.2.catenaryQ.1 s'.validate.2.catenaryQ.1 := by
  obtain ⟨a, b, c, d⟩ := solved_catenary R h
  obtain ⟨a', b', c', d'⟩ := solved_catenary R' h'
  have e := abs_le.1 (C108_sag R t p h)
  have e' := abs_le.1 (C108_sag R' t' p' h')
  rw [w, sp] at e'
  refine tighter_of a a' b b' (by rw [c, c', sp]) (by rw [d, d', w]) (.inr (.inl ?_))
  have : (0.03:ℝ) * (s.catenary.spacing.magnitude / s.catenary.spacing.x) / s.catenary.weightUnit.magnitude =
    2 * (0.015 * (s.catenary.spacing.magnitude / s.catenary.spacing.x) / s.catenary.weightUnit.magnitude) := by ring
  linarith [e.1, e'.2]

/-- C208 for tensions at a support and for the largest tension: the second target is larger by more than 0.02 times
the distance of the end points over their horizontal distance. -/
theorem C208_tension (t : s.typeTarget = .tension) (t' : s'.typeTarget = .tension)
    (p : s.positionTarget = -1 ∨ s.positionTarget = 0 ∨ s.positionTarget = 1)
    (p' : s'.positionTarget = s.positionTarget)
    (v : s.valueTarget + 0.02 * (s.catenary.spacing.magnitude / s.catenary.spacing.x) < s'.valueTarget) :
    PulledTighter s.validate.2.catenaryQ.1 s'.validate.2.catenaryQ.1 := by
  obtain ⟨a, b, c, d⟩ := solved_catenary R h
  obtain ⟨a', b', c', d'⟩ := solved_catenary R' h'
  obtain ⟨-, -, e1, e2, e3⟩ := C105_tension R t p h
  obtain ⟨-, -, f1, f2, f3⟩ := C105_tension R' t' (by rwa [p']) h'
  rw [p', sp] at f1 f2 f3
  refine tighter_of a a' b b' (by rw [c, c', sp]) (by rw [d, d', w]) (.inr (.inr ?_))
  rcases p with p | p | p
  · exact .inr (.inr (by linarith [(abs_le.1 (e1 p)).2, (abs_le.1 (f1 p)).1]))
  · exact .inl (by linarith [(abs_le.1 (e2 p)).2, (abs_le.1 (f2 p)).1])
  · exact .inr (.inl (by linarith [(abs_le.1 (e3 p)).2, (abs_le.1 (f3 p)).1]))

/-- C208 for constants: the larger target, by however little, gives the tighter cable. -/
theorem C208_constant (t : s.typeTarget = .constant) (t' : s'.typeTarget = .constant)
    (v : s.valueTarget < s'.valueTarget) :
    PulledTighter s.validate.2.catenaryQ.1 s'.validate.2.catenaryQ.1 := by
  obtain ⟨a, b, c, d⟩ := solved_catenary R h
  obtain ⟨a', b', c', d'⟩ := solved_catenary R' h'
  have e := (C55_constant R t h).1
  have e' := (C55_constant R' t' h').1
  have S := (accepted_span a b).1
  have hw := S.w_pos
  have k1 : s.validate.2.catenaryQ.1.constant = s.validate.2.catenaryQ.1.tensionHorizontal /
      s.validate.2.catenaryQ.1.weightUnit.magnitude := by
    unfold Catenary3d.constant Catenary2d.constant
    rw [(refresh_params _).2.2.2, a.inner.2.2]
  have k2 : s'.validate.2.catenaryQ.1.constant = s'.validate.2.catenaryQ.1.tensionHorizontal /
      s'.validate.2.catenaryQ.1.weightUnit.magnitude := by
    unfold Catenary3d.constant Catenary2d.constant
    rw [(refresh_params _).2.2.2, a'.inner.2.2]
  have key : s.validate.2.catenaryQ.1.tensionHorizontal < s'.validate.2.catenaryQ.1.tensionHorizontal := by
    rw [← e, ← e', k1, k2, d', w, ← d] at v
    exact (div_lt_div_iff_of_pos_right hw).1 v
  exact ⟨key, C146_tighter a a' b (by rw [c, c', sp]) (by rw [d, d', w]) key⟩

end

/-- A length that the solver of the 100 ft span accepts. -/
theorem exLength_accepted {h : ℝ} (h0 : 55 < h) (h1 : h ≤ 50000) :
    (exSolver .length ((exSolver .length 1).catenary.setTension h).length).validate.1 = true := by
  set v := ((exSolver .length 1).catenary.setTension h).length with hv
  have hR := solver_catenary (exSolver_reachable .length v)
  have hS1 : (exSolver .length v).catenary.Span := by
    refine ⟨?_, rfl, rfl, le_refl _, ?_⟩
    · show (0:ℝ) < 100; norm_num
    · show (0:ℝ) < 1; norm_num
  have hpos : 0 < v := by
    have F := (fam_refl hR).step h
    have P := hS1.physical (x := h) (by linarith)
    rw [hv]
    show 0 < ((exSolver .length v).catenary.setTension h).length
    unfold Catenary3d.length Catenary2d.lengthQ
    rw [F.1.inner.1.refresh_eq]
    exact Catenary2d.length_pos (P.inner_positive F.1)
  refine C57_accepted_partial (exSolver_reachable _ _) (exSolver_inputs (by decide) hpos) rfl
    (by show |(0:ℝ)| < 2000; norm_num) (m := 50) (h := h) ?_ (by norm_num) (by norm_num) (by linarith)
    (by linarith) rfl
  rw [exSolver_spacing, exSolver_weight]; norm_num

/-- The length of the 100 ft span at a horizontal tension. -/
theorem exLength_at {h : ℝ} (h0 : 0 < h) :
    ((exSolver .length 1).catenary.setTension h).length = 2 * (h * Real.sinh (50 / h)) := by
  have S := inputs_span (exSolver_inputs (t := .length) (v := 1) (by decide) (by norm_num))
  rw [length_fam S (fam_refl (solver_catenary (exSolver_reachable .length 1))) h0]
  have hw := exSolver_weight .length 1
  have hz : (exSolver .length 1).catenary.spacing2d.y = 0 := by
    show (0:ℝ) * _ = 0; rw [zero_mul]
  have hx : (exSolver .length 1).catenary.spacing2d.x = 100 := by
    have a := S.s2_le
    rw [exSolver_spacing] at a
    exact le_antisymm a (S.physical one_pos).s2x
  have hs : 0 < Real.sinh (50 / h) := Real.sinh_pos_iff.2 (by positivity)
  unfold lengthFn
  rw [hw, hz, hx, div_one, show (0:ℝ) ^ 2 = 0 by norm_num, zero_add, Real.sqrt_sq]
  · norm_num
  · norm_num; positivity

/-- The theorem C208 for lengths applies: two lengths that the 100 ft span is solved for. -/
example : ∃ v v' : ℝ, (exSolver .length v).validate.1 = true ∧ (exSolver .length v').validate.1 = true ∧
    PulledTighter (exSolver .length v).validate.2.catenaryQ.1 (exSolver .length v').validate.2.catenaryQ.1 := by
  have a := exLength_accepted (h := 60) (by norm_num) (by norm_num)
  have b := exLength_accepted (h := 5000) (by norm_num) (by norm_num)
  refine ⟨_, _, a, b, C208_length (exSolver_reachable _ _) (exSolver_reachable _ _) a b rfl rfl rfl rfl ?_⟩
  show ((exSolver .length 1).catenary.setTension 5000).length + 0.015 / (exSolver .length _).catenary.weightUnit.magnitude <
    ((exSolver .length 1).catenary.setTension 60).length
  rw [exSolver_weight, exLength_at (by norm_num), exLength_at (by norm_num)]
  have u1 : Real.sinh (50 / 5000) ≤ 0.01006 := by
    rw [Real.sinh_eq]
    have e1 : Real.exp (50 / 5000) ≤ 1 / (1 - 50 / 5000) :=
      Real.exp_bound_div_one_sub_of_interval (by norm_num) (by norm_num)
    have e2 := Real.one_sub_le_exp_neg (50 / 5000 : ℝ)
    norm_num at e1 e2 ⊢
    linarith
  have u2 : 0.86 ≤ Real.sinh (50 / 60) := by
    rw [Real.sinh_eq, Real.exp_neg]
    have e1 := Real.quadratic_le_exp_of_nonneg (show (0:ℝ) ≤ 50 / 60 by norm_num)
    have e2 : (Real.exp (50 / 60))⁻¹ ≤ (1 + 50 / 60 + (50 / 60) ^ 2 / 2 : ℝ)⁻¹ := inv_anti₀ (by norm_num) e1
    norm_num at e1 e2 ⊢
    linarith
  norm_num at u1 u2 ⊢
  linarith

/-- The theorem C208 for constants applies. -/
example : PulledTighter (exSolver .constant 1000).validate.2.catenaryQ.1
    (exSolver .constant 1200).validate.2.catenaryQ.1 := by
  have acc : ∀ v : ℝ, 50 ≤ v → (exSolver .constant v).validate.1 = true := by
    intro v hv
    rw [C55_accepts (exSolver_reachable _ _) rfl, exSolver_spacing]
    refine ⟨Or.inl rfl, ?_, rfl, ?_, rfl, le_refl _, ?_, ?_⟩
    · show (0:ℝ) < 100; norm_num
    · show |(0:ℝ)| < 2000; norm_num
    · show (0:ℝ) < 1; norm_num
    · show (100:ℝ) / 2 ≤ v; linarith
  refine C208_constant (exSolver_reachable _ _) (exSolver_reachable _ _) (acc _ (by norm_num)) (acc _ (by norm_num))
    rfl rfl rfl rfl ?_
  show (1000:ℝ) < 1200; norm_num

/-- The theorem C208 for tensions applies to the inclined span. -/
example : PulledTighter (exIncline 20000).validate.2.catenaryQ.1 (exIncline 30000).validate.2.catenaryQ.1 := by
  have b : (exIncline 30000).validate.1 = true := by
    refine C106_accepted (exIncline_reachable _) (exIncline_inputs (by norm_num)) rfl (Or.inl rfl) ?_ (m := 250) ?_ ?_ ?_ ?_
    · show |(400:ℝ)| < 2000; rw [abs_of_pos (by norm_num)]; norm_num
    · rw [exIncline_spacing, exIncline_weight]; norm_num
    · exact lt_trans exIncline_least (show (20000:ℝ) < 30000 by norm_num)
    · show (30000:ℝ) ≤ 300000; norm_num
    · show (250:ℝ) + 0.01 < 30000; norm_num
  refine C208_tension (exIncline_reachable _) (exIncline_reachable _) exIncline_accepted b rfl rfl rfl rfl (.inl rfl)
    rfl ?_
  rw [exIncline_spacing]
  show (20000:ℝ) + 0.02 * (500 / 300) < 30000
  norm_num

/-- A sag that the solver of the 100 ft span accepts, and its value. -/
theorem exSag_accepted {h : ℝ} (h0 : 55 < h) (h1 : h ≤ 50000) :
    (exSolver .sag (h * (Real.cosh (50 / h) - 1))).validate.1 = true := by
  set v := h * (Real.cosh (50 / h) - 1) with hv
  have hR := solver_catenary (exSolver_reachable .sag v)
  have S : (exSolver .sag v).catenary.Span := by
    refine ⟨?_, rfl, rfl, le_refl _, ?_⟩
    · show (0:ℝ) < 100; norm_num
    · show (0:ℝ) < 1; norm_num
  have hx : (exSolver .sag v).catenary.spacing2d.x = 100 := by
    have a := S.s2_le
    rw [exSolver_spacing] at a
    exact le_antisymm a (S.physical one_pos).s2x
  have e : ((exSolver .sag v).catenary.setTension h).sag = v := by
    rw [sag_fam S (fam_refl hR) rfl (by linarith)]
    unfold levelSag
    rw [exSolver_weight, hx, div_one, hv]
    norm_num
  have hpos : 0 < v := by
    have F := (fam_refl hR).step h
    have P := S.physical (x := h) (by linarith)
    rw [← e]
    exact C47_sag_pos F.1.inner.1 (P.inner_positive F.1)
  refine C109_level_sag_partial (exSolver_reachable _ _) (exSolver_inputs (by decide) hpos) rfl rfl rfl
    (m := 50) (h := h) ?_ (by norm_num) (by norm_num) (by linarith) (by linarith) e.symm
  rw [exSolver_spacing, exSolver_weight]; norm_num

/-- The theorem C208 for sags applies: two sags that the 100 ft span is solved for. -/
example : ∃ v v' : ℝ, (exSolver .sag v).validate.1 = true ∧ (exSolver .sag v').validate.1 = true ∧
    PulledTighter (exSolver .sag v).validate.2.catenaryQ.1 (exSolver .sag v').validate.2.catenaryQ.1 := by
  have a := exSag_accepted (h := 60) (by norm_num) (by norm_num)
  have b := exSag_accepted (h := 5000) (by norm_num) (by norm_num)
  refine ⟨_, _, a, b, C208_sag (exSolver_reachable _ _) (exSolver_reachable _ _) a b rfl rfl rfl rfl rfl rfl ?_⟩
  rw [exSolver_weight, exSolver_spacing]
  show 5000 * (Real.cosh (50 / 5000) - 1) + 0.03 * (100 / 100) / 1 < 60 * (Real.cosh (50 / 60) - 1)
  have u1 : Real.cosh (50 / 5000) ≤ 1.00011 := by
    rw [Real.cosh_eq, Real.exp_neg]
    have e1 : Real.exp (50 / 5000) ≤ 1 / (1 - 50 / 5000) :=
      Real.exp_bound_div_one_sub_of_interval (by norm_num) (by norm_num)
    have e2 : (Real.exp (50 / 5000))⁻¹ ≤ (50 / 5000 + 1 : ℝ)⁻¹ :=
      inv_anti₀ (by norm_num) (Real.add_one_le_exp _)
    norm_num at e1 e2 ⊢
    linarith
  have u2 : 1.17 ≤ Real.cosh (50 / 60) := by
    rw [Real.cosh_eq]
    have e1 := Real.quadratic_le_exp_of_nonneg (show (0:ℝ) ≤ 50 / 60 by norm_num)
    have e2 := Real.one_sub_le_exp_neg (50 / 60 : ℝ)
    norm_num at e1 e2 ⊢
    linarith
  norm_num at u1 u2 ⊢
  linarith

end Verif.Props
