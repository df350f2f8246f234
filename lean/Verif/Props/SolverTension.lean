import Verif.SagLemmas
import Verif.Props.CatenarySolver
import Mathlib.Analysis.Complex.ExponentialBounds

/-! # Support tension targets on any span (C105, C106) -/

set_option linter.unusedSectionVars false

namespace Verif.Props

open Catenary3d CatenarySolver

/-- The tension at an end of the span, or the largest tension (-1), as selected by the position target. -/
noncomputable def targetTension (p : ℝ) (k : Catenary3d) : ℝ := open Classical in
  if p = -1 then k.tensionMax else k.tension p

/-- What the tension at the target position exceeds the mean support tension by. -/
noncomputable def tensionShift (p : ℝ) (k0 : Catenary3d) : ℝ := open Classical in
  if p = -1 then k0.weightUnit.magnitude * |k0.spacing2d.y| / 2
  else if p = 0 then -(k0.weightUnit.magnitude * k0.spacing2d.y / 2)
  else k0.weightUnit.magnitude * k0.spacing2d.y / 2

theorem target_fam {k0 k : Catenary3d} (S : k0.Span) (F : Fam k0 k) {h : ℝ} (hh : 0 < h) {p : ℝ}
    (hp : p = -1 ∨ p = 0 ∨ p = 1) :
    targetTension p (k.setTension h) = k0.tensionMean h + tensionShift p k0 := by
  obtain ⟨h0, h1⟩ := support_fam S F hh
  unfold targetTension tensionShift
  rcases hp with rfl | rfl | rfl
  · rw [if_pos rfl, if_pos rfl, max_fam S F hh]
  · rw [if_neg (by norm_num), if_neg (by norm_num), if_pos rfl, h0]; ring
  · rw [if_neg (by norm_num), if_neg (by norm_num), if_neg (by norm_num), h1]

theorem target_answers {k0 : Catenary3d} (S : k0.Span) {p : ℝ} (hp : p = -1 ∨ p = 0 ∨ p = 1) :
    Answers (Fam k0) (targetTension p) (fun h => k0.tensionMean h + tensionShift p k0)
      (k0.spacing.magnitude / 2 * k0.weightUnit.magnitude) where
  eval _ hk _ hh := target_fam S hk (S.ratio hh).1 hp
  next _ hk h := (hk.step h).query
  set _ hk h := hk.step h

theorem tensionProbe_eq (s : CatenarySolver) : s.tensionProbe = targetTension s.positionTarget := rfl

/-- The tension at any point is at least the horizontal tension. -/
theorem target_ge {k0 : Catenary3d} (S : k0.Span) (R : k0.Reachable) {h : ℝ}
    (hh : k0.spacing.magnitude / 2 * k0.weightUnit.magnitude ≤ h) {p : ℝ} (hp : p = -1 ∨ p = 0 ∨ p = 1) :
    h ≤ k0.tensionMean h + tensionShift p k0 := by
  obtain ⟨h0, _⟩ := S.ratio hh
  have F := fam_refl R
  obtain ⟨r, P2, hs, ht, hw, hz⟩ := inner_facts S F h0
  rw [← target_fam S F h0 hp]
  unfold targetTension
  have key : ∀ q, h ≤ (k0.setTension h).tension q := fun q => by
    have := C44_tension_ge r P2 q
    rwa [ht] at this
  split_ifs
  · rcases C45_max_attained r with e | e
    · exact (key 0).trans e.ge
    · exact (key 1).trans e.ge
  · exact key p

theorem target_supported {k0 : Catenary3d} (S : k0.Span) (p : ℝ) :
    Supported (fun h => k0.tensionMean h + tensionShift p k0) k0.meanSlope
      (k0.spacing.magnitude / 2 * k0.weightUnit.magnitude) := by
  intro x y hx hy
  have := mean_supported S x y hx hy
  simp only
  linarith

/-- The outcome of a solve for the tension at a support or the largest tension. -/
theorem target_outcome {s s' : CatenarySolver} (R : s.catenary.Reachable) (S : s.catenary.Span)
    (ht : s.typeTarget = .tension) (hp : s.positionTarget = -1 ∨ s.positionTarget = 0 ∨ s.positionTarget = 1)
    (hs : s.solve = some (true, s')) :
    s'.catenary.tensionHorizontal = -999999 ∨
      (s.leftStart ≤ s'.catenary.tensionHorizontal ∧
        |s.catenary.tensionMean s'.catenary.tensionHorizontal + tensionShift s.positionTarget s.catenary
          - s.valueTarget| ≤ 0.01 * (s.catenary.spacing2d.magnitude / s.catenary.spacing2d.x)) := by
  have hs' : s.solve = some s.solveTension := by unfold solve; rw [ht]
  rw [hs', Option.some.injEq] at hs
  have A : Answers (Fam s.catenary) s.tensionProbe
      (fun h => s.catenary.tensionMean h + tensionShift s.positionTarget s.catenary) s.leftStart :=
    target_answers S hp
  have F := fam_refl R
  have hge := target_ge S R (le_refl s.leftStart) hp
  have p1 := probe_eq A F (le_refl s.leftStart)
  unfold solveTension at hs
  simp only [p1] at hs
  split_ifs at hs with h1
  · cases hs
  have h1' := not_lt.1 h1
  have hr : s.leftStart ≤ s.valueTarget := hge.trans h1'
  have p2 := probe_eq A (F.step s.leftStart).query hr
  simp only [p2] at hs
  rw [Prod.mk.injEq] at hs
  rw [← hs.2]
  rcases hr.lt_or_eq with hr | hr
  · exact (secantSolve_inc A (by
      have := S.s2_pos
      have : 0 ≤ s.catenary.spacing2d.magnitude := Real.sqrt_nonneg _
      positivity) (target_supported S _) (fun x hx => (mean_slope S hx).2)
      (fun x hx => (mean_slope S hx).1) hr h1'
      ((F.step s.leftStart).query.step s.valueTarget).query hs.1).2
  · left
    have hw : ¬ ((0.01:ℝ) < |s.leftStart - s.valueTarget|) := by rw [← hr]; norm_num
    show (secantSolve _ _ _ _ _).2.tensionHorizontal = _
    unfold secantSolve secantLoop
    simp only [if_neg hw]
    rfl

/-- C105: if a tension target at a support (position 0 or 1) or for the largest tension (position -1) is accepted,
the tension there differs from the target by at most 0.01 times the distance of the end points over their
horizontal distance. -/
theorem C105_tension {s : CatenarySolver} (R : s.Reachable) (ht : s.typeTarget = .tension)
    (hp : s.positionTarget = -1 ∨ s.positionTarget = 0 ∨ s.positionTarget = 1) (h : s.validate.1 = true) :
    let k := s.validate.2.catenaryQ.1
    k.spacing = s.catenary.spacing ∧ k.weightUnit = s.catenary.weightUnit ∧
    (s.positionTarget = -1 → |k.tensionMax - s.valueTarget| ≤
      0.01 * (s.catenary.spacing.magnitude / s.catenary.spacing.x)) ∧
    (s.positionTarget = 0 → |k.tension 0 - s.valueTarget| ≤
      0.01 * (s.catenary.spacing.magnitude / s.catenary.spacing.x)) ∧
    (s.positionTarget = 1 → |k.tension 1 - s.valueTarget| ≤
      0.01 * (s.catenary.spacing.magnitude / s.catenary.spacing.x)) := by
  intro k
  have hR := solver_catenary R
  have S := inputs_span (validate_true h).1
  obtain ⟨s', hs, hv, e⟩ := validate_catenary h
  have F := (solve_frame hR hs).1
  have hk : k = s'.catenary.refresh := e
  have key : |targetTension s.positionTarget k - s.valueTarget| ≤
      0.01 * (s.catenary.spacing.magnitude / s.catenary.spacing.x) := by
    rcases target_outcome hR S ht hp hs with h' | ⟨h', h''⟩
    · exact absurd h' (validate_pos F.1 hv)
    · have e2 : targetTension s.positionTarget k =
          targetTension s.positionTarget (s'.catenary.setTension s'.catenary.tensionHorizontal) := by
        rw [hk]
        unfold targetTension
        rw [show s'.catenary.refresh.tensionMax =
            (s'.catenary.setTension s'.catenary.tensionHorizontal).tensionMax from ask_refresh F.1 Query3.tensionMax,
          show s'.catenary.refresh.tension s.positionTarget =
            (s'.catenary.setTension s'.catenary.tensionHorizontal).tension s.positionTarget from
            ask_refresh F.1 (Query3.tension s.positionTarget)]
      rw [e2, target_fam S F (S.ratio h').1 hp]
      refine h''.trans ?_
      rw [S.chord]
      have h0 := S.s_pos
      have h1 := S.sx
      have h2 := (S.physical one_pos).s2x
      have h2 : s.catenary.spacing.x ≤ s.catenary.spacing2d.x := h2
      have : s.catenary.spacing.magnitude / s.catenary.spacing2d.x ≤ s.catenary.spacing.magnitude / s.catenary.spacing.x :=
        div_le_div_of_nonneg_left h0.le h1 h2
      linarith
  refine ⟨by rw [hk]; exact F.touch.2.1, by rw [hk]; exact F.touch.2.2, ?_, ?_, ?_⟩ <;> intro hpos <;>
    (rw [hpos] at key; unfold targetTension at key)
  · rwa [if_pos rfl] at key
  · rwa [if_neg (by norm_num)] at key
  · rwa [if_neg (by norm_num)] at key

/-- C106: a target for the largest tension, or for the tension at the support that is not lower, is accepted if it lies
between the tension at the least admissible horizontal tension `m` and 300000 and is not within 0.01 of `m`. -/
theorem C106_accepted {s : CatenarySolver} (R : s.Reachable) (hi : s.InputsValid)
    (ht : s.typeTarget = .tension)
    (hp : s.positionTarget = -1 ∨ s.positionTarget = 0 ∧ s.catenary.spacing.z ≤ 0 ∨
      s.positionTarget = 1 ∧ 0 ≤ s.catenary.spacing.z)
    (hz : |s.catenary.spacing.z| < 2000) {m : ℝ}
    (hm : m = s.catenary.spacing.magnitude / 2 * s.catenary.weightUnit.magnitude)
    (h0 : (s.catenary.setTension m).tensionMax < s.valueTarget) (h1 : s.valueTarget ≤ 300000)
    (h2 : m + 0.01 < s.valueTarget) : s.validate.1 = true := by
  have hR := solver_catenary R
  have S := inputs_span hi
  have hs' : s.solve = some s.solveTension := by unfold solve; rw [ht]
  have hp' : s.positionTarget = -1 ∨ s.positionTarget = 0 ∨ s.positionTarget = 1 := by
    rcases hp with h | h | h
    exacts [.inl h, .inr (.inl h.1), .inr (.inr h.1)]
  have hyz : s.catenary.spacing2d.y = s.catenary.spacing.z *
      (|s.catenary.weightUnit.z| / s.catenary.weightUnit.magnitude) := rfl
  have hq : 0 < |s.catenary.weightUnit.z| / s.catenary.weightUnit.magnitude :=
    div_pos (abs_pos.2 S.wz.ne') S.w_pos
  have hshift : tensionShift s.positionTarget s.catenary = tensionShift (-1) s.catenary := by
    unfold tensionShift
    rcases hp with h | ⟨h, h'⟩ | ⟨h, h'⟩
    · rw [h]
    · have : s.catenary.spacing2d.y ≤ 0 := by rw [hyz]; exact mul_nonpos_of_nonpos_of_nonneg h' hq.le
      rw [h, if_neg (by norm_num), if_pos rfl, if_pos rfl, abs_of_nonpos this]; ring
    · have : 0 ≤ s.catenary.spacing2d.y := by rw [hyz]; exact mul_nonneg h' hq.le
      rw [h, if_neg (by norm_num), if_neg (by norm_num), if_pos rfl, abs_of_nonneg this]
  have hshift0 : 0 ≤ tensionShift (-1) s.catenary := by
    unfold tensionShift
    rw [if_pos rfl]
    have := S.w_pos
    positivity
  set f : ℝ → ℝ := fun h => s.catenary.tensionMean h + tensionShift s.positionTarget s.catenary with hf
  have A : Answers (Fam s.catenary) s.tensionProbe f s.leftStart := target_answers S hp'
  have F := fam_refl hR
  have hl : s.leftStart = m := hm.symm
  have hm0 : 0 < m := by rw [← hl]; exact leftStart_pos S
  rw [max_fam S F hm0] at h0
  have h0' : f s.leftStart < s.valueTarget := by
    rw [hf]
    simp only
    rw [hshift, hl]
    unfold tensionShift
    rw [if_pos rfl]
    exact h0
  have hroot : ∃ r, s.leftStart < r ∧ r < s.valueTarget ∧ f r = s.valueTarget := by
    have hcont : ContinuousOn f (Set.Icc s.leftStart s.valueTarget) :=
      (mean_continuous S (le_refl _)).add continuousOn_const
    have hv : s.valueTarget < f s.valueTarget := by
      have := mean_ge S (show s.leftStart ≤ s.valueTarget by linarith)
      rw [hf]
      simp only
      rw [hshift]
      linarith
    obtain ⟨r, ⟨hr1, hr2⟩, e⟩ := intermediate_value_Icc (by linarith : s.leftStart ≤ s.valueTarget) hcont
      ⟨h0'.le, hv.le⟩
    refine ⟨r, lt_of_le_of_ne hr1 ?_, lt_of_le_of_ne hr2 ?_, e⟩
    · rintro rfl; linarith
    · rintro rfl; linarith
  obtain ⟨r, hr1, hr2, hr⟩ := hroot
  have K0 : 0 < s.catenary.spacing2d.magnitude / s.catenary.spacing2d.x := by
    rw [S.chord]; exact div_pos S.s_pos S.s2_pos
  have key := secantSolve_inc_succeeds (K := s.catenary.spacing2d.magnitude / s.catenary.spacing2d.x)
    (μ := 0.305 * (s.catenary.spacing2d.magnitude / s.catenary.spacing2d.x)) (q := 0.695) (r := r)
    (right := s.valueTarget) (f := f) (σ := s.catenary.meanSlope) A
    (fun x y hx hy hne => by have := mean_strict S x y hx hy hne; simp only [hf]; linarith)
    (by positivity) (fun x hx => mean_slope_lower S hx)
    (fun x hx => (mean_slope S hx).2) (by rw [mul_div_assoc, div_self K0.ne']; norm_num) (by norm_num) hr1 hr2 (by
      have : r - s.leftStart ≤ 300000 := by linarith
      refine le_trans (mul_le_mul_of_nonneg_left this (by norm_num)) ?_
      norm_num) (by linarith) _ ((F.step s.leftStart).query.step s.valueTarget).query
  rw [hr] at key
  have hfin : s.solveTension.1 = true ∧ Fam s.catenary s.solveTension.2.catenary ∧
      s.leftStart ≤ s.solveTension.2.catenary.tensionHorizontal := by
    have p1 := probe_eq A F (le_refl s.leftStart)
    have p2 := probe_eq A (F.step s.leftStart).query (show s.leftStart ≤ s.valueTarget by linarith)
    unfold solveTension
    simp only [p1, p2, not_lt.2 h0'.le, if_false]
    exact key
  unfold CatenarySolver.validate
  rw [if_pos hi]
  unfold update
  rw [hs']
  match hmm : s.solveTension with
  | (false, _) => rw [hmm] at hfin; cases hfin.1
  | (true, s') =>
    rw [hmm] at hfin
    obtain ⟨_, f1, f2⟩ := hfin
    simp only
    rw [(C54_validate_3d f1.1).1, f1.2.1, f1.2.2]
    refine ⟨(S.ratio f2).1, S.sx, S.sy, hz, S.wx, S.wy, S.wz, ?_⟩
    rw [le_div_iff₀ S.w_pos]
    exact f2

/-! ## C108: sag targets on any span -/

/-- The outcome of a solve for the sag. -/
theorem sagFn_outcome {s s' : CatenarySolver} (R : s.catenary.Reachable) (S : s.catenary.Span)
    (ht : s.typeTarget = .sag) (hp : s.positionTarget = -1) (hs : s.solve = some (true, s')) :
    s'.catenary.tensionHorizontal = -999999 ∨
      (s.leftStart ≤ s'.catenary.tensionHorizontal ∧
        |s.catenary.sagFn s'.catenary.tensionHorizontal - s.valueTarget| ≤
          0.01 * (1.5 * (s.catenary.spacing2d.magnitude / s.catenary.spacing2d.x) / s.catenary.weightUnit.magnitude)) := by
  have hs' : s.solve = some s.solveSag := by unfold solve; rw [ht]
  rw [hs', Option.some.injEq] at hs
  have hg : s.sagProbe = Catenary3d.sag := by
    funext k; unfold sagProbe; rw [if_pos hp]
  have A : Answers (Fam s.catenary) s.sagProbe s.catenary.sagFn s.leftStart := by
    rw [hg]; exact sagFn_answers S
  have F := fam_refl R
  have hl0 := leftStart_pos S
  have hw := S.w_pos
  have hx := S.s2_pos
  have p1 := probe_eq A F (le_refl s.leftStart)
  have p2 := probe_eq A (F.step s.leftStart).query (show s.leftStart ≤ s.leftStart * 1.10 by linarith)
  unfold solveSag at hs
  simp only [p1, p2] at hs
  split_ifs at hs with h1
  · cases hs
  rw [Prod.mk.injEq] at hs
  rw [← hs.2]
  exact (secantSolve_dec A (by
      have : 0 ≤ s.catenary.spacing2d.magnitude := Real.sqrt_nonneg _
      positivity)
    (sagFn_supported S) (fun x hx => (sagFn_slope S hx).2) (fun x hx => (sagFn_slope S hx).1)
    (show s.leftStart < s.leftStart * 1.10 by linarith) (not_lt.1 h1)
    ((F.step s.leftStart).query.step (s.leftStart * 1.10)).query hs.1).2

/-- C108: if a target for the largest sag is accepted, the sag of the returned catenary differs from it by at most 0.015
times the distance of the end points over their horizontal distance, over the unit load. -/
theorem C108_sag {s : CatenarySolver} (R : s.Reachable) (ht : s.typeTarget = .sag)
    (hp : s.positionTarget = -1) (h : s.validate.1 = true) :
    |s.validate.2.catenaryQ.1.sag - s.valueTarget| ≤
      0.015 * (s.catenary.spacing.magnitude / s.catenary.spacing.x) / s.catenary.weightUnit.magnitude := by
  have hR := solver_catenary R
  have S := inputs_span (validate_true h).1
  obtain ⟨s', hs, hv, e⟩ := validate_catenary h
  have F := (solve_frame hR hs).1
  rw [e]
  rcases sagFn_outcome hR S ht hp hs with h' | ⟨h', h''⟩
  · exact absurd h' (validate_pos F.1 hv)
  · have e2 : s'.catenary.refresh.sag = s.catenary.sagFn s'.catenary.tensionHorizontal :=
      (ask_refresh F.1 Query3.sag).trans (sagFn_fam S F (S.ratio h').1)
    rw [e2]
    refine le_trans h'' ?_
    rw [S.chord]
    have hw := S.w_pos
    have h2 : s.catenary.spacing.x ≤ s.catenary.spacing2d.x := (S.physical one_pos).s2x
    have : s.catenary.spacing.magnitude / s.catenary.spacing2d.x ≤ s.catenary.spacing.magnitude / s.catenary.spacing.x :=
      div_le_div_of_nonneg_left S.s_pos.le S.sx h2
    have := div_le_div_of_nonneg_right this hw.le
    have e3 : ∀ t : ℝ, 0.01 * (1.5 * t / s.catenary.weightUnit.magnitude) = 0.015 * (t / s.catenary.weightUnit.magnitude) := by
      intro t; ring
    rw [e3, mul_div_assoc]
    linarith

/-- `z²/2 ≤ z sinh z - cosh z + 1`. -/
theorem sag_slope_lower {z : ℝ} (h0 : 0 ≤ z) : z ^ 2 / 2 ≤ z * Real.sinh z - Real.cosh z + 1 := by
  set a := Real.sinh (z / 2)
  set C := Real.cosh (z / 2)
  have hC : C ^ 2 = a ^ 2 + 1 := Real.cosh_sq _
  have C1 : 1 ≤ C := Real.one_le_cosh _
  have e1 : Real.sinh z = 2 * a * C := by
    have h := Real.sinh_two_mul (z / 2)
    rwa [show 2 * (z / 2) = z by ring] at h
  have e2 : Real.cosh z = 1 + 2 * a ^ 2 := by
    have h := Real.cosh_two_mul (z / 2)
    rw [show 2 * (z / 2) = z by ring] at h
    rw [h]; linarith
  have ha : z / 2 ≤ a := Real.self_le_sinh_iff.2 (by linarith)
  have hb : a ≤ z / 2 * C := by
    have := sinh_tangent (by linarith : 0 ≤ z / 2) (le_refl (0:ℝ))
    rw [Real.sinh_zero] at this
    linarith
  rw [e1, e2]
  have h1 : z / 2 ≤ z * C - a := by nlinarith
  nlinarith [mul_le_mul ha h1 (by linarith) (by linarith)]

/-- C109: on a level span the sags of catenaries whose tension lies between 1.1 and 1000 times the least admissible
tension `m` are accepted, when `m` is above 0.1 and at most a thousand million. -/
theorem C109_level_sag_partial {s : CatenarySolver} (R : s.Reachable) (hi : s.InputsValid)
    (ht : s.typeTarget = .sag) (hp : s.positionTarget = -1) (hz : s.catenary.spacing.z = 0) {m h : ℝ}
    (hm : m = s.catenary.spacing.magnitude / 2 * s.catenary.weightUnit.magnitude)
    (m0 : 0.1 < m) (m1 : m ≤ 1000000000) (h0 : 1.1 * m < h) (h1 : h ≤ 1000 * m)
    (hv : s.valueTarget = (s.catenary.setTension h).sag) : s.validate.1 = true := by
  have hR := solver_catenary R
  have S := inputs_span hi
  have hw := S.w_pos
  have hg : s.sagProbe = Catenary3d.sag := by
    funext k; unfold sagProbe; rw [if_pos hp]
  have A : Answers (Fam s.catenary) s.sagProbe s.catenary.levelSag s.leftStart := by
    rw [hg]; exact sag_answers S hz
  have F := fam_refl hR
  have hl : s.leftStart = m := hm.symm
  have hlh : s.leftStart ≤ h := by linarith
  have hs' : s.solve = some s.solveSag := by unfold solve; rw [ht]
  have hv : s.valueTarget = s.catenary.levelSag h := by rw [hv]; exact sag_fam S F hz (S.ratio hlh).1
  have hF2 := ((F.step s.leftStart).query.step (s.leftStart * 1.10)).query
  have strict : ∀ x y, s.leftStart ≤ x → s.leftStart ≤ y → x ≠ y →
      s.catenary.levelSag x + s.catenary.sagSlope x * (y - x) < s.catenary.levelSag y := by
    intro x y hx hy hne
    have h := tension_strict S x y hx hy hne
    have e : ∀ x, s.catenary.levelSag x = (s.catenary.levelTension x - x) / s.catenary.weightUnit.magnitude := by
      intro x; unfold levelSag levelTension; ring
    rw [e, e]
    unfold sagSlope
    have : (s.catenary.levelTension x - x) / s.catenary.weightUnit.magnitude +
        (s.catenary.tensionSlope x - 1) / s.catenary.weightUnit.magnitude * (y - x)
      = (s.catenary.levelTension x + s.catenary.tensionSlope x * (y - x) - y) / s.catenary.weightUnit.magnitude := by ring
    rw [this]
    exact div_lt_div_of_pos_right (by linarith) hw
  have drop : ∀ a b, s.leftStart ≤ a → a < b → 0 < s.catenary.levelSag a - s.catenary.levelSag b := by
    intro a b ha hab
    have a1 := strict b a (by linarith) ha (by linarith)
    have a2 := (sag_slope S (by show s.leftStart ≤ b; linarith)).1
    have : 0 ≤ s.catenary.sagSlope b * (a - b) := mul_nonneg_of_nonpos_of_nonpos a2.le (by linarith)
    linarith
  obtain ⟨J, j0, js, jn⟩ := climb_meets (f := s.catenary.levelSag) (x0 := s.leftStart) (r := h) (κ := 2)
    (u := 0.0011) (α := 1.125) (β := 0.0285) (γ := 0.28) (n1 := 52) (n2 := 15) (right := s.leftStart * 1.10)
    (by norm_num) (by norm_num) (by norm_num) (by norm_num) (by norm_num) (by norm_num) (by norm_num) (by norm_num)
    (by norm_num) (by norm_num) (by norm_num) (by norm_num) (by linarith)
    (le_trans (mul_le_mul_of_nonneg_right (by linarith : h ≤ 1000000000000) (by positivity)) (by norm_num))
    (by linarith) (by linarith)
    (fun a b x h0 hab hbx hxr _ e => step_linear' (by linarith) hab hbx hxr (drop a b h0 hab) e
      (sag_linear S h0 hab (by linarith)))
    (fun a b x h0 hab hbx hxr hk e => (square_steps (by linarith) hab hbx hxr (step_square (by linarith) hab hbx hxr
      (drop a b h0 hab) e (sag_square S h0 hab (by linarith))) hk).1)
    (fun a b x h0 hab hbx hxr hk e => (square_steps (by linarith) hab hbx hxr (step_square (by linarith) hab hbx hxr
      (drop a b h0 hab) e (sag_square S h0 hab (by linarith))) hk).2.1)
    (fun a b x h0 hab hbx hxr hk e => (square_steps (by linarith) hab hbx hxr (step_square (by linarith) hab hbx hxr
      (drop a b h0 hab) e (sag_square S h0 hab (by linarith))) hk).2.2)
  have key := secantSolve_dec_meets (r := h) (right := s.leftStart * 1.10) A strict
    (fun x hx => (sag_slope S hx).1) (by show s.leftStart < _; linarith) (by linarith) J j0 js jn
    (by show 0.01 < s.leftStart * 1.10 - s.leftStart; linarith) _ hF2
  have hb2 : s.valueTarget ≤ s.catenary.levelSag s.leftStart := by
    rw [hv]
    have a1 := strict h s.leftStart hlh (le_refl _) (by linarith)
    have a2 := (sag_slope S hlh).1
    have : 0 ≤ s.catenary.sagSlope h * (s.leftStart - h) := mul_nonneg_of_nonpos_of_nonpos a2.le (by linarith)
    linarith
  have hf : s.solveSag.1 = true ∧ Fam s.catenary s.solveSag.2.catenary ∧
      s.leftStart ≤ s.solveSag.2.catenary.tensionHorizontal := by
    have p1 := probe_eq A F (le_refl s.leftStart)
    have p2 := probe_eq A (F.step s.leftStart).query (show s.leftStart ≤ s.leftStart * 1.10 by linarith)
    unfold solveSag
    simp only [p1, p2, not_lt.2 hb2, if_false]
    rw [hv]
    exact key
  unfold CatenarySolver.validate
  rw [if_pos hi]
  unfold update
  rw [hs']
  match hmm : s.solveSag with
  | (false, _) => rw [hmm] at hf; cases hf.1
  | (true, s') =>
    rw [hmm] at hf
    obtain ⟨_, f1, f2⟩ := hf
    simp only
    rw [(C54_validate_3d f1.1).1, f1.2.1, f1.2.2]
    refine ⟨(S.ratio f2).1, S.sx, S.sy, by rw [hz]; norm_num, S.wx, S.wy, S.wz, ?_⟩
    rw [le_div_iff₀ S.w_pos]
    exact f2

/-- The theorems C86, C108 and C109 apply: a successful solve for a sag. -/
theorem exSag : ∃ v, 0 < v ∧ (exSolver .sag v).validate.1 = true := by
  set v := ((exSolver .sag 1).catenary.setTension 60).sag with hv
  have hR := solver_catenary (exSolver_reachable .sag v)
  have hS1 : (exSolver .sag v).catenary.Span := by
    refine ⟨?_, rfl, rfl, le_refl _, ?_⟩
    · show (0:ℝ) < 100; norm_num
    · show (0:ℝ) < 1; norm_num
  have hpos : 0 < v := by
    have F := (fam_refl hR).step 60
    have P := hS1.physical (x := 60) (by norm_num)
    rw [hv]
    show 0 < ((exSolver .sag v).catenary.setTension 60).sag
    exact C47_sag_pos F.1.inner.1 (P.inner_positive F.1)
  refine ⟨v, hpos, ?_⟩
  refine C109_level_sag_partial (exSolver_reachable _ _) (exSolver_inputs (by decide) hpos) rfl rfl rfl
    (m := 50) (h := 60) ?_ (by norm_num) (by norm_num) (by norm_num) (by norm_num) rfl
  rw [exSolver_spacing, exSolver_weight]; norm_num

example : ∃ v, |(exSolver .sag v).validate.2.catenaryQ.1.sag - v| ≤ 0.015 * (100 / 100) / 1 := by
  obtain ⟨v, _, h⟩ := exSag
  have := C108_sag (exSolver_reachable .sag v) rfl rfl h
  rw [exSolver_spacing, exSolver_weight] at this
  exact ⟨v, this⟩

/-- C109 fails for sags: on every level span, the sag of a catenary whose tension exceeds the least admissible tension
`m` by more than 0.01 but at most by 10 percent is an attainable target that is rejected. -/
theorem C109_rejected {s : CatenarySolver} (R : s.Reachable) (S : s.catenary.Span)
    (ht : s.typeTarget = .sag) (hp : s.positionTarget = -1) (hz : s.catenary.spacing.z = 0) {h : ℝ}
    (h0 : s.catenary.spacing.magnitude / 2 * s.catenary.weightUnit.magnitude + 0.01 < h)
    (h1 : h ≤ 1.1 * (s.catenary.spacing.magnitude / 2 * s.catenary.weightUnit.magnitude))
    (hv : s.valueTarget = (s.catenary.setTension h).sag) :
    s.validate.1 = false ∧ s.tensionHorizontal.1 = (if s.isUpdated then s.catenary.tensionHorizontal else -999999) := by
  have hR := solver_catenary R
  have hg : s.sagProbe = Catenary3d.sag := by
    funext k; unfold sagProbe; rw [if_pos hp]
  have A : Answers (Fam s.catenary) s.sagProbe s.catenary.levelSag s.leftStart := by
    rw [hg]; exact sag_answers S hz
  have F := fam_refl hR
  have hl0 := leftStart_pos S
  have hlh : s.leftStart ≤ h := by
    show s.catenary.spacing.magnitude / 2 * s.catenary.weightUnit.magnitude ≤ h
    linarith
  have hs' : s.solve = some s.solveSag := by unfold solve; rw [ht]
  have hv : s.valueTarget = s.catenary.levelSag h := by rw [hv]; exact sag_fam S F hz (S.ratio hlh).1
  have hf : s.solveSag.1 = false := by
    have p1 := probe_eq A F (le_refl s.leftStart)
    have p2 := probe_eq A (F.step s.leftStart).query (show s.leftStart ≤ s.leftStart * 1.10 by linarith)
    unfold solveSag
    simp only [p1, p2]
    split_ifs
    · rfl
    rw [hv]
    exact secantSolve_dec_fails A (sag_supported S) (fun x hx => (sag_slope S hx).1) h0
      (by
        have : s.leftStart = s.catenary.spacing.magnitude / 2 * s.catenary.weightUnit.magnitude := rfl
        rw [this]; linarith) _ ((F.step s.leftStart).query.step (s.leftStart * 1.10)).query
  have hu : s.update.1 = false := by
    unfold update
    rw [hs']
    match hm : s.solveSag with
    | (false, _) => rfl
    | (true, _) => rw [hm] at hf; cases hf
  constructor
  · unfold CatenarySolver.validate
    split_ifs
    · exact hu
    · rfl
  · unfold CatenarySolver.tensionHorizontal
    rw [hu]
    by_cases hb : s.isUpdated = true <;> simp [hb]

/-- C109 fails: the sag of the catenary with tension 52 on the level 100 ft span is rejected. -/
theorem C109_witness : ∃ s : CatenarySolver, s.Reachable ∧ s.InputsValid ∧ s.typeTarget = .sag ∧
    (∃ h, (s.catenary.setTension h).validate.1 = true ∧ (s.catenary.setTension h).sag = s.valueTarget) ∧
    s.validate.1 = false := by
  set v := ((exSolver .sag 1).catenary.setTension 52).sag with hv
  have hR := solver_catenary (exSolver_reachable .sag v)
  have hS1 : (exSolver .sag v).catenary.Span := by
    refine ⟨?_, rfl, rfl, le_refl _, ?_⟩
    · show (0:ℝ) < 100; norm_num
    · show (0:ℝ) < 1; norm_num
  have hval : (exSolver .sag v).valueTarget = ((exSolver .sag v).catenary.setTension 52).sag := rfl
  have hpos : 0 < v := by
    have F := (fam_refl hR).step 52
    have P := hS1.physical (x := 52) (by norm_num)
    rw [hv]
    show 0 < ((exSolver .sag v).catenary.setTension 52).sag
    exact C47_sag_pos F.1.inner.1 (P.inner_positive F.1)
  refine ⟨exSolver .sag v, exSolver_reachable _ _, exSolver_inputs (by decide) hpos, rfl, ⟨52, ?_, hval.symm⟩, ?_⟩
  · rw [admissible hR hS1 (by show |(0:ℝ)| < 2000; norm_num), exSolver_spacing, exSolver_weight]
    norm_num
  · refine (C109_rejected (exSolver_reachable _ _) hS1 rfl rfl rfl (h := 52) ?_ ?_ hval).1
    · rw [exSolver_spacing, exSolver_weight]; norm_num
    · rw [exSolver_spacing, exSolver_weight]; norm_num

/-- A 300 ft span that rises 400 ft, with 1 lb/ft and a target for the largest tension. -/
noncomputable def exIncline (v : ℝ) : CatenarySolver :=
  ((((CatenarySolver.new.setPositionTarget (-1)).setSpacing ⟨300, 0, 400⟩).setWeight ⟨0, 0, 1⟩).setTypeTarget .tension).setValueTarget v

theorem exIncline_reachable (v : ℝ) : (exIncline v).Reachable :=
  ⟨[.setPositionTarget (-1), .setSpacing ⟨300, 0, 400⟩, .setWeight ⟨0, 0, 1⟩, .setTypeTarget .tension, .setValueTarget v], rfl⟩

theorem exIncline_spacing (v : ℝ) : (exIncline v).catenary.spacing.magnitude = 500 := by
  show √((300:ℝ) ^ 2 + 0 ^ 2 + 400 ^ 2) = 500
  rw [show ((300:ℝ) ^ 2 + 0 ^ 2 + 400 ^ 2) = 500 ^ 2 by norm_num, Real.sqrt_sq (by norm_num)]

theorem exIncline_weight (v : ℝ) : (exIncline v).catenary.weightUnit.magnitude = 1 := by
  show √((0:ℝ) ^ 2 + 0 ^ 2 + 1 ^ 2) = 1
  rw [show ((0:ℝ) ^ 2 + 0 ^ 2 + 1 ^ 2) = 1 by norm_num, Real.sqrt_one]

theorem exIncline_inputs {v : ℝ} (hv : 0 < v) : (exIncline v).InputsValid := by
  refine ⟨Or.inl rfl, ?_, ?_, ?_, (by decide : TargetType.tension ≠ .null), not_le.2 hv, ?_, ?_, ?_⟩
  · show ¬ (300:ℝ) ≤ 0; norm_num
  · show ¬ (0:ℝ) ≠ 0; simp
  · show ¬ 2000 < |(400:ℝ)|; rw [abs_of_pos (by norm_num)]; norm_num
  · show ¬ (0:ℝ) ≠ 0; simp
  · show ¬ (0:ℝ) < 0; simp
  · show ¬ (1:ℝ) ≤ 0; norm_num

theorem exIncline_spacing2d (v : ℝ) : (exIncline v).catenary.spacing2d = ⟨300, 400⟩ := by
  unfold spacing2d
  simp only
  rw [exIncline_spacing, exIncline_weight]
  have e1 : (exIncline v).catenary.spacing.z = 400 := rfl
  have e2 : (exIncline v).catenary.weightUnit.z = 1 := rfl
  rw [e1, e2, show ((500:ℝ) ^ 2 - (400 * (|1| / 1)) ^ 2) = 300 ^ 2 by rw [abs_one]; norm_num,
    Real.sqrt_sq (by norm_num), abs_one]
  norm_num

theorem exIncline_least : ((exIncline 20000).catenary.setTension 250).tensionMax < 20000 := by
  have hR := solver_catenary (exIncline_reachable 20000)
  have S := inputs_span (exIncline_inputs (v := 20000) (by norm_num))
  rw [max_fam S (fam_refl hR) (by norm_num)]
  unfold tensionMean
  simp only
  rw [exIncline_weight, exIncline_spacing2d]
  have h5 : Real.cosh 1 < 3 := by
    rw [Real.cosh_eq]
    have e1 := Real.exp_one_lt_d9
    have e2 : Real.exp (-1) ≤ 1 := Real.exp_le_one_iff.2 (by norm_num)
    linarith
  have e : (300:ℝ) / 2 / (250 / 1) = 0.6 := by norm_num
  rw [e]
  have h4 : Real.cosh 0.6 ≤ Real.cosh 1 := by
    rw [Real.cosh_le_cosh, abs_of_pos one_pos, abs_of_pos (by norm_num)]; norm_num
  have h6 : (0.6:ℝ) ≤ Real.sinh 0.6 := Real.self_le_sinh_iff.2 (by norm_num)
  have h7 : Real.cosh 0.6 / Real.sinh 0.6 ≤ 5 := by
    rw [div_le_iff₀ (by linarith)]; linarith
  have h8 : 0 ≤ Real.cosh 0.6 / Real.sinh 0.6 := div_nonneg (Real.cosh_pos _).le (by linarith)
  have h9 := Real.cosh_pos 0.6
  have h10 : √((|(400:ℝ)| * (Real.cosh 0.6 / Real.sinh 0.6)) ^ 2 + (2 * (250 / 1 * Real.cosh 0.6)) ^ 2) ≤ 2500 := by
    rw [abs_of_pos (by norm_num)]
    apply Real.sqrt_le_iff.2
    refine ⟨by norm_num, ?_⟩
    have a1 : (400 * (Real.cosh 0.6 / Real.sinh 0.6)) ^ 2 ≤ 2000 ^ 2 := by
      apply pow_le_pow_left₀ <;> linarith
    have a2 : (2 * (250 / 1 * Real.cosh 0.6)) ^ 2 ≤ 1500 ^ 2 := by
      apply pow_le_pow_left₀ <;> linarith
    linarith
  rw [abs_of_pos (by norm_num : (0:ℝ) < 400)] at *
  show _ < (20000:ℝ)
  linarith

/-- A largest tension of 20000 is accepted on the inclined span. -/
theorem exIncline_accepted : (exIncline 20000).validate.1 = true := by
  refine C106_accepted (exIncline_reachable _) (exIncline_inputs (by norm_num)) rfl (Or.inl rfl) ?_ (m := 250) ?_ ?_ ?_ ?_
  · show |(400:ℝ)| < 2000; rw [abs_of_pos (by norm_num)]; norm_num
  · rw [exIncline_spacing, exIncline_weight]; norm_num
  · exact exIncline_least
  · show (20000:ℝ) ≤ 300000; norm_num
  · show (250:ℝ) + 0.01 < 20000; norm_num

/-- The theorem C105 applies to it. -/
example : |(exIncline 20000).validate.2.catenaryQ.1.tensionMax - 20000| ≤ 0.01 * (500 / 300) := by
  have := (C105_tension (exIncline_reachable 20000) rfl (Or.inl rfl) exIncline_accepted).2.2.1 rfl
  rwa [exIncline_spacing] at this

end Verif.Props
