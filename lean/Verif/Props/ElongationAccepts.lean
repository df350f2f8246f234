import Verif.Props.CableElongation

/-! # When a cable elongation model is accepted with warnings (C200) -/

set_option linter.unusedSectionVars false

namespace Verif.Props

open Verif Verif.Poly ElongationModel

namespace ElongationAccepts

/-- A component model on its own. -/
noncomputable def alone (c : CableComponent) (t : ℝ) (s : CableState) (ss : CableStretchState) : ComponentModel :=
  (((ComponentModel.new.setComponent (some c)).setReference (some t)).setState (some s)).setStretch (some ss)

theorem clean_flags {m : ComponentModel} (h1 : m.isUpdatedState = false) (h2 : m.isUpdatedStretch = false) : Verif.ComponentModel.Clean m := by
  refine ⟨fun h => ?_, fun h => ?_, fun h => ?_, fun _ _ _ _ _ _ _ _ h => ?_, fun _ _ _ _ _ _ h => ?_⟩
  · exact absurd (h1.symm.trans h) (by decide)
  · exact absurd (h2.symm.trans h) (by decide)
  · exact absurd (h1.symm.trans h) (by decide)
  · exact absurd (h2.symm.trans h) (by decide)
  · exact absurd (h1.symm.trans h) (by decide)

theorem alone_has (c : CableComponent) (t : ℝ) (s : CableState) (ss : CableStretchState) : Has c t s ss (alone c t s ss) :=
  fun _ => ⟨clean_flags rfl rfl, rfl, rfl, rfl, rfl⟩

/-- The flag of a component model depends on its inputs only. -/
theorem component_flag {c : CableComponent} {t : ℝ} {s : CableState} {ss : CableStretchState} {w : Bool}
    {m n m' : ComponentModel} {b : Bool} (hm : Has c t s ss m) (hn : Has c t s ss n) (he : c.Enabled)
    (e : m.validate w = .ok m' b) : ∃ n', n.validate w = .ok n' b := by
  obtain ⟨C, h1, h2, h3, h4⟩ := hm he
  obtain ⟨D, g1, g2, g3, g4⟩ := hn he
  unfold ComponentModel.validate at e ⊢
  rw [h1, h2, h3, h4] at e
  rw [g1, g2, g3, g4]
  simp only at e ⊢
  split_ifs at e ⊢
  · rcases C.update h1 h2 h3 h4 with ⟨l, th, r, x, a, a', -⟩ | ⟨x, a, a', -⟩ | ⟨x, a, a', -⟩ | ⟨a, a'⟩ <;>
      rcases D.update g1 g2 g3 g4 with ⟨l', th', r', y, d, d', -⟩ | ⟨y, d, d', -⟩ | ⟨y, d, d', -⟩ | ⟨d, d'⟩ <;>
      cases a.symm.trans d <;> rw [a'] at e <;> rw [d'] <;> cases e <;> exact ⟨_, rfl⟩
  · cases e; exact ⟨_, rfl⟩

open Classical in
theorem part_flag {c : CableComponent} {t : ℝ} {s : CableState} {ss : CableStretchState} {w : Bool}
    {m m' : ComponentModel} {b : Bool} (hm : Has c t s ss m)
    (e : (if c.Enabled then m.validate w else .ok m true : Outcome ComponentModel Bool) = .ok m' b) :
    b = true ↔ (c.Enabled → ∃ n', (alone c t s ss).validate w = .ok n' true) := by
  by_cases he : c.Enabled
  · rw [if_pos he] at e
    obtain ⟨n', hn⟩ := component_flag hm (alone_has c t s ss) he e
    constructor
    · rintro rfl _; exact ⟨n', hn⟩
    · intro h
      obtain ⟨n'', hn'⟩ := h he
      rw [hn] at hn'
      cases hn'; rfl
  · rw [if_neg he] at e
    cases e
    exact ⟨fun _ h => absurd h he, fun _ => rfl⟩

theorem strain_val {k : Cable} {n : ElongationModel} (G : Good k n) (hk : n.cable = some k) {o}
    (ho : knownOf k n.state n.stretch = .val o) {t : ElongationPart} {y x : ℝ}
    (hx : strainOf k n.state o y t = .val x) : ∃ n', n.strain t y = .ok n' x := by
  rcases G.strain hk t y with ⟨o', x', n', a, b, e, -⟩ | ⟨⟨o', a, b⟩, e⟩ | ⟨a, e⟩
  · cases ho.symm.trans a
    cases hx.symm.trans b
    exact ⟨n', e⟩
  · cases ho.symm.trans a
    cases hx.symm.trans b
  · cases ho.symm.trans a

/-- The check against the limits of the polynomials. -/
theorem limit_flag {k : Cable} {m m' : ElongationModel} {b : Bool} {l : ℝ × ℝ} (hT : m.state.type = .loadStrain)
    (h : HasBoth k m.state m.stretch l m) (e : m.validateStrainLimit k = .ok m' b) : ∃ o x,
    readOf k ⟨k.temperatureProperties, .loadStrain⟩ m.stretch l = .val o ∧
    strainOf k ⟨k.temperatureProperties, .loadStrain⟩ o k.strengthRated .combined = .val x ∧
    (b = true ↔
      (k.core.Enabled → x ≤ ansOf CableComponent.strain k.core ⟨k.temperatureProperties, .loadStrain⟩ o.1 k.core.limitLoadStrain) ∧
      (k.shell.Enabled → x ≤ ansOf CableComponent.strain k.shell ⟨k.temperatureProperties, .loadStrain⟩ o.2
        k.shell.limitLoadStrain)) ∧
    HasBoth k m.state m.stretch l m' ∧ m'.state = m.state ∧ m'.stretch = m.stretch := by
  unfold validateStrainLimit at e
  have S : Stretched k m.stretch l (⟨k.temperatureProperties, .loadStrain⟩ : CableState).type m := by
    have := h.stretched; rw [hT] at this; exact this
  rcases updateComponentsState_has S with ⟨o, m1, a, b1, c1, d1, r1⟩ | ⟨a, b1⟩
  · rw [b1] at e
    simp only at e
    obtain ⟨q1, q2, q3, -⟩ := updateComponentsState_ok b1
    have hb : m1.both CableComponent.load k = bothOf CableComponent.load k ⟨k.temperatureProperties, .loadStrain⟩ o := by
      funext x; exact d1.both _ x
    rw [hb, r1] at e
    cases hs : strainCombined (bothOf CableComponent.load k ⟨k.temperatureProperties, .loadStrain⟩ o)
      (pointsOf k ⟨k.temperatureProperties, .loadStrain⟩ o) k.strengthRated with
    | throws => rw [hs] at e; cases e
    | ub => rw [hs] at e; cases e
    | val x =>
      rw [hs, q2, hT] at e
      simp only [CableComponent.limit] at e
      have S1 : Stretched k m.stretch l m.state.type m1 := by rw [hT]; exact c1.stretched
      rcases updateComponentsState_has S1 with ⟨o2, m2, a2, b2, c2, d2, r2⟩ | ⟨a2, b2⟩
      · rw [b2] at e
        obtain ⟨p1, p2, p3, -⟩ := updateComponentsState_ok b2
        cases e
        refine ⟨o, x, a, hs, ?_, c2, p2.trans q2, p3.trans q3⟩
        rw [d1.1.1, d1.2.1]
        simp
      · rw [b2] at e; cases e
  · rw [b1] at e; cases e

/-- The check of the unloaded components. -/
theorem unloaded_flag {k : Cable} {m m' : ElongationModel} {b : Bool} {ss : CableStretchState} {l : ℝ × ℝ}
    (h : HasBoth k m.state ss l m) (e : m.validateStrainUnloaded k = .ok m' b) :
    (¬ k.core.Enabled → b = true) ∧ (k.core.Enabled → ∃ o,
      readOf k ⟨k.temperatureProperties, .loadStrain⟩ ⟨k.temperatureProperties, .loadStrain, 0⟩ (0, 0) = .val o ∧
      (b = true ↔ |ansOf CableComponent.strain k.core ⟨k.temperatureProperties, .loadStrain⟩ o.1 0 -
        ansOf CableComponent.strain k.shell ⟨k.temperatureProperties, .loadStrain⟩ o.2 0| ≤ 0.0001)) := by
  unfold validateStrainUnloaded at e
  by_cases he : k.core.Enabled
  · refine ⟨fun h => absurd he h, fun _ => ?_⟩
    rw [if_neg (not_not.2 he)] at e
    simp only at e
    have H : HasBoth k ⟨k.temperatureProperties, .loadStrain⟩ ⟨k.temperatureProperties, .loadStrain, 0⟩ (0, 0)
        { m with core := (m.core.setState (some ⟨k.temperatureProperties, .loadStrain⟩)).setStretch
                  (some ⟨k.temperatureProperties, .loadStrain, 0⟩)
                 shell := (m.shell.setState (some ⟨k.temperatureProperties, .loadStrain⟩)).setStretch
                  (some ⟨k.temperatureProperties, .loadStrain, 0⟩) } :=
      ⟨fun g => ⟨clean_flags rfl rfl, (h.1 g).2.1, (h.1 g).2.2.1, rfl, rfl⟩,
        fun g => ⟨clean_flags rfl rfl, (h.2 g).2.1, (h.2 g).2.2.1, rfl, rfl⟩⟩
    rcases touchBoth_has H with ⟨o, c, d, a, -, -, b1, -, f⟩ | ⟨a, b1⟩
    · rw [b1] at e
      simp only at e
      cases e
      refine ⟨o, a, ?_⟩
      rw [f.1.1, f.2.1]
      simp only [Bool.not_eq_true', decide_eq_false_iff_not, not_or, not_lt]
      constructor
      · exact fun g => g.2
      · intro g; exact ⟨g.trans (by norm_num), g⟩
    · rw [b1] at e; cases e
  · rw [if_pos he] at e
    cases e
    exact ⟨fun _ => rfl, fun g => absurd g he⟩

theorem good_history {before after : List ElongationModel.Call} {τ : PolynomialType}
    {c : ElongationModel.Call} {m0 m : ElongationModel} (hr : ResetsCable c)
    (h0 : run ElongationModel.new (before ++ [c]) = some m0) (h : run m0 after = some m)
    (ht : m0.state.type = τ ∨ ∃ s rest, after = .setState s :: rest)
    (hs : ∀ s, .setState s ∈ after → s.type = τ) (hv : .validate true ∉ after) : ∀ k, m.cable = some k → Good k m := by
  have A0 : ∀ k, m0.cable = some k → Att k m0 := run_att (fun k hk => (by cases hk)) h0
  have F0 : m0.isUpdatedStretch = false ∧ m0.isUpdatedState = false := by
    rw [cable_run_append] at h0
    cases hb : run ElongationModel.new before with
    | none => rw [hb] at h0; cases h0
    | some x =>
      rw [hb] at h0
      cases c with
      | setCable k => cases k <;> (cases h0; exact ⟨rfl, rfl⟩)
      | setStretch s => cases h0; exact ⟨rfl, rfl⟩
      | _ => exact hr.elim
  have G0 : ∀ k, m0.cable = some k → Good k m0 := fun k hk => good_flags_false (A0 k hk) F0.1 F0.2
  rcases ht with ht | ⟨s, rest, rfl⟩
  · exact good_run G0 ht hs hv h
  · exact good_run (m := m0.setState s) (cs := rest)
      (fun k hk => good_setState (G0 k hk) fun e => absurd (F0.1.symm.trans e) (by decide))
      (hs s List.mem_cons_self) (fun s e => hs s (List.mem_cons_of_mem _ e))
      (fun e => hv (List.mem_cons_of_mem _ e)) h

end ElongationAccepts

open ElongationAccepts

/-- **C200**: a model with an accepted cable, state and stretch state, whose states use the load-strain polynomials, is
accepted with warnings exactly when each component that takes part is accepted on its own with the load it was stretched by;
at the reference temperature each of them is strained at the limit of its polynomial at least as far as the whole cable at
its rated strength; and, if there is a core, the strains of the components without load and stretch differ by at most
0.0001. The strains are the answers of the same object for that state, respectively for that state without stretch. -/
theorem C200_accepts {before after : List ElongationModel.Call}
    {c : ElongationModel.Call} {m0 m m' : ElongationModel} {k : Cable} {b : Bool} (hr : ResetsCable c)
    (h0 : run ElongationModel.new (before ++ [c]) = some m0) (h : run m0 after = some m)
    (ht : m0.state.type = .loadStrain ∨ ∃ s rest, after = .setState s :: rest)
    (hs : ∀ s, .setState s ∈ after → s.type = .loadStrain) (hv : .validate true ∉ after)
    (hk : m.cable = some k) (hT : m.state.type = .loadStrain)
    (V : k.validateSagTension.1 = true ∧ m.state.validate.1 = true ∧ m.stretch.validate.1 = true)
    (he : k.core.Enabled ∨ k.shell.Enabled) (e : m.validate true = .ok m' b) : ∃ lc ls x y z n1 n2 n3,
    (m.setState ⟨k.temperatureProperties, .loadStrain⟩).strain .combined k.strengthRated = .ok n1 x ∧
    (m.setState ⟨k.temperatureProperties, .loadStrain⟩).strain .core k.core.limitLoadStrain = .ok n2 y ∧
    (m.setState ⟨k.temperatureProperties, .loadStrain⟩).strain .shell k.shell.limitLoadStrain = .ok n3 z ∧
    (b = true ↔
      (k.core.Enabled → ∃ n, (alone k.core k.temperatureProperties m.state { m.stretch with load := lc }).validate true =
        .ok n true) ∧
      (k.shell.Enabled → ∃ n, (alone k.shell k.temperatureProperties m.state { m.stretch with load := ls }).validate true =
        .ok n true) ∧
      (k.core.Enabled → x ≤ y) ∧ (k.shell.Enabled → x ≤ z) ∧
      (k.core.Enabled → ∃ p q n4 n5,
        ((m.setState ⟨k.temperatureProperties, .loadStrain⟩).setStretch ⟨k.temperatureProperties, .loadStrain, 0⟩).strain
          .core 0 = .ok n4 p ∧
        ((m.setState ⟨k.temperatureProperties, .loadStrain⟩).setStretch ⟨k.temperatureProperties, .loadStrain, 0⟩).strain
          .shell 0 = .ok n5 q ∧ |p - q| ≤ 0.0001)) := by
  have G := good_history hr h0 h ht hs hv k hk
  have Gn : Good k (m.setState ⟨k.temperatureProperties, .loadStrain⟩) := good_setState G fun _ => hT.symm
  have Gz : Good k ((m.setState ⟨k.temperatureProperties, .loadStrain⟩).setStretch
      ⟨k.temperatureProperties, .loadStrain, 0⟩) := good_flags_false Gn.att rfl rfl
  unfold ElongationModel.validate at e
  rw [hk] at e
  simp only at e
  rw [if_pos V] at e
  unfold updated at e
  rcases G.update hk with ⟨l, o, m1, a1, b1, u1, G1, e1, e2, e3, f1, f2, g, r⟩ | ⟨a, b⟩
  · rw [u1] at e
    simp only [e1] at e
    unfold validateComponents at e
    rw [if_neg (not_not.2 he)] at e
    revert e
    split
    case h_2 => intro e; cases e
    case h_3 => intro e; cases e
    rename_i cc v1 h1
    have p1 := validate_part_has g.1 (m' := cc) (by rw [h1]; rfl)
    have w1 := part_flag g.1 h1
    simp only
    split
    case h_2 => intro e; cases e
    case h_3 => intro e; cases e
    rename_i dd v2 h2
    have p2 := validate_part_has g.2 (m' := dd) (by rw [h2]; rfl)
    have w2 := part_flag g.2 h2
    rw [if_neg (by decide)]
    intro e
    have H2 : HasBoth k m.state m.stretch l { m1 with core := cc, shell := dd } := ⟨p1, p2⟩
    cases h3 : validateStrainLimit k { m1 with core := cc, shell := dd } with
    | throws x => rw [h3] at e; cases e
    | ub => rw [h3] at e; cases e
    | ok m3 v3 =>
      rw [h3] at e
      simp only at e
      obtain ⟨o3, x, r3, s3, w3, H3, t1, t2⟩ := limit_flag (l := l) (by show m1.state.type = _; rw [e2]; exact hT)
        (by show HasBoth k m1.state m1.stretch l _; rw [e2, e3]; exact H2) h3
      have r3' : readOf k ⟨k.temperatureProperties, .loadStrain⟩ m.stretch l = .val o3 := by
        rw [← r3]; exact congrArg (fun ss => readOf k _ ss l) e3.symm
      have kn : knownOf k ⟨k.temperatureProperties, .loadStrain⟩ m.stretch = .val o3 := by
        unfold knownOf; rw [a1]; exact r3'
      cases h4 : validateStrainUnloaded k m3 with
      | throws x => rw [h4] at e; cases e
      | ub => rw [h4] at e; cases e
      | ok m4 v4 =>
        rw [h4] at e
        cases e
        obtain ⟨w4, w5⟩ := unloaded_flag (ss := m1.stretch) (l := l) (by rw [t1]; exact H3) h4
        obtain ⟨n1, hn1⟩ := strain_val Gn hk kn (t := .combined) s3
        obtain ⟨n2, hn2⟩ := strain_val Gn hk kn (t := .core) (y := k.core.limitLoadStrain) rfl
        obtain ⟨n3, hn3⟩ := strain_val Gn hk kn (t := .shell) (y := k.shell.limitLoadStrain) rfl
        refine ⟨l.1, l.2, x, _, _, n1, n2, n3, hn1, hn2, hn3, ?_⟩
        have w4' : v4 = true ↔ (k.core.Enabled → ∃ p q n4 n5,
            ((m.setState ⟨k.temperatureProperties, .loadStrain⟩).setStretch ⟨k.temperatureProperties, .loadStrain, 0⟩).strain
              .core 0 = .ok n4 p ∧
            ((m.setState ⟨k.temperatureProperties, .loadStrain⟩).setStretch ⟨k.temperatureProperties, .loadStrain, 0⟩).strain
              .shell 0 = .ok n5 q ∧ |p - q| ≤ 0.0001) := by
          by_cases hc : k.core.Enabled
          · obtain ⟨o5, r5, w6⟩ := w5 hc
            have kn5 : knownOf k ⟨k.temperatureProperties, .loadStrain⟩ ⟨k.temperatureProperties, .loadStrain, 0⟩ = .val o5 := by
              unfold knownOf loadsOf
              rw [if_pos rfl]
              exact r5
            obtain ⟨n4, hn4⟩ := strain_val Gz hk kn5 (t := .core) (y := 0) rfl
            obtain ⟨n5, hn5⟩ := strain_val Gz hk kn5 (t := .shell) (y := 0) rfl
            rw [w6]
            constructor
            · exact fun g _ => ⟨_, _, n4, n5, hn4, hn5, g⟩
            · intro g
              obtain ⟨p, q, n6, n7, g1, g2, g3⟩ := g hc
              rw [hn4] at g1
              rw [hn5] at g2
              cases g1
              cases g2
              exact g3
          · exact ⟨fun _ g => absurd g hc, fun _ => w4 hc⟩
        rw [Bool.and_eq_true, Bool.and_eq_true, Bool.and_eq_true, w1, w2, w3, w4']
        exact ⟨fun ⟨⟨⟨a, b⟩, ⟨c, d⟩⟩, f⟩ => ⟨a, b, c, d, f⟩, fun ⟨a, b, c, d, f⟩ => ⟨⟨⟨a, b⟩, ⟨c, d⟩⟩, f⟩⟩
  · rw [b] at e; cases e

/-- The hypotheses are met by a cable of two linear components that was stretched by a load of 10, and the model is
validated without failing. -/
example : ∃ m' b, (exCableModel 10).validate true = .ok m' b ∧
    run ElongationModel.new ([.setCable (some exCable)] ++ [.setStretch ⟨0, .loadStrain, 10⟩]) =
      some ((ElongationModel.new.setCable (some exCable)).setStretch ⟨0, .loadStrain, 10⟩) ∧
    run ((ElongationModel.new.setCable (some exCable)).setStretch ⟨0, .loadStrain, 10⟩) [.setState ⟨0, .loadStrain⟩] =
      some (exCableModel 10) ∧ ResetsCable (.setStretch ⟨0, .loadStrain, 10⟩) ∧ (exCableModel 10).cable = some exCable ∧
    (exCableModel 10).state.type = .loadStrain ∧
    (exCable.validateSagTension.1 = true ∧ (exCableModel 10).state.validate.1 = true ∧
      (exCableModel 10).stretch.validate.1 = true) ∧ exCable.core.Enabled := by
  rcases (exLives 10).validate rfl true with ⟨m', b, h, -⟩ | ⟨-, h⟩
  · exact ⟨m', b, h, rfl, rfl, trivial, rfl, rfl, exValid, exEnabled⟩
  · exact absurd ⟨Or.inl exEnabled, (by intro e; cases e), Or.inr (by intro e; cases e)⟩ h

/-- **C200** (inputs): no model with a cable, a state or a stretch state that is not accepted, or without a component that
takes part, is accepted, with or without warnings. -/
theorem C200_inputs {m m' : ElongationModel} {w : Bool} (e : m.validate w = .ok m' true) : ∃ k, m.cable = some k ∧
    k.validateSagTension.1 = true ∧ m.state.validate.1 = true ∧ m.stretch.validate.1 = true ∧
    (k.core.Enabled ∨ k.shell.Enabled) := by
  unfold ElongationModel.validate at e
  cases hk : m.cable with
  | none => rw [hk] at e; cases e
  | some k =>
    rw [hk] at e
    simp only at e
    split_ifs at e with V
    case neg => cases e
    refine ⟨k, rfl, V.1, V.2.1, V.2.2, ?_⟩
    obtain ⟨m1, k', hu, hk1, hk', f1, f2, hf⟩ := updated_ok e
    have : k' = k := by rw [hk] at hk'; cases hk'; rfl
    subst this
    by_contra hn
    unfold validateComponents at hf
    rw [if_pos hn] at hf
    cases hf

end Verif.Props
