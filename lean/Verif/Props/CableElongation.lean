import Verif.CableElongationTotal
import Verif.Props.ComponentElongation

/-! # Properties of the cable elongation model -/

set_option linter.unusedSectionVars false

namespace Verif.Props

open Verif Verif.Poly ElongationModel

/-! ## C62 -/

theorem askPart_sum {body : CableComponent → PolynomialType → Regions → ℝ → ℝ → ℝ} {m m' : ElongationModel}
    {x a : ℝ} (h : m.askPart body .combined x = .ok m' a) :
    ∃ k b c, m.cable = some k ∧ m'.askPart body .core x = .ok m' b ∧ m'.askPart body .shell x = .ok m' c ∧
      a = b + c ∧ (¬ k.core.Enabled → b = 0) ∧ (¬ k.shell.Enabled → c = 0) := by
  unfold askPart at h
  obtain ⟨m1, k, hu, hk1, hk, f1, f2, hf⟩ := updated_ok h
  simp only at hf
  obtain ⟨ht, rfl⟩ := readBoth_ok hf
  have hi := touchBoth_idem ht
  obtain ⟨c, s, h1, h2, rfl⟩ := touchBoth_ok ht
  refine ⟨k, part body k.core c x, part body k.shell s x, hk, ?_, ?_, rfl, ?_, ?_⟩
  · unfold askPart
    rw [updated_flags (k := k) (by exact f1) (by exact f2) (by exact hk1)]
    simp only
    unfold readCore
    rw [touch_idem h1]
  · unfold askPart
    rw [updated_flags (k := k) (by exact f1) (by exact f2) (by exact hk1)]
    simp only
    unfold readShell
    rw [touch_idem h2]
  · intro he; unfold part; rw [if_neg he]
  · intro he; unfold part; rw [if_neg he]

/-- **C62**. When the combined load at a strain is answered, so are the loads of core and shell, and it is their
sum; a component that is not enabled carries nothing. -/
theorem C62_load_sum {m m' : ElongationModel} {x a : ℝ} (h : m.load .combined x = .ok m' a) :
    ∃ k b c, m.cable = some k ∧ m'.load .core x = .ok m' b ∧ m'.load .shell x = .ok m' c ∧ a = b + c ∧
      (¬ k.core.Enabled → b = 0) ∧ (¬ k.shell.Enabled → c = 0) :=
  askPart_sum h

/-- **C62**. The same for the slope. -/
theorem C62_slope_sum {m m' : ElongationModel} {x a : ℝ} (h : m.slope .combined x = .ok m' a) :
    ∃ k b c, m.cable = some k ∧ m'.slope .core x = .ok m' b ∧ m'.slope .shell x = .ok m' c ∧ a = b + c ∧
      (¬ k.core.Enabled → b = 0) ∧ (¬ k.shell.Enabled → c = 0) :=
  askPart_sum h

/-! ## C89 -/

/-- **C89**. A strain reported for a load of the whole cable reproduces that load to within 0.01, unless the search
has failed (-999999), or the load is not above the smallest load considered; then all smaller loads are given the
same strain. -/
theorem C89_strain_accurate {m m' : ElongationModel} {l x : ℝ} (h : m.strain .combined l = .ok m' x)
    (hx : x ≠ -999999) :
    (∃ y, m'.load .combined x = .ok m' y ∧ |y - l| ≤ 0.01) ∨ ∀ l' ≤ l, m'.strain .combined l' = .ok m' x := by
  unfold ElongationModel.strain at h
  obtain ⟨m1, k, hu, hk1, hk, f1, f2, hf⟩ := updated_ok h
  simp only at hf
  have low : ∀ (p : V2) (n : ElongationModel), n.isUpdatedStretch = true → n.isUpdatedState = true →
      n.cable = some k → n.regions.head? = some p → ∀ l' ≤ p.y, n.strain .combined l' = .ok n p.x := by
    intro p n e1 e2 e3 e4 l' hl
    unfold ElongationModel.strain
    rw [updated_flags e1 e2 e3]
    simp only
    unfold askStrain
    rw [e4]
    simp only
    rw [if_pos hl]
  unfold askStrain at hf
  cases hh : m1.regions.head? with
  | none => rw [hh] at hf; cases hf
  | some p =>
    rw [hh] at hf
    simp only at hf
    split_ifs at hf with hl
    · cases hf
      right
      intro l' hl'
      exact low p m' f1 f2 hk1 hh l' (hl'.trans hl)
    · cases ht : m1.touchBoth k with
      | ok m2 u =>
        rw [ht] at hf
        simp only at hf
        have hi := touchBoth_idem ht
        have g : m2.isUpdatedStretch = true ∧ m2.isUpdatedState = true ∧ m2.cable = some k := by
          obtain ⟨c, s, h1, h2, rfl⟩ := touchBoth_ok ht
          exact ⟨f1, f2, hk1⟩
        cases hs : strainCombined (m2.both CableComponent.load k) m2.regions l with
        | val z =>
          rw [hs] at hf
          cases hf
          rcases strainCombined_accurate hs hx with e | ⟨p', e1, e2, rfl⟩
          · left
            refine ⟨_, ?_, e⟩
            unfold ElongationModel.load askPart
            rw [updated_flags g.1 g.2.1 g.2.2]
            simp only
            unfold readBoth
            rw [hi]
          · right
            intro l' hl'
            exact low p' m' g.1 g.2.1 g.2.2 e1 l' (hl'.trans e2)
        | throws => rw [hs] at hf; cases hf
        | ub => rw [hs] at hf; cases hf
      | throws m2 => rw [ht] at hf; cases hf
      | ub => rw [ht] at hf; cases hf

/-- **C89**. When the state has been set since the last question, the strain reported for a load that is not above
the smallest load considered has at least that load. -/
theorem C89_strain_first {m m' : ElongationModel} {s : CableState} {l x : ℝ}
    (h : (m.setState s).strain .combined l = .ok m' x) (hx : x ≠ -999999) :
    ∃ y, m'.load .combined x = .ok m' y ∧ (|y - l| ≤ 0.01 ∨ l ≤ y) := by
  have h0 := h
  unfold ElongationModel.strain at h
  obtain ⟨m1, k, hu, hk1, hk, f1, f2, hf⟩ := updated_ok h
  simp only at hf
  have hr := (update_regions rfl hk hu).1
  obtain ⟨-, -, -, -, -, ho⟩ := update_ok hu
  have ht : m1.touchBoth k = .ok m1 () := by
    rcases ho with e | ⟨k', e, e'⟩
    · rw [e] at f2; cases f2
    · cases hk.symm.trans e; exact e'
  have ans : m1.load .combined x = .ok m1 (m1.both CableComponent.load k x) := by
    unfold ElongationModel.load askPart
    rw [updated_flags f1 f2 hk1]
    simp only
    unfold readBoth
    rw [ht]
  unfold askStrain at hf
  cases hh : m1.regions.head? with
  | none => rw [hh] at hf; cases hf
  | some p =>
    rw [hh] at hf
    simp only at hf
    have hp : p.y = m1.both CableComponent.load k p.x := hr p (List.mem_of_mem_head? hh)
    split_ifs at hf with hl
    · cases hf
      exact ⟨_, ans, Or.inr (hp ▸ hl)⟩
    · rw [ht] at hf
      simp only at hf
      cases hs : strainCombined (m1.both CableComponent.load k) m1.regions l with
      | val z =>
        rw [hs] at hf
        cases hf
        refine ⟨_, ans, ?_⟩
        rcases strainCombined_accurate hs hx with e | ⟨p', e1, e2, rfl⟩
        · exact Or.inl e
        · cases hh.symm.trans e1; exact Or.inr (hp ▸ e2)
      | throws => rw [hs] at hf; cases hf
      | ub => rw [hs] at hf; cases hf

/-- **C89**. When the state has been set since the last question and the cable has an enabled component, an
elongation model that can report a combined load reports a combined strain for every load: the search for the
surrounding points never leaves them. -/
theorem C89_strain_in_bounds {m m' : ElongationModel} {s : CableState} {k : Cable} {x a : ℝ}
    (hk : m.cable = some k) (he : k.core.Enabled ∨ k.shell.Enabled)
    (h : (m.setState s).load .combined x = .ok m' a) (l : ℝ) :
    ∃ y, m'.strain .combined l = .ok m' y := by
  unfold ElongationModel.load askPart at h
  obtain ⟨m1, k', hu, hk1, hk', f1, f2, hf⟩ := updated_ok h
  cases hk.symm.trans hk'
  simp only at hf
  obtain ⟨ht, rfl⟩ := readBoth_ok hf
  have hr := (update_regions rfl hk' hu).2.1 he
  have hi := touchBoth_idem ht
  have g : m'.isUpdatedStretch = true ∧ m'.isUpdatedState = true ∧ m'.cable = some k ∧ m'.regions ≠ [] := by
    obtain ⟨c, s, h1, h2, rfl⟩ := touchBoth_ok ht
    exact ⟨f1, f2, hk1, hr⟩
  unfold ElongationModel.strain
  rw [updated_flags g.1 g.2.1 g.2.2.1]
  simp only
  unfold askStrain
  obtain ⟨p, rest, hp⟩ := List.exists_cons_of_ne_nil g.2.2.2
  obtain ⟨z, hz⟩ := strainCombined_val (m'.both CableComponent.load k) g.2.2.2 l
  rw [hi]
  simp only
  rw [hz]
  rw [hp]
  simp only [List.head?_cons]
  split_ifs
  · exact ⟨_, rfl⟩
  · exact ⟨_, rfl⟩

/-- Without an enabled component, which the setters do not exclude, the combined strain is undefined. -/
theorem C89_nothing_enabled {m m' : ElongationModel} {s : CableState} {k : Cable} {x a : ℝ}
    (hk : m.cable = some k) (he : ¬ k.core.Enabled ∧ ¬ k.shell.Enabled)
    (h : (m.setState s).load .combined x = .ok m' a) (l : ℝ) : m'.strain .combined l = .ub := by
  unfold ElongationModel.load askPart at h
  obtain ⟨m1, k', hu, hk1, hk', f1, f2, hf⟩ := updated_ok h
  cases hk.symm.trans hk'
  simp only at hf
  obtain ⟨ht, rfl⟩ := readBoth_ok hf
  have hr := (update_regions rfl hk' hu).2.2 he
  have g : m'.isUpdatedStretch = true ∧ m'.isUpdatedState = true ∧ m'.cable = some k ∧ m'.regions = [] := by
    obtain ⟨c, s, h1, h2, rfl⟩ := touchBoth_ok ht
    exact ⟨f1, f2, hk1, hr⟩
  unfold ElongationModel.strain
  rw [updated_flags g.1 g.2.1 g.2.2.1]
  simp only
  unfold askStrain
  rw [g.2.2.2]
  rfl

/-! ## C64 for the whole cable -/

/-- The questions to a cable elongation model. -/
inductive CableQuery where
  | load (t : ElongationPart) (x : ℝ)
  | slope (t : ElongationPart) (x : ℝ)
  | strain (t : ElongationPart) (l : ℝ)

/-- The answer. -/
noncomputable def CableQuery.ask (m : ElongationModel) : CableQuery → Res ℝ
  | .load t x => valueOf id (m.load t x)
  | .slope t x => valueOf id (m.slope t x)
  | .strain t l => valueOf id (m.strain t l)

/-- The calls that make the stretch of the components be determined anew. -/
def ResetsCable : ElongationModel.Call → Prop
  | .setCable _ => True
  | .setStretch _ => True
  | _ => False

/-- A new object with the cable, stretch state and state of `m`. -/
noncomputable def freshCable (m : ElongationModel) : ElongationModel :=
  ((ElongationModel.new.setCable m.cable).setStretch m.stretch).setState m.state

theorem good_flags_false {k : Cable} {m : ElongationModel} (A : Att k m) (h1 : m.isUpdatedStretch = false)
    (h2 : m.isUpdatedState = false) : Good k m :=
  ⟨A, fun h => absurd (h2.symm.trans h) (by decide), fun h => absurd (h1.symm.trans h) (by decide),
    fun h => absurd (h2.symm.trans h) (by decide)⟩

theorem freshCable_good (m : ElongationModel) : ∀ k, (freshCable m).cable = some k → Good k (freshCable m) := by
  intro k hk
  refine good_flags_false ?_ rfl rfl
  have hc : m.cable = some k := hk
  have := attach_att k ElongationModel.new k rfl
  unfold freshCable
  rw [hc]
  exact this

theorem good_setState {k : Cable} {m : ElongationModel} (G : Good k m) {s : CableState}
    (h : m.isUpdatedStretch = true → s.type = m.state.type) : Good k (m.setState s) := by
  refine ⟨G.att, fun e => (by cases e), fun e => ?_, fun e => (by cases e)⟩
  obtain ⟨l, a, b⟩ := G.stretched e
  refine ⟨l, a, ?_⟩
  show Stretched k m.stretch l s.type _
  rw [h e]
  exact b

theorem validate_has {c : CableComponent} {t : ℝ} {s : CableState} {ss : CableStretchState} {w : Bool}
    {m m' : ComponentModel} (he : c.Enabled) (h : Has c t s ss m) (e : (m.validate w).state? = some m') :
    Has c t s ss m' := by
  intro _
  obtain ⟨C, h1, h2, h3, h4⟩ := h he
  obtain ⟨C', P, -⟩ := validate_clean C e
  exact ⟨C', P.1.trans h1, P.2.2.2.trans h2, P.2.1.trans h3, P.2.2.1.trans h4⟩

open Classical in
theorem validate_part_has {c : CableComponent} {t : ℝ} {s : CableState} {ss : CableStretchState} {w : Bool}
    {m m' : ComponentModel} (h : Has c t s ss m)
    (e : ((if c.Enabled then m.validate w else .ok m true : Outcome ComponentModel Bool)).state? = some m') :
    Has c t s ss m' := by
  split_ifs at e with he
  · exact validate_has he h e
  · cases e; exact h

theorem good_validate {k : Cable} {m m' : ElongationModel} (G : Good k m) (hk : m.cable = some k)
    (h : (m.validate false).state? = some m') : Good k m' ∧ SameSettings m m' := by
  unfold ElongationModel.validate at h
  rw [hk] at h
  simp only at h
  split_ifs at h
  · unfold updated at h
    rcases G.update hk with ⟨l, o, m1, a, b, c, G1, e1, e2, e3, f1, f2, g, r⟩ | ⟨a, b⟩
    · rw [c] at h
      simp only [e1] at h
      have R := good_read (m := m1) (k := k) (l := l) (o := o) (by rw [e3]; exact a) (by rw [e2, e3]; exact b) f1
        (by rw [e2]; exact r)
      rw [e2, e3] at R
      have S : ∀ c d, SameSettings m { m1 with core := c, shell := d } := fun c d => ⟨e1.trans hk.symm, e2, e3⟩
      unfold validateComponents at h
      by_cases h0 : k.core.Enabled ∨ k.shell.Enabled
      · rw [if_neg (not_not.2 h0)] at h
        revert h
        split
        · rename_i c v1 h1
          have p1 := validate_part_has g.1 (m' := c) (by rw [h1]; rfl)
          simp only
          split
          · rename_i d v2 h2
            have p2 := validate_part_has g.2 (m' := d) (by rw [h2]; rfl)
            intro h
            cases h
            exact ⟨R { m1 with core := c, shell := d } ⟨p1, p2⟩ e2 e3 rfl rfl, S c d⟩
          · rename_i d h2
            have p2 := validate_part_has g.2 (m' := d) (by rw [h2]; rfl)
            intro h
            cases h
            exact ⟨R { m1 with core := c, shell := d } ⟨p1, p2⟩ e2 e3 rfl rfl, S c d⟩
          · intro h; cases h
        · rename_i c h1
          have p1 := validate_part_has g.1 (m' := c) (by rw [h1]; rfl)
          intro h
          cases h
          exact ⟨R { m1 with core := c } ⟨p1, g.2⟩ e2 e3 rfl rfl, S c m1.shell⟩
        · intro h; cases h
      · rw [if_pos h0] at h
        cases h
        exact ⟨G1, S m'.core m'.shell⟩
    · rw [b] at h; cases h
  · cases h
    exact ⟨G, rfl, rfl, rfl⟩

theorem good_next {τ : PolynomialType} {c : ElongationModel.Call} {m m' : ElongationModel}
    (G : ∀ k, m.cable = some k → Good k m) (A : ∀ k, m.cable = some k → Att k m)
    (T : m.isUpdatedStretch = true → m.state.type = τ) (hs : ∀ s, c = .setState s → s.type = τ)
    (hc : c = .setState m'.state ∨ m.state.type = τ)
    (hv : c ≠ .validate true) (h : c.next m = some m') :
    (∀ k, m'.cable = some k → Good k m') ∧ m'.state.type = τ := by
  have q : (∀ k, m.cable = some k → Good k m' ∧ SameSettings m m') → (m.cable = none → m'.cable = none ∧ m'.state = m.state) →
      m.state.type = τ → (∀ k, m'.cable = some k → Good k m') ∧ m'.state.type = τ := by
    intro h1 h2 h3
    cases hm : m.cable with
    | none => exact ⟨fun k hk => absurd ((h2 hm).1.symm.trans hk) (by simp), by rw [(h2 hm).2]; exact h3⟩
    | some k =>
      obtain ⟨g, s1, s2, s3⟩ := h1 k hm
      refine ⟨fun k' hk' => ?_, by rw [s2]; exact h3⟩
      cases (s1.trans hm).symm.trans hk'
      exact g
  have noneUpd : ∀ {B : Type} (f : Cable → ElongationModel → Outcome ElongationModel B), m.cable = none →
      m.updated f = .ub := by
    intro B f hm
    unfold updated ElongationModel.update
    by_cases hb : m.isUpdatedStretch = true ∧ m.isUpdatedState = true
    · rw [if_pos hb]
      simp only
      rw [hm]
    · rw [if_neg hb, hm]
  have ty : (∀ s, c ≠ .setState s) → m.state.type = τ := fun hne => hc.resolve_left (hne _)
  cases c with
  | setCable k =>
    cases h
    have hty := ty fun s => (by rintro ⟨⟩)
    cases k with
    | none => exact ⟨fun k hk => (by cases hk), hty⟩
    | some k => exact ⟨fun k' hk => good_flags_false (attach_att k m k' hk) rfl rfl, hty⟩
  | setState s =>
    cases h
    exact ⟨fun k hk => good_setState (G k hk) fun e => (hs s rfl).trans (T e).symm, hs s rfl⟩
  | setStretch s =>
    cases h
    exact ⟨fun k hk => good_flags_false (A k hk) rfl rfl, ty fun s => (by rintro ⟨⟩)⟩
  | load t x =>
    refine q (fun k hk => ?_) (fun hn => ?_) (ty fun s => (by rintro ⟨⟩))
    · rcases (G k hk).ask hk CableComponent.load t x with ⟨o, m1, a, b, g, s⟩ | ⟨a, b⟩
      · have : (m.askPart CableComponent.load t x).state? = some m' := h
        rw [b] at this; cases this; exact ⟨g, s⟩
      · have : (m.askPart CableComponent.load t x).state? = some m' := h
        rw [b] at this; cases this
    · have : (m.askPart CableComponent.load t x).state? = some m' := h
      unfold askPart at this; rw [noneUpd _ hn] at this; cases this
  | slope t x =>
    refine q (fun k hk => ?_) (fun hn => ?_) (ty fun s => (by rintro ⟨⟩))
    · rcases (G k hk).ask hk CableComponent.slope t x with ⟨o, m1, a, b, g, s⟩ | ⟨a, b⟩
      · have : (m.askPart CableComponent.slope t x).state? = some m' := h
        rw [b] at this; cases this; exact ⟨g, s⟩
      · have : (m.askPart CableComponent.slope t x).state? = some m' := h
        rw [b] at this; cases this
    · have : (m.askPart CableComponent.slope t x).state? = some m' := h
      unfold askPart at this; rw [noneUpd _ hn] at this; cases this
  | strain t l =>
    have h' : (m.strain t l).state? = some m' := h
    refine q (fun k hk => ?_) (fun hn => ?_) (ty fun s => (by rintro ⟨⟩))
    · rcases (G k hk).strain hk t l with ⟨o, x, m1, a, b, b', g, s⟩ | ⟨a, b⟩ | ⟨a, b⟩
      · rw [b'] at h'; cases h'; exact ⟨g, s⟩
      · rw [b] at h'; cases h'
      · rw [b] at h'; cases h'
    · unfold ElongationModel.strain at h'; rw [noneUpd _ hn] at h'; cases h'
  | validate w =>
    cases w with
    | true => exact absurd rfl hv
    | false =>
      refine q (fun k hk => good_validate (G k hk) hk h) (fun hn => ?_) (ty fun s => (by rintro ⟨⟩))
      have h' : (m.validate false).state? = some m' := h
      unfold ElongationModel.validate at h'
      rw [hn] at h'
      cases h'
      exact ⟨hn, rfl⟩

theorem good_run {τ : PolynomialType} {cs : List ElongationModel.Call} : ∀ {m m' : ElongationModel},
    (∀ k, m.cable = some k → Good k m) → m.state.type = τ → (∀ s, .setState s ∈ cs → s.type = τ) →
    .validate true ∉ cs → run m cs = some m' → (∀ k, m'.cable = some k → Good k m') := by
  induction cs with
  | nil => intro m m' G _ _ _ h; cases h; exact G
  | cons c cs ih =>
    intro m m' G T hs hv h
    unfold run at h
    cases hn : c.next m with
    | none => rw [hn] at h; cases h
    | some m1 =>
      rw [hn] at h
      obtain ⟨G1, T1⟩ := good_next G (fun k hk => (G k hk).att) (fun _ => T)
        (fun s e => hs s (e ▸ List.mem_cons_self)) (Or.inr T) (fun e => hv (e ▸ List.mem_cons_self)) hn
      exact ih G1 T1 (fun s e => hs s (List.mem_cons_of_mem _ e)) (fun e => hv (List.mem_cons_of_mem _ e)) h

theorem cable_run_append {m : ElongationModel} {a b : List ElongationModel.Call} :
    run m (a ++ b) = (run m a).bind fun m' => run m' b := by
  induction a generalizing m with
  | nil => rfl
  | cons c cs ih =>
    show (c.next m).bind (fun x => run x (cs ++ b)) = ((c.next m).bind fun x => run x cs).bind _
    cases c.next m with
    | none => rfl
    | some x => exact ih

theorem good_ask {m m1 : ElongationModel} (G : ∀ k, m.cable = some k → Good k m)
    (G1 : ∀ k, m1.cable = some k → Good k m1) (S : SameSettings m m1) (q : CableQuery) : q.ask m = q.ask m1 := by
  have noneUpd : ∀ {B : Type} (n : ElongationModel) (f : Cable → ElongationModel → Outcome ElongationModel B),
      n.cable = none → n.updated f = .ub := by
    intro B n f hm
    unfold updated ElongationModel.update
    by_cases hb : n.isUpdatedStretch = true ∧ n.isUpdatedState = true
    · rw [if_pos hb]
      simp only
      rw [hm]
    · rw [if_neg hb, hm]
  cases hk : m.cable with
  | none =>
    have hk1 := S.1.trans hk
    cases q <;> simp only [CableQuery.ask, ElongationModel.load, ElongationModel.slope, askPart,
      ElongationModel.strain, noneUpd m _ hk, noneUpd m1 _ hk1]
  | some k =>
    have hk1 := S.1.trans hk
    have key : ∀ body t x, valueOf id (m.askPart body t x) = valueOf id (m1.askPart body t x) := by
      intro body t x
      have b := (G1 k hk1).ask hk1 body t x
      rw [S.2.1, S.2.2] at b
      rcases (G k hk).ask hk body t x with ⟨o, m', a1, a2, -⟩ | ⟨a1, a2⟩ <;>
        rcases b with ⟨o', m'', b1, b2, -⟩ | ⟨b1, b2⟩ <;> cases a1.symm.trans b1 <;> rw [a2, b2]
      rfl
    cases q with
    | load t x => exact key _ t x
    | slope t x => exact key _ t x
    | strain t l =>
      show valueOf id (m.strain t l) = valueOf id (m1.strain t l)
      have b := (G1 k hk1).strain hk1 t l
      rw [S.2.1, S.2.2] at b
      rcases (G k hk).strain hk t l with ⟨o, x, m', a1, a2, a3, -⟩ | ⟨⟨o, a1, a2⟩, a3⟩ | ⟨a1, a3⟩ <;>
        rcases b with ⟨o', x', m'', b1, b2, b3, -⟩ | ⟨⟨o', b1, b2⟩, b3⟩ | ⟨b1, b3⟩ <;> cases a1.symm.trans b1 <;>
        rw [a3, b3] <;> cases a2.symm.trans b2
      rfl

/-- **C64** for the whole cable (partial). As long as, since the last change of the cable or the stretch state, all
states had the same polynomial type and no validation with warnings was made, a cable elongation model answers
every question exactly as a new object with the same cable, stretch state and state would, whatever was done with it
before.

What is missing: states of another polynomial type (`C64_stale_stretch` for the components) and validations with
warnings, for which the claim is false (`C64_validate_spoils`). -/
theorem C64_cable_partial {τ : PolynomialType} {before after : List ElongationModel.Call}
    {c : ElongationModel.Call} {m0 m : ElongationModel} (hr : ResetsCable c)
    (h0 : run ElongationModel.new (before ++ [c]) = some m0) (h : run m0 after = some m)
    (ht : m0.state.type = τ ∨ ∃ s rest, after = .setState s :: rest)
    (hs : ∀ s, .setState s ∈ after → s.type = τ) (hv : .validate true ∉ after) (q : CableQuery) :
    q.ask m = q.ask (freshCable m) := by
  have A0 : ∀ k, m0.cable = some k → Att k m0 := run_att (fun k hk => (by cases hk)) h0
  have F0 : m0.isUpdatedStretch = false ∧ m0.isUpdatedState = false := by
    rw [cable_run_append] at h0
    cases hb : run ElongationModel.new before with
    | none => rw [hb] at h0; cases h0
    | some x =>
      rw [hb] at h0
      cases c with
      | setCable k => cases k <;> (cases h0; exact ⟨rfl, rfl⟩)
      | setStretch s => cases h0; exact ⟨rfl, rfl⟩
      | _ => exact hr.elim
  have G0 : ∀ k, m0.cable = some k → Good k m0 := fun k hk => good_flags_false (A0 k hk) F0.1 F0.2
  have G : ∀ k, m.cable = some k → Good k m := by
    rcases ht with ht | ⟨s, rest, rfl⟩
    · exact good_run G0 ht hs hv h
    · refine good_run (m := m0.setState s) (cs := rest)
        (fun k hk => good_setState (G0 k hk) fun e => absurd (F0.1.symm.trans e) (by decide))
        (hs s List.mem_cons_self) (fun s e => hs s (List.mem_cons_of_mem _ e))
        (fun e => hv (List.mem_cons_of_mem _ e)) h
  exact good_ask G (freshCable_good m) ⟨rfl, rfl, rfl⟩ q

/-- A cable whose core and shell are straight lines. -/
noncomputable def exCable : Cable := ⟨1, 1, exComponent 1 1, exComponent 1 1, 1, 1, [], 100, 0, 1⟩

/-- Setting up a model for it. -/
noncomputable def exCalls (l : ℝ) : List ElongationModel.Call :=
  [.setCable (some exCable), .setStretch ⟨0, .loadStrain, l⟩, .setState ⟨0, .loadStrain⟩]

/-- The model after that. -/
noncomputable def exCableModel (l : ℝ) : ElongationModel :=
  ((ElongationModel.new.setCable (some exCable)).setStretch ⟨0, .loadStrain, l⟩).setState ⟨0, .loadStrain⟩

theorem exCable_run (l : ℝ) : run ElongationModel.new (exCalls l) = some (exCableModel l) := rfl

theorem exEnabled : (exComponent 1 1).Enabled := by
  refine ⟨⟨1, ?_, one_ne_zero⟩, ⟨1, ?_, one_ne_zero⟩⟩ <;> simp [exComponent]

/-- The points of a component with stretch load `l`. -/
noncomputable def exPoints (l : ℝ) : Regions := ⟨⟨l - l / 3, 0⟩, ⟨l, l⟩, ⟨100, 100⟩⟩

theorem exRead (l : ℝ) : compRead (exComponent 1 1) 0 ⟨0, .loadStrain⟩ ⟨0, .loadStrain, l⟩ =
    .val (some (0, exPoints l)) := by
  unfold compRead exPoints
  rw [if_pos exEnabled, exSpec one_ne_zero]
  norm_num

theorem exReadBoth (l a b : ℝ) : readOf exCable ⟨0, .loadStrain⟩ ⟨0, .loadStrain, l⟩ (a, b) =
    .val (some (0, exPoints a), some (0, exPoints b)) := by
  unfold readOf
  have h : ∀ x, compRead (exComponent 1 1) 0 ⟨0, .loadStrain⟩ { (⟨0, .loadStrain, l⟩ : CableStretchState) with load := x } =
    .val (some (0, exPoints x)) := fun x => exRead x
  simp only [exCable]
  rw [h, h]

theorem exLoad (l x : ℝ) : (exComponent 1 1).load .loadStrain (exPoints l) 0 x =
    if x < l - l / 3 then x - (l - l / 3)
    else if x ≤ l then l + (x - l) * 3
    else if x < 100 then x
    else 100 + (x - 100) * (exComponent 1 1).modulusExtrapolate .loadStrain := by
  unfold CableComponent.load exPoints
  simp only
  by_cases h1 : x < l - l / 3
  · rw [if_pos h1, if_pos h1]
    unfold CableComponent.loadLinear exComponent
    ring
  · rw [if_neg h1, if_neg h1]
    by_cases h2 : x ≤ l
    · rw [if_pos ⟨not_lt.1 h1, h2⟩, if_pos h2]
      rfl
    · rw [if_neg (fun h => h2 h.2), if_neg h2]
      by_cases h3 : x < 100
      · rw [if_pos ⟨not_le.1 h2, h3⟩, if_pos h3]
        show (exComponent 1 1).loadPolynomial [0, 1, 0, 0, 0] 0 x = x
        unfold CableComponent.loadPolynomial
        simp only [evalY, yLoop, exComponent]
        ring
      · rw [if_neg (fun h => h3 h.2), if_neg h3, if_pos (not_lt.1 h3), if_neg (by decide)]
        rfl

theorem exBoth (l x : ℝ) : bothOf CableComponent.load exCable ⟨0, .loadStrain⟩
    (some (0, exPoints l), some (0, exPoints l)) x = 2 * (exComponent 1 1).load .loadStrain (exPoints l) 0 x := by
  have ha : ansOf CableComponent.load (exComponent 1 1) ⟨0, .loadStrain⟩ (some (0, exPoints l)) x =
      (exComponent 1 1).load .loadStrain (exPoints l) 0 x := by
    unfold ansOf
    rw [if_pos exEnabled]
  show ansOf CableComponent.load (exComponent 1 1) ⟨0, .loadStrain⟩ (some (0, exPoints l)) x +
    ansOf CableComponent.load (exComponent 1 1) ⟨0, .loadStrain⟩ (some (0, exPoints l)) x = _
  rw [ha]
  ring

theorem exPointsOf : pointsOf exCable ⟨0, .loadStrain⟩ (some (0, exPoints 0), some (0, exPoints 0)) =
    [⟨0, 0⟩, ⟨0, 0⟩, ⟨0, 0⟩, ⟨0, 0⟩, ⟨100, 200⟩, ⟨100, 200⟩] := by
  have hs : strainsOf (exComponent 1 1) (some (0, exPoints 0)) = [0, 0, 100] := by
    unfold strainsOf exPoints
    rw [if_pos exEnabled]
    norm_num
  have h0 : bothOf CableComponent.load exCable ⟨0, .loadStrain⟩ (some (0, exPoints 0), some (0, exPoints 0)) 0 = 0 := by
    rw [exBoth, exLoad]; norm_num
  have h1 : bothOf CableComponent.load exCable ⟨0, .loadStrain⟩ (some (0, exPoints 0), some (0, exPoints 0)) 100 = 200 := by
    rw [exBoth, exLoad]; norm_num
  unfold pointsOf
  simp only [exCable] at *
  rw [hs]
  norm_num [List.insertionSort, List.orderedInsert, h0, h1]

theorem exLoads : loadsOf exCable ⟨0, .loadStrain, 10⟩ = .val (5, 5) := by
  have hf : bothOf CableComponent.load exCable ⟨0, .loadStrain⟩ (some (0, exPoints 0), some (0, exPoints 0)) 5 = 10 := by
    rw [exBoth, exLoad]; norm_num
  have ha : ansOf CableComponent.load (exComponent 1 1) ⟨0, .loadStrain⟩ (some (0, exPoints 0)) 5 = 5 := by
    unfold ansOf
    rw [if_pos exEnabled]
    simp only
    rw [exLoad]; norm_num
  have hx : strainCombined (bothOf CableComponent.load exCable ⟨0, .loadStrain⟩
      (some (0, exPoints 0), some (0, exPoints 0))) [⟨0, 0⟩, ⟨0, 0⟩, ⟨0, 0⟩, ⟨0, 0⟩, ⟨100, 200⟩, ⟨100, 200⟩] 10 =
      .val 5 := by
    unfold strainCombined strainStart
    norm_num [findRegion]
    have : (StrainSearch.step (bothOf CableComponent.load exCable ⟨0, .loadStrain⟩
        (some (0, exPoints 0), some (0, exPoints 0))) 10 ⟨⟨0, 0⟩, ⟨100, 200⟩, ⟨-999999, -999999⟩, 1⟩) =
        ⟨⟨0, 0⟩, ⟨100, 200⟩, ⟨5, 10⟩, 2⟩ := by
      unfold StrainSearch.step
      norm_num [hf]
    have hl : strainLoop (bothOf CableComponent.load exCable ⟨0, .loadStrain⟩
        (some (0, exPoints 0), some (0, exPoints 0))) 10 99 ⟨⟨0, 0⟩, ⟨100, 200⟩, ⟨-999999, -999999⟩, 1⟩ =
        ⟨⟨0, 0⟩, ⟨100, 200⟩, ⟨5, 10⟩, 2⟩ := by
      rw [strainLoop, if_pos (by norm_num [abs_of_neg]), this, strainLoop, if_neg (by norm_num)]
    rw [hl]
    norm_num
  unfold loadsOf
  rw [if_neg (by norm_num)]
  simp only [CableStretchState.base]
  rw [exReadBoth]
  simp only
  rw [exPointsOf, hx]
  simp only
  have hc : exCable.core = exComponent 1 1 := rfl
  have hd : exCable.shell = exComponent 1 1 := rfl
  rw [hc, hd, ha]

theorem exKnown : knownOf exCable ⟨0, .loadStrain⟩ ⟨0, .loadStrain, 10⟩ =
    .val (some (0, exPoints 5), some (0, exPoints 5)) := by
  unfold knownOf
  rw [exLoads]
  exact exReadBoth _ _ _

theorem exGood (l : ℝ) : Good exCable (exCableModel l) :=
  good_flags_false (attach_att exCable ElongationModel.new exCable rfl) rfl rfl

theorem exLives (l : ℝ) : Lives exCable (exCableModel l) :=
  lives_flags (attach_att exCable ElongationModel.new exCable rfl) rfl rfl

/-- The theorems C62 and C89 apply: at a strain of 5 the two components carry 10 together. -/
theorem exAnswer : ∃ m, (exCableModel 10).load .combined 5 = .ok m 10 := by
  rcases (exGood 10).ask rfl CableComponent.load .combined 5 with ⟨o, m', a, b, -⟩ | ⟨a, b⟩
  · have e : o = (some (0, exPoints 5), some (0, exPoints 5)) := by
      have := exKnown.symm.trans a
      cases this; rfl
    subst e
    refine ⟨m', ?_⟩
    have hb : partOf CableComponent.load exCable (exCableModel 10).state (some (0, exPoints 5), some (0, exPoints 5)) 5
        .combined = 10 := by
      show bothOf CableComponent.load exCable ⟨0, .loadStrain⟩ (some (0, exPoints 5), some (0, exPoints 5)) 5 = 10
      rw [exBoth, exLoad]; norm_num
    rw [hb] at b
    exact b
  · cases exKnown.symm.trans a

example : ∃ (m : ElongationModel) (k : Cable) (b c : ℝ), exCable = k ∧ m.load .core 5 = .ok m b ∧ m.load .shell 5 = .ok m c ∧ (10 : ℝ) = b + c := by
  obtain ⟨m, h⟩ := exAnswer
  obtain ⟨k, b, c, h1, h2, h3, h4, -⟩ := C62_load_sum h
  cases h1
  exact ⟨m, exCable, b, c, rfl, h2, h3, h4⟩

example : ∃ m m' x, (exCableModel 10).strain .combined 50 = .ok m x ∧ m' = m := by
  rcases (exLives 10).strain rfl .combined 50 with ⟨m', x, h, -⟩ | ⟨-, h⟩
  · exact ⟨m', m', x, h, rfl⟩
  · exact absurd ⟨Or.inl exEnabled, (by intro e; cases e), Or.inr (by intro e; cases e)⟩ h

/-- The validity checks of the inputs accept the example. -/
theorem exValid : exCable.validateSagTension.1 = true ∧ (⟨0, .loadStrain⟩ : CableState).validate.1 = true ∧
    (⟨0, .loadStrain, 10⟩ : CableStretchState).validate.1 = true := by
  refine ⟨?_, ?_, ?_⟩
  · unfold Cable.validateSagTension Cable.validate CableComponent.validate exCable exComponent
    norm_num
  · unfold CableState.validate; norm_num; rintro ⟨⟩
  · unfold CableStretchState.validate; norm_num

/-- After a validation with warnings both component models have the stretch of the whole cable. -/
theorem validate_stretch {k : Cable} {m : ElongationModel} (G : Lives k m) (hk : m.cable = some k)
    (he : k.core.Enabled) (U : Usable k m) (V : k.validateSagTension.1 = true ∧ m.state.validate.1 = true ∧
      m.stretch.validate.1 = true) :
    ∃ m' b, m.validate true = .ok m' b ∧ Lives k m' ∧ SameSettings m m' ∧ m'.isUpdatedStretch = true ∧
      m'.isUpdatedState = true ∧ (m'.core.stretch = some m.stretch ∧ m'.core.state = some m.state ∧
          m'.core.isUpdatedStretch = false ∧ m'.core.isUpdatedState = false) ∧
        m'.shell.stretch = some m.stretch ∧ m'.shell.state = some m.state ∧ m'.shell.isUpdatedStretch = false ∧
          m'.shell.isUpdatedState = false := by
  unfold ElongationModel.validate ElongationModel.updated
  rw [hk]
  simp only
  rw [if_pos V]
  rcases G.update hk with ⟨x, e, g, L, r⟩ | ⟨e, g⟩
  · rw [e]
    obtain ⟨h1, h2, h3, h4, h5, -⟩ := update_ok e
    simp only
    rw [h1.trans hk]
    simp only
    unfold validateComponents
    rw [if_neg (not_not.2 (Or.inl he))]
    rcases validate_part_live (w := true) L.1 with ⟨c, v1, e1, g1⟩ | ⟨e1, g1⟩
    · rw [e1]
      simp only
      rcases validate_part_live (w := true) L.2 with ⟨d, v2, e2, g2⟩ | ⟨e2, g2⟩
      · rw [e2]
        simp only
        rw [if_neg (by decide)]
        have L1 : LiveBoth k m.state { x with core := c, shell := d } := ⟨g1, g2⟩
        rcases validateStrainLimit_live (m := { x with core := c, shell := d }) (by rw [← h2] at L1; exact L1) h4
            (Or.inl he) with ⟨y, v3, e3, -, g3, r3, f3, s3⟩ | ⟨e3, g3⟩
        · rw [e3]
          simp only
          have f4 : y.isUpdatedState = true := by
            have := e3
            unfold validateStrainLimit at this
            revert this
            split
            · rename_i z hz
              split
              · split
                · simp only
                  split
                  · rename_i u hu
                    intro h; cases h
                    rw [(updateComponentsState_ok hu).2.2.2.1, (updateComponentsState_ok hz).2.2.2.1]
                    exact h5
                  · intro h; cases h
                  · intro h; cases h
                · intro h; cases h
              · intro h; cases h
              · intro h; cases h
            · intro h; cases h
            · intro h; cases h
          obtain ⟨n, v4, e4, g4, s4, q1, q2, q3⟩ := validateStrainUnloaded_live (k := k) (m := y)
            (by rw [s3.2.1]; exact g3) r3 f3
          rw [e4]
          have hst : y.stretch = m.stretch := s3.2.2.trans h3
          have hss : y.state = m.state := s3.2.1.trans h2
          have q := q3 he
          rw [hst, hss] at q
          exact ⟨n, _, rfl, g4, ⟨s4.1.trans (s3.1.trans h1), s4.2.1.trans hss, s4.2.2.trans hst⟩, q1.trans f3,
            q2.trans f4, q⟩
        · exact absurd (h2 ▸ g3) U.2.1
      · exact absurd g2 U.2.1
    · exact absurd g1 U.2.1
  · exact absurd U g

/-- **C64**, the violation for a whole cable. Validating with warnings gives each component the stretch load of the
whole cable, and the questions that follow are answered with it: the same question, with cable, state and stretch
state unchanged, is answered differently after the validation, and differently from a new object. -/
theorem C64_validate_spoils : ∃ (m m' : ElongationModel) (b : Bool), run ElongationModel.new (exCalls 10) = some m ∧
    m.validate true = .ok m' b ∧ (CableQuery.load .combined 5).ask m = .val 10 ∧
    (CableQuery.load .combined 5).ask m' = .val (-10 / 3) ∧
    (CableQuery.load .combined 5).ask (freshCable m') = .val 10 := by
  have U : Usable exCable (exCableModel 10) :=
    ⟨Or.inl exEnabled, (by intro e; cases e), Or.inr (by intro e; cases e)⟩
  obtain ⟨m', b, e, G, S, f1, f2, ⟨c1, c2, c3, c4⟩, d1, d2, d3, d4⟩ :=
    validate_stretch (exLives 10) rfl exEnabled U exValid
  obtain ⟨n, hn⟩ := exAnswer
  refine ⟨exCableModel 10, m', b, rfl, e, ?_, ?_, ?_⟩
  · show valueOf id ((exCableModel 10).load .combined 5) = _
    rw [hn]; rfl
  · have hk : m'.cable = some exCable := S.1
    have L := (G.live f2).1
    have HB : HasBoth exCable ⟨0, .loadStrain⟩ ⟨0, .loadStrain, 10⟩ (10, 10) m' := by
      refine ⟨fun he => ?_, fun he => ?_⟩
      · exact ⟨ComponentModel.clean_flags_false c4 c3, (L.1 he).1, (L.1 he).2.1, c2, c1⟩
      · exact ⟨ComponentModel.clean_flags_false d4 d3, (L.2 he).1, (L.2 he).2.1, d2, d1⟩
    obtain ⟨cc, dd, -, -, h3, -, -, h6, h7⟩ := read_touch HB (exReadBoth 10 10 10)
    show valueOf id (m'.load .combined 5) = _
    unfold ElongationModel.load askPart
    rw [updated_flags f1 f2 hk]
    simp only
    unfold readBoth
    rw [h3]
    simp only [valueOf, id]
    rw [KnowsBoth.both (m := { m' with core := cc, shell := dd }) ⟨h6, h7⟩, exBoth, exLoad]
    norm_num
  · have hf : freshCable m' = exCableModel 10 := by
      unfold freshCable exCableModel
      rw [S.1, S.2.1, S.2.2]
      rfl
    rw [hf]
    show valueOf id ((exCableModel 10).load .combined 5) = _
    rw [hn]; rfl

/-- The partial theorem applies to a history with questions, validations and new states. -/
example : ∃ m0 m, ResetsCable (.setStretch ⟨0, .loadStrain, 10⟩) ∧
    run ElongationModel.new ([.setCable (some exCable)] ++ [.setStretch ⟨0, .loadStrain, 10⟩]) = some m0 ∧
    run m0 [.setState ⟨0, .loadStrain⟩, .load .combined 5, .setState ⟨20, .loadStrain⟩] = some m := by
  obtain ⟨n, hn⟩ := exAnswer
  refine ⟨_, n.setState ⟨20, .loadStrain⟩, trivial, rfl, ?_⟩
  show (((exCableModel 10).load .combined 5).state?.bind fun m => run m [.setState ⟨20, .loadStrain⟩]) = _
  rw [hn]
  rfl

/-! ## C91 -/

/-- **C91**. Whatever was done with a cable elongation model before: once it has a cable with an enabled component, a
state with a polynomial type, and a stretch state with a polynomial type or without load, every load, slope and strain
is answered, and a validation returns. -/
theorem C91_returns {calls : List ElongationModel.Call} {m : ElongationModel} {k : Cable}
    (h : run ElongationModel.new calls = some m) (hk : m.cable = some k)
    (he : k.core.Enabled ∨ k.shell.Enabled) (hs : m.state.type ≠ .null)
    (hss : m.stretch.load = 0 ∨ m.stretch.type ≠ .null) :
    (∀ q : CableQuery, ∃ x, q.ask m = .val x) ∧ ∀ w, ∃ m' b, m.validate w = .ok m' b := by
  have G : Lives k m := run_lives (fun k hk => (by cases hk)) h k hk
  have U : Usable k m := ⟨he, hs, hss⟩
  have R : ∀ {o : Outcome ElongationModel ℝ}, Returns k m o → ∃ x, valueOf id o = .val x := by
    rintro o (⟨m', a, rfl, -⟩ | ⟨-, e⟩)
    · exact ⟨a, rfl⟩
    · exact absurd U e
  refine ⟨fun q => ?_, fun w => ?_⟩
  · cases q with
    | load t x => exact R (G.ask hk _ t x)
    | slope t x => exact R (G.ask hk _ t x)
    | strain t l => exact R (G.strain hk t l)
  · rcases G.validate hk w with ⟨m', b, e, -⟩ | ⟨-, e⟩
    · exact ⟨m', b, e⟩
    · exact absurd U e

example : ∀ q : CableQuery, ∃ x, q.ask (exCableModel 10) = .val x :=
  (C91_returns (k := exCable) (exCable_run 10) rfl (Or.inl exEnabled) (by intro e; cases e)
    (Or.inr (by intro e; cases e))).1

end Verif.Props
