import Verif.CableElongationSpec

/-!
# When the cable elongation model answers

A call of a cable elongation model returns whenever cable, state and stretch state are usable, whatever was done
with the object before.
-/

set_option linter.unusedSectionVars false

namespace Verif

namespace ElongationModel

open ComponentModel

/-- The pointers of the model of an enabled component are set. -/
def Live (c : CableComponent) (t : ℝ) (s : CableState) (m : ComponentModel) : Prop :=
  c.Enabled → m.component = some c ∧ m.reference = some t ∧ m.state = some s ∧ ∃ ss, m.stretch = some ss

theorem Live.same {c t s m m'} (h : Live c t s m) (P : SamePointers m m') : Live c t s m' := by
  intro he
  obtain ⟨h1, h2, h3, ss, h4⟩ := h he
  exact ⟨P.1.trans h1, P.2.2.2.trans h2, P.2.1.trans h3, ss, P.2.2.1.trans h4⟩

theorem update_live {c : CableComponent} {t : ℝ} {s : CableState} {m : ComponentModel} (h : Live c t s m)
    (he : c.Enabled) : (∃ m' b, m.update = .ok m' b ∧ Live c t s m') ∨ (m.update = .ub ∧ s.type = .null) := by
  obtain ⟨h1, h2, h3, ss, h4⟩ := h he
  cases hu : m.update with
  | ok m' b => exact Or.inl ⟨m', b, rfl, h.same (update_pointers hu)⟩
  | throws m' => exact absurd hu (update_not_throws h1 he)
  | ub =>
    refine Or.inr ⟨rfl, ?_⟩
    by_contra hn
    obtain ⟨m', b, e⟩ := update_defined h1 h2 h3 h4 he hn
    rw [hu] at e
    cases e

theorem touch_live {c : CableComponent} {t : ℝ} {s : CableState} {m : ComponentModel} (h : Live c t s m) :
    (∃ m', touch c m = .ok m' () ∧ Live c t s m') ∨ (touch c m = .ub ∧ s.type = .null) := by
  unfold touch
  by_cases he : c.Enabled
  · rw [if_pos he]
    rcases update_live h he with ⟨m', b, e, g⟩ | ⟨e, g⟩
    · rw [e]; exact Or.inl ⟨m', rfl, g⟩
    · rw [e]; exact Or.inr ⟨rfl, g⟩
  · rw [if_neg he]
    exact Or.inl ⟨m, rfl, h⟩

/-- Both. -/
def LiveBoth (k : Cable) (s : CableState) (m : ElongationModel) : Prop :=
  Live k.core k.temperatureProperties s m.core ∧ Live k.shell k.temperatureProperties s m.shell

theorem LiveBoth.att {k s m} (h : LiveBoth k s m) : Att k m :=
  ⟨fun he => ⟨(h.1 he).1, (h.1 he).2.1⟩, fun he => ⟨(h.2 he).1, (h.2 he).2.1⟩⟩

theorem touchBoth_live {k : Cable} {s : CableState} {m : ElongationModel} (h : LiveBoth k s m) :
    (∃ c d, touch k.core m.core = .ok c () ∧ touch k.shell m.shell = .ok d () ∧
      m.touchBoth k = .ok { m with core := c, shell := d } () ∧
      Live k.core k.temperatureProperties s c ∧ Live k.shell k.temperatureProperties s d) ∨
      (m.touchBoth k = .ub ∧ s.type = .null) := by
  unfold touchBoth
  rcases touch_live h.1 with ⟨c, e1, g1⟩ | ⟨e1, g1⟩
  · rcases touch_live h.2 with ⟨d, e2, g2⟩ | ⟨e2, g2⟩
    · rw [e1, e2]; exact Or.inl ⟨c, d, rfl, rfl, rfl, g1, g2⟩
    · rw [e1, e2]; exact Or.inr ⟨rfl, g2⟩
  · rw [e1]; exact Or.inr ⟨rfl, g1⟩

/-- The stretch pointers are set. -/
def Given (k : Cable) (m : ElongationModel) : Prop :=
  (k.core.Enabled → ∃ ss, m.core.stretch = some ss) ∧ (k.shell.Enabled → ∃ ss, m.shell.stretch = some ss)

theorem LiveBoth.given {k s m} (h : LiveBoth k s m) : Given k m :=
  ⟨fun he => (h.1 he).2.2.2, fun he => (h.2 he).2.2.2⟩

theorem updateComponentsState_live {k : Cable} {m : ElongationModel} (A : Att k m) (S : Given k m)
    (s : CableState) :
    (∃ m', m.updateComponentsState k s = .ok m' () ∧ LiveBoth k s m' ∧
      (k.core.Enabled ∨ k.shell.Enabled → m'.regions ≠ [])) ∨
      (m.updateComponentsState k s = .ub ∧ s.type = .null) := by
  have h : LiveBoth k s { m with core := giveState s k.core m.core, shell := giveState s k.shell m.shell } := by
    refine ⟨fun he => ?_, fun he => ?_⟩
    · simp only
      unfold giveState
      rw [if_pos he]
      exact ⟨(A.1 he).1, (A.1 he).2, rfl, S.1 he⟩
    · simp only
      unfold giveState
      rw [if_pos he]
      exact ⟨(A.2 he).1, (A.2 he).2, rfl, S.2 he⟩
  rcases touchBoth_live h with ⟨c, d, -, -, e, g1, g2⟩ | ⟨e, g⟩
  · have hx : ∃ m', m.updateComponentsState k s = .ok m' () ∧ LiveBoth k s m' := by
      unfold updateComponentsState updatePointsRegions
      rw [e]
      exact ⟨_, rfl, g1, g2⟩
    obtain ⟨m', e', g'⟩ := hx
    exact Or.inl ⟨m', e', g', (updatePointsRegions_regions (k := k) (by exact e')).2.1⟩
  · right
    unfold updateComponentsState updatePointsRegions
    rw [e]
    exact ⟨rfl, g⟩

theorem giveStretch_given {k : Cable} {m : ElongationModel} (A : Att k m) (a b : CableStretchState) :
    Att k { m with core := giveStretch a k.core m.core, shell := giveStretch b k.shell m.shell } ∧
      Given k { m with core := giveStretch a k.core m.core, shell := giveStretch b k.shell m.shell } := by
  refine ⟨⟨fun he => ?_, fun he => ?_⟩, fun he => ?_, fun he => ?_⟩
  all_goals
    simp only
    unfold giveStretch
    rw [if_pos he]
  · exact A.1 he
  · exact A.2 he
  · exact ⟨_, rfl⟩
  · exact ⟨_, rfl⟩

theorem updateComponentsStretch_live {k : Cable} {m : ElongationModel} (A : Att k m) :
    (∃ m', m.updateComponentsStretch k = .ok m' () ∧ Att k m' ∧ Given k m') ∨
      (m.updateComponentsStretch k = .ub ∧ m.stretch.load ≠ 0 ∧
        (m.stretch.type = .null ∨ ¬ (k.core.Enabled ∨ k.shell.Enabled))) := by
  unfold updateComponentsStretch
  simp only
  obtain ⟨A1, S1⟩ := giveStretch_given A { m.stretch with load := 0 } { m.stretch with load := 0 }
  by_cases h0 : m.stretch.load = 0
  · rw [if_pos h0]
    exact Or.inl ⟨_, rfl, A1, S1⟩
  · rw [if_neg h0]
    rcases updateComponentsState_live A1 S1 ⟨m.stretch.temperature, m.stretch.type⟩ with ⟨m', e, g, r⟩ | ⟨e, g⟩
    · rw [e]
      simp only
      cases hs : strainCombined (m'.both CableComponent.load k) m'.regions m'.stretch.load with
      | val x => exact Or.inl ⟨_, rfl, giveStretch_given g.att _ _⟩
      | throws => exact absurd hs (strainCombined_not_throws _ _ _)
      | ub =>
        refine Or.inr ⟨rfl, h0, Or.inr fun he => ?_⟩
        obtain ⟨z, hz⟩ := strainCombined_val (m'.both CableComponent.load k) (r he) m'.stretch.load
        rw [hs] at hz
        cases hz
    · rw [e]
      exact Or.inr ⟨rfl, h0, Or.inl g⟩

/-- Cable, state and stretch state can be used. -/
def Usable (k : Cable) (m : ElongationModel) : Prop :=
  (k.core.Enabled ∨ k.shell.Enabled) ∧ m.state.type ≠ .null ∧ (m.stretch.load = 0 ∨ m.stretch.type ≠ .null)

/-- The invariant. -/
structure Lives (k : Cable) (m : ElongationModel) : Prop where
  att : Att k m
  order : m.isUpdatedState = true → m.isUpdatedStretch = true
  given : m.isUpdatedStretch = true → Given k m
  live : m.isUpdatedState = true → LiveBoth k m.state m ∧ (k.core.Enabled ∨ k.shell.Enabled → m.regions ≠ [])

theorem lives_flags {k : Cable} {m : ElongationModel} (A : Att k m) (h1 : m.isUpdatedStretch = false)
    (h2 : m.isUpdatedState = false) : Lives k m :=
  ⟨A, fun h => absurd (h2.symm.trans h) (by decide), fun h => absurd (h1.symm.trans h) (by decide),
    fun h => absurd (h2.symm.trans h) (by decide)⟩

theorem Lives.of_live {k : Cable} {m : ElongationModel} (h : LiveBoth k m.state m)
    (hr : k.core.Enabled ∨ k.shell.Enabled → m.regions ≠ []) (h1 : m.isUpdatedStretch = true) : Lives k m :=
  ⟨h.att, fun _ => h1, fun _ => h.given, fun _ => ⟨h, hr⟩⟩

theorem Lives.update {k : Cable} {m : ElongationModel} (G : Lives k m) (hk : m.cable = some k) :
    (∃ m', m.update = .ok m' () ∧ Lives k m' ∧ LiveBoth k m.state m' ∧
      (k.core.Enabled ∨ k.shell.Enabled → m'.regions ≠ [])) ∨ (m.update = .ub ∧ ¬ Usable k m) := by
  by_cases hb : m.isUpdatedStretch = true ∧ m.isUpdatedState = true
  · refine Or.inl ⟨m, ?_, G, (G.live hb.2).1, (G.live hb.2).2⟩
    unfold ElongationModel.update
    rw [if_pos hb]
  · have hu : m.update = m.updateWith k := by
      unfold ElongationModel.update
      rw [if_neg hb, hk]
    have fin : ∀ x : ElongationModel, Att k x → Given k x → x.state = m.state → m.update = x.finishUpdate k →
        (∃ m', m.update = .ok m' () ∧ Lives k m' ∧ LiveBoth k m.state m' ∧
          (k.core.Enabled ∨ k.shell.Enabled → m'.regions ≠ [])) ∨ (m.update = .ub ∧ ¬ Usable k m) := by
      intro x A S e1 e2
      rw [e2]
      unfold finishUpdate
      have A' : Att k { x with isUpdatedStretch := true } := A
      have S' : Given k { x with isUpdatedStretch := true } := S
      rcases updateComponentsState_live A' S' x.state with ⟨m', e, g, r⟩ | ⟨e, g⟩
      · rw [e]
        obtain ⟨-, g2, -, -, g5, -⟩ := updateComponentsState_ok e
        refine Or.inl ⟨_, rfl, ?_, ?_, r⟩
        · refine Lives.of_live ?_ r g5
          show LiveBoth k m'.state m'
          rw [show m'.state = x.state from g2]
          exact g
        · rw [← e1]; exact g
      · rw [e]
        exact Or.inr ⟨rfl, fun h => h.2.1 (e1 ▸ g)⟩
    unfold updateWith at hu
    by_cases hst : m.isUpdatedStretch = false
    · rw [if_pos hst] at hu
      rcases updateComponentsStretch_live G.att with ⟨x, e, a, b⟩ | ⟨e, a, b⟩
      · rw [e] at hu
        exact fin x a b (updateComponentsStretch_ok e).2.1 hu
      · rw [e] at hu
        refine Or.inr ⟨hu, fun h => ?_⟩
        rcases h.2.2 with h' | h'
        · exact a h'
        · rcases b with b | b
          · exact h' b
          · exact b h.1
    · rw [if_neg hst] at hu
      exact fin m G.att (G.given (by simpa using hst)) rfl hu

/-- The call returns and keeps the invariant, unless the inputs are not usable. -/
def Returns {A : Type} (k : Cable) (m : ElongationModel) (o : Outcome ElongationModel A) : Prop :=
  (∃ m' a, o = .ok m' a ∧ Lives k m' ∧ SameSettings m m') ∨ (o = .ub ∧ ¬ Usable k m)

theorem Lives.updated {A : Type} {k : Cable} {m : ElongationModel} (G : Lives k m) (hk : m.cable = some k)
    {f : Cable → ElongationModel → Outcome ElongationModel A}
    (h : ∀ x, Lives k x → LiveBoth k x.state x → (k.core.Enabled ∨ k.shell.Enabled → x.regions ≠ []) →
      x.isUpdatedStretch = true → x.isUpdatedState = true → x.cable = some k → Returns k x (f k x)) :
    Returns k m (m.updated f) := by
  unfold ElongationModel.updated
  rcases G.update hk with ⟨x, e, g, l, r⟩ | ⟨e, g⟩
  · rw [e]
    obtain ⟨h1, h2, h3, h4, h5, -⟩ := update_ok e
    have hx := h1.trans hk
    simp only
    rw [hx]
    simp only
    rcases h x g (by rw [h2]; exact l) r h4 h5 hx with ⟨m', a, e1, e2, e3⟩ | ⟨e1, e2⟩
    · exact Or.inl ⟨m', a, e1, e2, e3.1.trans h1, e3.2.1.trans h2, e3.2.2.trans h3⟩
    · refine Or.inr ⟨e1, fun hU => e2 ⟨hU.1, ?_, ?_⟩⟩
      · rw [h2]; exact hU.2.1
      · rw [h3]; exact hU.2.2
  · rw [e]
    exact Or.inr ⟨rfl, g⟩

theorem Lives.ask {k : Cable} {m : ElongationModel} (G : Lives k m) (hk : m.cable = some k)
    (body : CableComponent → PolynomialType → Regions → ℝ → ℝ → ℝ) (t : ElongationPart) (x : ℝ) :
    Returns k m (m.askPart body t x) := by
  unfold askPart
  refine G.updated hk fun y Gy Ly ry f1 f2 hy => ?_
  rcases touchBoth_live Ly with ⟨c, d, e1, e2, e, g1, g2⟩ | ⟨e, g⟩
  · left
    cases t with
    | combined =>
      simp only
      unfold readBoth
      rw [e]
      exact ⟨{ y with core := c, shell := d }, _, rfl, Lives.of_live (by exact ⟨g1, g2⟩) ry f1, rfl, rfl, rfl⟩
    | core =>
      simp only
      unfold readCore
      rw [e1]
      exact ⟨{ y with core := c }, _, rfl, Lives.of_live (by exact ⟨g1, Ly.2⟩) ry f1, rfl, rfl, rfl⟩
    | shell =>
      simp only
      unfold readShell
      rw [e2]
      exact ⟨{ y with shell := d }, _, rfl, Lives.of_live (by exact ⟨Ly.1, g2⟩) ry f1, rfl, rfl, rfl⟩
  · have nU : ¬ Usable k y := fun h => h.2.1 g
    cases t with
    | combined =>
      simp only
      unfold readBoth
      rw [e]
      exact Or.inr ⟨rfl, nU⟩
    | core =>
      simp only
      unfold readCore
      rcases touch_live Ly.1 with ⟨c, e1, g1⟩ | ⟨e1, g1⟩
      · rw [e1]
        exact Or.inl ⟨{ y with core := c }, _, rfl, Lives.of_live (by exact ⟨g1, Ly.2⟩) ry f1, rfl, rfl, rfl⟩
      · rw [e1]; exact Or.inr ⟨rfl, nU⟩
    | shell =>
      simp only
      unfold readShell
      rcases touch_live Ly.2 with ⟨c, e1, g1⟩ | ⟨e1, g1⟩
      · rw [e1]
        exact Or.inl ⟨{ y with shell := c }, _, rfl, Lives.of_live (by exact ⟨Ly.1, g1⟩) ry f1, rfl, rfl, rfl⟩
      · rw [e1]; exact Or.inr ⟨rfl, nU⟩

theorem Lives.strain {k : Cable} {m : ElongationModel} (G : Lives k m) (hk : m.cable = some k)
    (t : ElongationPart) (l : ℝ) : Returns k m (m.strain t l) := by
  unfold ElongationModel.strain
  refine G.updated hk fun y Gy Ly ry f1 f2 hy => ?_
  cases t with
  | combined =>
    simp only
    unfold askStrain
    cases hh : y.regions.head? with
    | none =>
      refine Or.inr ⟨rfl, fun h => ry h.1 ?_⟩
      simpa using hh
    | some p =>
      simp only
      split_ifs
      · exact Or.inl ⟨y, _, rfl, Gy, rfl, rfl, rfl⟩
      · rcases touchBoth_live Ly with ⟨c, d, e1, e2, e, g1, g2⟩ | ⟨e, g⟩
        · rw [e]
          simp only
          have hne : y.regions ≠ [] := by intro h; rw [h] at hh; cases hh
          obtain ⟨z, hz⟩ := strainCombined_val
            (ElongationModel.both CableComponent.load k { y with core := c, shell := d }) hne l
          rw [hz]
          exact Or.inl ⟨{ y with core := c, shell := d }, _, rfl, Lives.of_live (by exact ⟨g1, g2⟩) ry f1, rfl, rfl, rfl⟩
        · rw [e]
          exact Or.inr ⟨rfl, fun h => h.2.1 g⟩
  | core =>
    simp only
    unfold readCore
    rcases touch_live Ly.1 with ⟨c, e1, g1⟩ | ⟨e1, g1⟩
    · rw [e1]
      exact Or.inl ⟨{ y with core := c }, _, rfl, Lives.of_live (by exact ⟨g1, Ly.2⟩) ry f1, rfl, rfl, rfl⟩
    · rw [e1]; exact Or.inr ⟨rfl, fun h => h.2.1 g1⟩
  | shell =>
    simp only
    unfold readShell
    rcases touch_live Ly.2 with ⟨c, e1, g1⟩ | ⟨e1, g1⟩
    · rw [e1]
      exact Or.inl ⟨{ y with shell := c }, _, rfl, Lives.of_live (by exact ⟨Ly.1, g1⟩) ry f1, rfl, rfl, rfl⟩
    · rw [e1]; exact Or.inr ⟨rfl, fun h => h.2.1 g1⟩

open Classical in
theorem validate_part_live {c : CableComponent} {t : ℝ} {s : CableState} {w : Bool} {m : ComponentModel}
    (h : Live c t s m) :
    (∃ m' b, (if c.Enabled then m.validate w else .ok m true : Outcome ComponentModel Bool) = .ok m' b ∧
      Live c t s m') ∨
      ((if c.Enabled then m.validate w else .ok m true : Outcome ComponentModel Bool) = .ub ∧ s.type = .null) := by
  by_cases he : c.Enabled
  · rw [if_pos he]
    unfold ComponentModel.validate
    split
    · split_ifs
      · rcases update_live h he with ⟨m', b, e, g⟩ | ⟨e, g⟩
        · rw [e]
          cases b
          · exact Or.inl ⟨m', _, rfl, g⟩
          · exact Or.inl ⟨m', _, rfl, g⟩
        · rw [e]; exact Or.inr ⟨rfl, g⟩
      · exact Or.inl ⟨m, _, rfl, h⟩
    · exact Or.inl ⟨m, _, rfl, h⟩
  · rw [if_neg he]
    exact Or.inl ⟨m, _, rfl, h⟩

theorem validateStrainLimit_live {k : Cable} {m : ElongationModel} (L : LiveBoth k m.state m)
    (h1 : m.isUpdatedStretch = true) (he : k.core.Enabled ∨ k.shell.Enabled) :
    (∃ m' b, m.validateStrainLimit k = .ok m' b ∧ Lives k m' ∧ LiveBoth k m.state m' ∧ m'.regions ≠ [] ∧
      m'.isUpdatedStretch = true ∧ SameSettings m m') ∨
      (m.validateStrainLimit k = .ub ∧ m.state.type = .null) := by
  unfold validateStrainLimit
  rcases updateComponentsState_live L.att L.given ⟨k.temperatureProperties, .loadStrain⟩ with ⟨x, e, g, r⟩ | ⟨e, g⟩
  · rw [e]
    obtain ⟨c1, c2, c3, c4, c5, -⟩ := updateComponentsState_ok e
    obtain ⟨z, hz⟩ := strainCombined_val (x.both CableComponent.load k) (r he) k.strengthRated
    simp only
    rw [hz]
    simp only
    cases hty : x.state.type with
    | null => exact Or.inr ⟨rfl, c2 ▸ hty⟩
    | creep =>
      simp only [CableComponent.limit]
      rcases updateComponentsState_live g.att g.given x.state with ⟨y, e', g', r'⟩ | ⟨e', g'⟩
      · rw [e']
        obtain ⟨d1, d2, d3, d4, d5, -⟩ := updateComponentsState_ok e'
        refine Or.inl ⟨y, _, rfl, Lives.of_live ?_ r' (d5.trans (c5.trans h1)), ?_, r' he, d5.trans (c5.trans h1),
          d1.trans c1, d2.trans c2, d3.trans c3⟩
        · rw [d2]; exact g'
        · rw [← c2]; exact g'
      · rw [hty] at g'; cases g'
    | loadStrain =>
      simp only [CableComponent.limit]
      rcases updateComponentsState_live g.att g.given x.state with ⟨y, e', g', r'⟩ | ⟨e', g'⟩
      · rw [e']
        obtain ⟨d1, d2, d3, d4, d5, -⟩ := updateComponentsState_ok e'
        refine Or.inl ⟨y, _, rfl, Lives.of_live ?_ r' (d5.trans (c5.trans h1)), ?_, r' he, d5.trans (c5.trans h1),
          d1.trans c1, d2.trans c2, d3.trans c3⟩
        · rw [d2]; exact g'
        · rw [← c2]; exact g'
      · rw [hty] at g'; cases g'
  · cases g

/-- After the second check the component models have the stretch of the whole cable. -/
theorem validateStrainUnloaded_live {k : Cable} {m : ElongationModel} (L : LiveBoth k m.state m)
    (hr : m.regions ≠ []) (h1 : m.isUpdatedStretch = true) :
    ∃ m' b, m.validateStrainUnloaded k = .ok m' b ∧ Lives k m' ∧ SameSettings m m' ∧
      m'.isUpdatedStretch = m.isUpdatedStretch ∧ m'.isUpdatedState = m.isUpdatedState ∧
      (k.core.Enabled → (m'.core.stretch = some m.stretch ∧ m'.core.state = some m.state ∧
          m'.core.isUpdatedStretch = false ∧ m'.core.isUpdatedState = false) ∧
        m'.shell.stretch = some m.stretch ∧ m'.shell.state = some m.state ∧ m'.shell.isUpdatedStretch = false ∧
          m'.shell.isUpdatedState = false) := by
  unfold validateStrainUnloaded
  by_cases he : k.core.Enabled
  · rw [if_neg (not_not.2 he)]
    simp only
    have L' : LiveBoth k ⟨k.temperatureProperties, .loadStrain⟩
        { m with core := (m.core.setState (some ⟨k.temperatureProperties, .loadStrain⟩)).setStretch
                  (some ⟨k.temperatureProperties, .loadStrain, 0⟩)
                 shell := (m.shell.setState (some ⟨k.temperatureProperties, .loadStrain⟩)).setStretch
                  (some ⟨k.temperatureProperties, .loadStrain, 0⟩) } := by
      refine ⟨fun he => ?_, fun he => ?_⟩
      · exact ⟨(L.1 he).1, (L.1 he).2.1, rfl, _, rfl⟩
      · exact ⟨(L.2 he).1, (L.2 he).2.1, rfl, _, rfl⟩
    rcases touchBoth_live L' with ⟨c, d, -, -, e, g1, g2⟩ | ⟨e, g⟩
    · rw [e]
      refine ⟨_, _, rfl, Lives.of_live ?_ (fun _ => hr) h1, ⟨rfl, rfl, rfl⟩, rfl, rfl,
        fun _ => ⟨⟨rfl, rfl, rfl, rfl⟩, rfl, rfl, rfl, rfl⟩⟩
      refine ⟨fun he => ?_, fun he => ?_⟩
      · exact ⟨(g1 he).1, (g1 he).2.1, rfl, _, rfl⟩
      · exact ⟨(g2 he).1, (g2 he).2.1, rfl, _, rfl⟩
    · cases g
  · rw [if_pos he]
    exact ⟨m, true, rfl, Lives.of_live L (fun _ => hr) h1, ⟨rfl, rfl, rfl⟩, rfl, rfl, fun h => absurd h he⟩

theorem validateComponents_live {k : Cable} {w : Bool} {m : ElongationModel} (G : Lives k m)
    (L : LiveBoth k m.state m) (hr : k.core.Enabled ∨ k.shell.Enabled → m.regions ≠ [])
    (h1 : m.isUpdatedStretch = true) : Returns k m (validateComponents w k m) := by
  unfold validateComponents
  by_cases h0 : k.core.Enabled ∨ k.shell.Enabled
  · rw [if_neg (not_not.2 h0)]
    rcases validate_part_live (w := w) L.1 with ⟨c, v1, e1, g1⟩ | ⟨e1, g1⟩
    · rw [e1]
      simp only
      rcases validate_part_live (w := w) L.2 with ⟨d, v2, e2, g2⟩ | ⟨e2, g2⟩
      · rw [e2]
        simp only
        have L1 : LiveBoth k m.state { m with core := c, shell := d } := ⟨g1, g2⟩
        split_ifs
        · exact Or.inl ⟨_, _, rfl, Lives.of_live (by exact L1) hr h1, rfl, rfl, rfl⟩
        · rcases validateStrainLimit_live (m := { m with core := c, shell := d }) (by exact L1) h1 h0 with
            ⟨x, v3, e3, -, g3, r3, f3, s3⟩ | ⟨e3, g3⟩
          · rw [e3]
            simp only
            obtain ⟨y, v4, e4, g4, s4, -⟩ := validateStrainUnloaded_live (m := x)
              (by rw [s3.2.1]; exact g3) r3 f3
            rw [e4]
            exact Or.inl ⟨y, _, rfl, g4, s4.1.trans s3.1, s4.2.1.trans s3.2.1, s4.2.2.trans s3.2.2⟩
          · rw [e3]
            exact Or.inr ⟨rfl, fun h => h.2.1 g3⟩
      · rw [e2]
        exact Or.inr ⟨rfl, fun h => h.2.1 g2⟩
    · rw [e1]
      exact Or.inr ⟨rfl, fun h => h.2.1 g1⟩
  · rw [if_pos h0]
    exact Or.inl ⟨m, _, rfl, G, rfl, rfl, rfl⟩

theorem Lives.validate {k : Cable} {m : ElongationModel} (G : Lives k m) (hk : m.cable = some k) (w : Bool) :
    Returns k m (m.validate w) := by
  unfold ElongationModel.validate
  rw [hk]
  simp only
  split_ifs
  · exact G.updated hk fun y Gy Ly ry f1 f2 hy => validateComponents_live Gy Ly ry f1
  · exact Or.inl ⟨m, _, rfl, G, rfl, rfl, rfl⟩

theorem Returns.next {A : Type} {k : Cable} {m m' : ElongationModel} {o : Outcome ElongationModel A}
    (h : Returns k m o) (hk : m.cable = some k) (e : o.state? = some m') :
    ∀ k', m'.cable = some k' → Lives k' m' := by
  rcases h with ⟨x, a, e1, g, s⟩ | ⟨e1, -⟩
  · rw [e1] at e
    cases e
    intro k' hk'
    cases hk'.symm.trans (s.1.trans hk)
    exact g
  · rw [e1] at e; cases e

theorem updated_none {A : Type} {m : ElongationModel} (hk : m.cable = none)
    (f : Cable → ElongationModel → Outcome ElongationModel A) : m.updated f = .ub := by
  unfold ElongationModel.updated ElongationModel.update
  by_cases hb : m.isUpdatedStretch = true ∧ m.isUpdatedState = true
  · rw [if_pos hb]
    simp only
    rw [hk]
  · rw [if_neg hb, hk]

/-- The invariant holds after every history. -/
theorem run_lives {calls : List Call} : ∀ {m m' : ElongationModel}, (∀ k, m.cable = some k → Lives k m) →
    run m calls = some m' → ∀ k, m'.cable = some k → Lives k m' := by
  induction calls with
  | nil => intro m m' h e; cases e; exact h
  | cons c cs ih =>
    intro m m' h e
    unfold run at e
    cases hn : c.next m with
    | none => rw [hn] at e; cases e
    | some m1 =>
      rw [hn] at e
      refine ih ?_ e
      cases c with
      | setCable k =>
        cases hn
        cases k with
        | none => intro k hk; cases hk
        | some k => intro k' hk; exact lives_flags (attach_att k m k' hk) rfl rfl
      | setState s =>
        cases hn
        intro k hk
        exact ⟨(h k hk).att, fun e => (by cases e), (h k hk).given, fun e => (by cases e)⟩
      | setStretch s =>
        cases hn
        intro k hk
        exact lives_flags (h k hk).att rfl rfl
      | load t x =>
        cases hk : m.cable with
        | none =>
          have hn' : (m.askPart CableComponent.load t x).state? = some m1 := hn
          unfold askPart at hn'
          rw [updated_none hk] at hn'; cases hn'
        | some k => exact ((h k hk).ask hk _ t x).next hk hn
      | slope t x =>
        cases hk : m.cable with
        | none =>
          have hn' : (m.askPart CableComponent.slope t x).state? = some m1 := hn
          unfold askPart at hn'
          rw [updated_none hk] at hn'; cases hn'
        | some k => exact ((h k hk).ask hk _ t x).next hk hn
      | strain t x =>
        cases hk : m.cable with
        | none =>
          have hn' : (m.strain t x).state? = some m1 := hn
          unfold ElongationModel.strain at hn'
          rw [updated_none hk] at hn'; cases hn'
        | some k => exact ((h k hk).strain hk t x).next hk hn
      | validate w =>
        cases hk : m.cable with
        | none =>
          have hn' : (m.validate w).state? = some m1 := hn
          unfold ElongationModel.validate at hn'
          rw [hk] at hn'
          cases hn'
          intro k hk'
          cases hk.symm.trans hk'
        | some k => exact ((h k hk).validate hk w).next hk hn

end ElongationModel

end Verif
