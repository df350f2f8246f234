import Verif.CableElongationLemmas

/-!
# The cable elongation model as a function of its inputs

What a cable elongation model answers, as a function of cable, state and stretch state, and the invariant under
which an object answers that.
-/

set_option linter.unusedSectionVars false

namespace Verif

namespace ComponentModel

theorem update_pointers {m m' : ComponentModel} {b : Bool} (h : m.update = .ok m' b) : SamePointers m m' := by
  unfold update at h
  split_ifs at h with hb
  · cases h; exact SamePointers.refl m
  · revert h
    split
    · rename_i c t s ss h1 h2 h3 h4
      intro h
      unfold updateWith at h
      have fin : ∀ {x : ComponentModel} {b}, SamePointers m x → x.finishUpdate c t s = .ok m' b →
          SamePointers m m' := by
        intro x b P e
        unfold finishUpdate at e
        rcases updateState_cases x c t s with ⟨th, r, _, e'⟩ | ⟨_, e'⟩ | ⟨_, e'⟩ <;> rw [e'] at e <;> cases e
        exact P
      by_cases hst : m.isUpdatedStretch = false
      · rw [if_pos hst] at h
        rcases updateStretch_cases m c t s ss with ⟨l, _, e⟩ | ⟨l, _, e⟩ | ⟨_, e⟩ <;> rw [e] at h
        · exact fin (x := { m with loadStretch := l }) (SamePointers.refl m) h
        · cases h; exact SamePointers.refl m
        · cases h
      · rw [if_neg hst] at h
        exact fin (SamePointers.refl m) h
    · intro h; cases h

theorem update_pointers_throws {m m' : ComponentModel} (h : m.update = .throws m') : SamePointers m m' := by
  unfold update at h
  split_ifs at h with hb
  · revert h
    split
    · rename_i c t s ss h1 h2 h3 h4
      intro h
      unfold updateWith at h
      have fin : ∀ {x : ComponentModel}, SamePointers m x → x.finishUpdate c t s = .throws m' →
          SamePointers m m' := by
        intro x P e
        unfold finishUpdate at e
        rcases updateState_cases x c t s with ⟨th, r, _, e'⟩ | ⟨_, e'⟩ | ⟨_, e'⟩ <;> rw [e'] at e <;> cases e
        exact P
      by_cases hst : m.isUpdatedStretch = false
      · rw [if_pos hst] at h
        rcases updateStretch_cases m c t s ss with ⟨l, _, e⟩ | ⟨l, _, e⟩ | ⟨_, e⟩ <;> rw [e] at h
        · exact fin (x := { m with loadStretch := l }) (SamePointers.refl m) h
        · cases h
        · cases h; exact SamePointers.refl m
      · rw [if_neg hst] at h
        exact fin (SamePointers.refl m) h
    · intro h; cases h

theorem stretchOf_not_throws {c : CableComponent} (n1 : c.creep ≠ []) (n2 : c.loadStrain ≠ []) (t : ℝ)
    (s : CableState) (ss : CableStretchState) : stretchOf c t s ss ≠ .throws := by
  unfold stretchOf updateStretch
  split_ifs with c1 c2 c3
  · rintro ⟨⟩
  · rintro ⟨⟩
  · rcases c3 with c3 | c3
    · exact absurd c3 n1
    · exact absurd c3 n2
  · cases ss.type <;> cases s.type <;> simp only <;> first | (rintro ⟨⟩) | skip
    all_goals split <;> rename_i hh <;> revert hh <;> split <;> rintro ⟨⟩ <;> rintro ⟨⟩

/-- For an enabled component and a state with a polynomial type an update is well defined. -/
theorem update_defined {m : ComponentModel} {c t s ss} (h1 : m.component = some c) (h2 : m.reference = some t)
    (h3 : m.state = some s) (h4 : m.stretch = some ss) (he : c.Enabled) (ht : s.type ≠ .null) :
    ∃ m' b, m.update = .ok m' b := by
  have n1 : c.creep ≠ [] := by
    obtain ⟨⟨a, ha, _⟩, _⟩ := he
    exact List.ne_nil_of_mem ha
  have n2 : c.loadStrain ≠ [] := by
    obtain ⟨_, ⟨a, ha, _⟩⟩ := he
    exact List.ne_nil_of_mem ha
  unfold update
  split_ifs with hb
  · exact ⟨_, _, rfl⟩
  · rw [h1, h2, h3, h4]
    simp only
    unfold updateWith
    have fin : ∀ x : ComponentModel, ∃ m' b, x.finishUpdate c t s = .ok m' b := by
      intro x
      unfold finishUpdate updateState
      cases hst : s.type with
      | null => exact absurd hst ht
      | creep => simp only [CableComponent.coefficients, CableComponent.limit, if_neg n1]; exact ⟨_, _, rfl⟩
      | loadStrain => simp only [CableComponent.coefficients, CableComponent.limit, if_neg n2]; exact ⟨_, _, rfl⟩
    by_cases hst : m.isUpdatedStretch = false
    · rw [if_pos hst]
      rcases updateStretch_cases m c t s ss with ⟨l, a, e⟩ | ⟨l, a, e⟩ | ⟨a, e⟩
      · rw [e]; exact fin _
      · rw [e]; exact ⟨_, _, rfl⟩
      · exfalso
        exact stretchOf_not_throws n1 n2 t s ss a
    · rw [if_neg hst]; exact fin m

theorem update_not_throws {m m' : ComponentModel} {c} (h1 : m.component = some c) (he : c.Enabled) :
    m.update ≠ .throws m' := by
  have n1 : c.creep ≠ [] := by
    obtain ⟨⟨a, ha, _⟩, _⟩ := he
    exact List.ne_nil_of_mem ha
  have n2 : c.loadStrain ≠ [] := by
    obtain ⟨_, ⟨a, ha, _⟩⟩ := he
    exact List.ne_nil_of_mem ha
  intro h
  cases h2 : m.reference with
  | none =>
    unfold update at h; split_ifs at h; rw [h1, h2] at h; cases h
  | some t =>
    cases h3 : m.state with
    | none => unfold update at h; split_ifs at h; rw [h1, h2, h3] at h; cases h
    | some s =>
      cases h4 : m.stretch with
      | none => unfold update at h; split_ifs at h; rw [h1, h2, h3, h4] at h; cases h
      | some ss =>
        by_cases ht : s.type = .null
        · -- nothing is evaluated for the null type
          unfold update at h
          split_ifs at h
          rw [h1, h2, h3, h4] at h
          simp only at h
          unfold updateWith at h
          have fin : ∀ x : ComponentModel, x.finishUpdate c t s = .ub := by
            intro x
            unfold finishUpdate updateState
            rw [ht]
            rfl
          by_cases hst : m.isUpdatedStretch = false
          · rw [if_pos hst] at h
            rcases updateStretch_cases m c t s ss with ⟨l, a, e⟩ | ⟨l, a, e⟩ | ⟨a, e⟩
            · rw [e] at h; simp only at h; rw [fin] at h; cases h
            · rw [e] at h; cases h
            · exact stretchOf_not_throws n1 n2 t s ss a
          · rw [if_neg hst] at h
            simp only at h
            rw [fin] at h; cases h
        · obtain ⟨m1, b, e⟩ := update_defined h1 h2 h3 h4 he ht
          rw [e] at h; cases h

end ComponentModel

namespace ElongationModel

open ComponentModel

/-! ## Answers as functions of the inputs -/

open Classical in
/-- What a component model knows after an update: thermal strain and region points, or nothing. -/
noncomputable def compRead (c : CableComponent) (t : ℝ) (s : CableState) (ss : CableStretchState) :
    Res (Option (ℝ × Regions)) :=
  if c.Enabled then
    match spec c t s ss with
    | .val (some (_, th, r)) => .val (some (th, r))
    | .val none => .val none
    | .throws => .throws
    | .ub => .ub
  else .val none

open Classical in
/-- The answer of a component. -/
noncomputable def ansOf (body : CableComponent → PolynomialType → Regions → ℝ → ℝ → ℝ) (c : CableComponent)
    (s : CableState) (o : Option (ℝ × Regions)) (x : ℝ) : ℝ :=
  if c.Enabled then
    match o with
    | some (th, r) => body c s.type r th x
    | none => -999999
  else 0

open Classical in
/-- The strains of the region points of a component. -/
noncomputable def strainsOf (c : CableComponent) (o : Option (ℝ × Regions)) : List ℝ :=
  if c.Enabled then
    let r := match o with
      | some (_, r) => r
      | none => noRegions
    [r.unloaded.x, r.start.x, r.stop.x]
  else []

/-- The answer of the whole cable. -/
noncomputable def bothOf (body : CableComponent → PolynomialType → Regions → ℝ → ℝ → ℝ) (k : Cable)
    (s : CableState) (o : Option (ℝ × Regions) × Option (ℝ × Regions)) (x : ℝ) : ℝ :=
  ansOf body k.core s o.1 x + ansOf body k.shell s o.2 x

open Classical in
/-- The region points of the whole cable. -/
noncomputable def pointsOf (k : Cable) (s : CableState) (o : Option (ℝ × Regions) × Option (ℝ × Regions)) : List V2 :=
  ((strainsOf k.core o.1 ++ strainsOf k.shell o.2).insertionSort (· ≤ ·)).map
    fun x => ⟨x, bothOf CableComponent.load k s o x⟩

/-- What both components know, given their stretch loads. -/
noncomputable def readOf (k : Cable) (s : CableState) (ss : CableStretchState) (l : ℝ × ℝ) :
    Res (Option (ℝ × Regions) × Option (ℝ × Regions)) :=
  match compRead k.core k.temperatureProperties s { ss with load := l.1 },
    compRead k.shell k.temperatureProperties s { ss with load := l.2 } with
  | .val a, .val b => .val (a, b)
  | _, _ => .ub

open Classical in
/-- The stretch loads of the components. -/
noncomputable def loadsOf (k : Cable) (ss : CableStretchState) : Res (ℝ × ℝ) :=
  if ss.load = 0 then .val (0, 0)
  else
    match readOf k ss.base ss (0, 0) with
    | .val o =>
      match strainCombined (bothOf CableComponent.load k ss.base o) (pointsOf k ss.base o) ss.load with
      | .val x => .val (ansOf CableComponent.load k.core ss.base o.1 x, ansOf CableComponent.load k.shell ss.base o.2 x)
      | _ => .ub
    | _ => .ub

/-- What both components know. -/
noncomputable def knownOf (k : Cable) (s : CableState) (ss : CableStretchState) :
    Res (Option (ℝ × Regions) × Option (ℝ × Regions)) :=
  match loadsOf k ss with
  | .val l => readOf k s ss l
  | _ => .ub

/-! ## Component models with the right inputs -/

/-- The component model has these inputs and knows nothing else. -/
def Has (c : CableComponent) (t : ℝ) (s : CableState) (ss : CableStretchState) (m : ComponentModel) : Prop :=
  c.Enabled → Clean m ∧ m.component = some c ∧ m.reference = some t ∧ m.state = some s ∧ m.stretch = some ss

/-- The component model answers from `o`. -/
def Knows (c : CableComponent) (s : CableState) (o : Option (ℝ × Regions)) (m : ComponentModel) : Prop :=
  (∀ body x, part body c m x = ansOf body c s o x) ∧ regionStrains c m = strainsOf c o

theorem touch_has {c : CableComponent} {t : ℝ} {s : CableState} {ss : CableStretchState} {m : ComponentModel}
    (h : Has c t s ss m) :
    (∃ o m', compRead c t s ss = .val o ∧ touch c m = .ok m' () ∧ Has c t s ss m' ∧ Knows c s o m') ∨
      (compRead c t s ss = .ub ∧ touch c m = .ub) := by
  by_cases he : c.Enabled
  · obtain ⟨C, h1, h2, h3, h4⟩ := h he
    unfold compRead touch
    rw [if_pos he, if_pos he]
    rcases C.update h1 h2 h3 h4 with ⟨l, th, r, m', a, b, P, C', f1, f2, f3, f4, f5⟩ | ⟨m', a, b, P, C', f1, f2⟩ |
      ⟨m', a, b, P, C'⟩ | ⟨a, b⟩
    · rw [a, b]
      refine Or.inl ⟨some (th, r), m', rfl, rfl, fun _ => ⟨C', P.1.trans h1, P.2.2.2.trans h2, P.2.1.trans h3,
        P.2.2.1.trans h4⟩, ?_, ?_⟩
      · intro body x
        unfold part ansOf ComponentModel.answer
        rw [if_pos he, if_pos he, if_pos ⟨f1, f2⟩, P.1, P.2.1, h1, h3, f4, f5]
      · unfold regionStrains strainsOf ComponentModel.regionsAnswer
        rw [if_pos he, if_pos he, if_pos ⟨f1, f2⟩, f5]
    · rw [a, b]
      have nf : ¬ (m'.isUpdatedState = true ∧ m'.isUpdatedStretch = true) := by
        rintro ⟨g, _⟩; exact absurd (f1.symm.trans g) (by decide)
      refine Or.inl ⟨none, m', rfl, rfl, fun _ => ⟨C', P.1.trans h1, P.2.2.2.trans h2, P.2.1.trans h3,
        P.2.2.1.trans h4⟩, ?_, ?_⟩
      · intro body x
        unfold part ansOf ComponentModel.answer
        rw [if_pos he, if_pos he, if_neg nf]
      · unfold regionStrains strainsOf ComponentModel.regionsAnswer
        rw [if_pos he, if_pos he, if_neg nf]
    · exact absurd b (update_not_throws h1 he)
    · rw [a, b]; exact Or.inr ⟨rfl, rfl⟩
  · unfold compRead touch
    rw [if_neg he, if_neg he]
    refine Or.inl ⟨none, m, rfl, rfl, h, ?_, ?_⟩
    · intro body x
      unfold part ansOf
      rw [if_neg he, if_neg he]
    · unfold regionStrains strainsOf
      rw [if_neg he, if_neg he]

/-- Both component models have the right inputs. -/
def HasBoth (k : Cable) (s : CableState) (ss : CableStretchState) (l : ℝ × ℝ) (m : ElongationModel) : Prop :=
  Has k.core k.temperatureProperties s { ss with load := l.1 } m.core ∧
    Has k.shell k.temperatureProperties s { ss with load := l.2 } m.shell

/-- Both component models answer from `o`. -/
def KnowsBoth (k : Cable) (s : CableState) (o : Option (ℝ × Regions) × Option (ℝ × Regions)) (m : ElongationModel) :
    Prop := Knows k.core s o.1 m.core ∧ Knows k.shell s o.2 m.shell

theorem KnowsBoth.both {k s o m} (h : KnowsBoth k s o m) (body x) : m.both body k x = bothOf body k s o x := by
  unfold ElongationModel.both bothOf
  rw [h.1.1, h.2.1]

theorem touchBoth_has {k : Cable} {s : CableState} {ss : CableStretchState} {l : ℝ × ℝ} {m : ElongationModel}
    (h : HasBoth k s ss l m) :
    (∃ o c d, readOf k s ss l = .val o ∧ touch k.core m.core = .ok c () ∧ touch k.shell m.shell = .ok d () ∧
      m.touchBoth k = .ok { m with core := c, shell := d } () ∧
      HasBoth k s ss l { m with core := c, shell := d } ∧ KnowsBoth k s o { m with core := c, shell := d }) ∨
      (readOf k s ss l = .ub ∧ m.touchBoth k = .ub) := by
  unfold readOf touchBoth
  rcases touch_has h.1 with ⟨o1, c, a1, b1, c1, d1⟩ | ⟨a1, b1⟩
  · rcases touch_has h.2 with ⟨o2, d, a2, b2, c2, d2⟩ | ⟨a2, b2⟩
    · rw [a1, a2, b1]
      simp only
      rw [b2]
      exact Or.inl ⟨(o1, o2), c, d, rfl, rfl, rfl, rfl, ⟨c1, c2⟩, ⟨d1, d2⟩⟩
    · rw [a1, a2, b1]
      simp only
      rw [b2]
      exact Or.inr ⟨by first | rfl | trivial, rfl⟩
  · rw [a1, b1]
    refine Or.inr ⟨?_, rfl⟩
    split
    · rename_i h _; cases h
    · rfl

theorem updatePointsRegions_has {k : Cable} {s : CableState} {ss : CableStretchState} {l : ℝ × ℝ}
    {m : ElongationModel} (h : HasBoth k s ss l m) :
    (∃ o m', readOf k s ss l = .val o ∧ m.updatePointsRegions k = .ok m' () ∧
      HasBoth k s ss l m' ∧ KnowsBoth k s o m' ∧ m'.regions = pointsOf k s o) ∨
      (readOf k s ss l = .ub ∧ m.updatePointsRegions k = .ub) := by
  unfold updatePointsRegions
  rcases touchBoth_has h with ⟨o, c, d, a, -, -, b, e, f⟩ | ⟨a, b⟩
  · rw [b]
    refine Or.inl ⟨o, _, a, rfl, e, f, ?_⟩
    simp only
    unfold pointsOf
    rw [f.1.2, f.2.2]
    refine List.map_congr_left fun x _ => ?_
    exact congrArg _ (f.both CableComponent.load x)
  · rw [b]; exact Or.inr ⟨a, rfl⟩

/-- Component models that have been given the right stretch load. -/
def Stretched (k : Cable) (ss : CableStretchState) (l : ℝ × ℝ) (τ : PolynomialType) (m : ElongationModel) : Prop :=
  (k.core.Enabled → Clean m.core ∧ m.core.component = some k.core ∧
    m.core.reference = some k.temperatureProperties ∧ m.core.stretch = some { ss with load := l.1 } ∧
    (m.core.isUpdatedStretch = true → ∃ s, m.core.state = some s ∧ s.type = τ)) ∧
  (k.shell.Enabled → Clean m.shell ∧ m.shell.component = some k.shell ∧
    m.shell.reference = some k.temperatureProperties ∧ m.shell.stretch = some { ss with load := l.2 } ∧
    (m.shell.isUpdatedStretch = true → ∃ s, m.shell.state = some s ∧ s.type = τ))

theorem giveState_has {c : CableComponent} {t : ℝ} {s : CableState} {ss : CableStretchState} {m : ComponentModel}
    (h : c.Enabled → Clean m ∧ m.component = some c ∧ m.reference = some t ∧ m.stretch = some ss ∧
      (m.isUpdatedStretch = true → ∃ s', m.state = some s' ∧ s'.type = s.type)) :
    Has c t s ss (giveState s c m) := by
  intro he
  obtain ⟨C, h1, h2, h3, h4⟩ := h he
  unfold giveState
  rw [if_pos he]
  exact ⟨C.setState h4, h1, h2, rfl, h3⟩

theorem updateComponentsState_has {k : Cable} {s : CableState} {ss : CableStretchState} {l : ℝ × ℝ}
    {m : ElongationModel} (h : Stretched k ss l s.type m) :
    (∃ o m', readOf k s ss l = .val o ∧ m.updateComponentsState k s = .ok m' () ∧
      HasBoth k s ss l m' ∧ KnowsBoth k s o m' ∧ m'.regions = pointsOf k s o) ∨
      (readOf k s ss l = .ub ∧ m.updateComponentsState k s = .ub) := by
  unfold updateComponentsState
  exact updatePointsRegions_has (s := s) (ss := ss) (l := l) ⟨giveState_has h.1, giveState_has h.2⟩

/-- The component models belong to the cable. -/
def Att (k : Cable) (m : ElongationModel) : Prop :=
  (k.core.Enabled → m.core.component = some k.core ∧ m.core.reference = some k.temperatureProperties) ∧
  (k.shell.Enabled → m.shell.component = some k.shell ∧ m.shell.reference = some k.temperatureProperties)

theorem HasBoth.att {k s ss l m} (h : HasBoth k s ss l m) : Att k m :=
  ⟨fun he => ⟨(h.1 he).2.1, (h.1 he).2.2.1⟩, fun he => ⟨(h.2 he).2.1, (h.2 he).2.2.1⟩⟩

theorem giveStretch_stretched {k : Cable} {m : ElongationModel} (h : Att k m) (ss : CableStretchState) (l : ℝ × ℝ)
    (τ : PolynomialType) :
    Stretched k ss l τ { m with core := giveStretch { ss with load := l.1 } k.core m.core
                                shell := giveStretch { ss with load := l.2 } k.shell m.shell } := by
  refine ⟨fun he => ?_, fun he => ?_⟩
  · simp only
    unfold giveStretch
    rw [if_pos he]
    exact ⟨clean_setStretch _ _, (h.1 he).1, (h.1 he).2, rfl, fun e => (by cases e)⟩
  · simp only
    unfold giveStretch
    rw [if_pos he]
    exact ⟨clean_setStretch _ _, (h.2 he).1, (h.2 he).2, rfl, fun e => (by cases e)⟩

theorem updateComponentsStretch_has {k : Cable} {m : ElongationModel} (h : Att k m) (τ : PolynomialType) :
    (∃ l m', loadsOf k m.stretch = .val l ∧ m.updateComponentsStretch k = .ok m' () ∧
      Stretched k m.stretch l τ m') ∨
      (loadsOf k m.stretch = .ub ∧ m.updateComponentsStretch k = .ub) := by
  unfold updateComponentsStretch loadsOf
  simp only
  by_cases h0 : m.stretch.load = 0
  · rw [if_pos h0, if_pos h0]
    exact Or.inl ⟨(0, 0), _, rfl, rfl, giveStretch_stretched h m.stretch (0, 0) τ⟩
  · rw [if_neg h0, if_neg h0]
    have hs := giveStretch_stretched h m.stretch (0, 0) m.stretch.base.type
    rcases updateComponentsState_has hs with ⟨o, m', a, b, c, d, e⟩ | ⟨a, b⟩
    · have b' : ({ m with core := giveStretch { m.stretch with load := 0 } k.core m.core
                          shell := giveStretch { m.stretch with load := 0 } k.shell m.shell } :
          ElongationModel).updateComponentsState k ⟨m.stretch.temperature, m.stretch.type⟩ = .ok m' () := b
      have hst : m'.stretch = m.stretch := (updateComponentsState_ok b).2.2.1
      rw [b', a]
      simp only
      rw [hst, e, show m'.both CableComponent.load k = bothOf CableComponent.load k m.stretch.base o from
        funext fun x => d.both _ x]
      cases hx : strainCombined (bothOf CableComponent.load k m.stretch.base o) (pointsOf k m.stretch.base o)
          m.stretch.load with
      | val x =>
        simp only
        refine Or.inl ⟨_, _, rfl, rfl, ?_⟩
        have := giveStretch_stretched c.att m.stretch (part CableComponent.load k.core m'.core x,
          part CableComponent.load k.shell m'.shell x) τ
        rw [d.1.1, d.2.1] at this
        rw [d.1.1, d.2.1]
        exact this
      | throws =>
        exfalso
        unfold strainCombined at hx
        revert hx
        split <;> rintro ⟨⟩
        rename_i hx
        unfold strainStart at hx
        revert hx
        split
        · split_ifs
          · rintro ⟨⟩
          · rintro ⟨⟩
          · split <;> rintro ⟨⟩
        · rintro ⟨⟩
      | ub => exact Or.inr ⟨rfl, rfl⟩
    · have b' : ({ m with core := giveStretch { m.stretch with load := 0 } k.core m.core
                          shell := giveStretch { m.stretch with load := 0 } k.shell m.shell } :
          ElongationModel).updateComponentsState k ⟨m.stretch.temperature, m.stretch.type⟩ = .ub := b
      rw [b', a]
      exact Or.inr ⟨rfl, rfl⟩

/-! ## The invariant -/

/-- The object answers as a function of cable, state and stretch state. -/
structure Good (k : Cable) (m : ElongationModel) : Prop where
  att : Att k m
  order : m.isUpdatedState = true → m.isUpdatedStretch = true
  stretched : m.isUpdatedStretch = true → ∃ l, loadsOf k m.stretch = .val l ∧ Stretched k m.stretch l m.state.type m
  known : m.isUpdatedState = true → ∃ l o, loadsOf k m.stretch = .val l ∧ readOf k m.state m.stretch l = .val o ∧
    HasBoth k m.state m.stretch l m ∧ m.regions = pointsOf k m.state o

theorem HasBoth.stretched {k s ss l m} (h : HasBoth k s ss l m) : Stretched k ss l s.type m :=
  ⟨fun he => ⟨(h.1 he).1, (h.1 he).2.1, (h.1 he).2.2.1, (h.1 he).2.2.2.2, fun _ => ⟨s, (h.1 he).2.2.2.1, rfl⟩⟩,
    fun he => ⟨(h.2 he).1, (h.2 he).2.1, (h.2 he).2.2.1, (h.2 he).2.2.2.2, fun _ => ⟨s, (h.2 he).2.2.2.1, rfl⟩⟩⟩

/-- Updating an object that satisfies the invariant. -/
theorem Good.update {k : Cable} {m : ElongationModel} (G : Good k m) (hk : m.cable = some k) :
    (∃ l o m', loadsOf k m.stretch = .val l ∧ readOf k m.state m.stretch l = .val o ∧ m.update = .ok m' () ∧
      Good k m' ∧ m'.cable = some k ∧ m'.state = m.state ∧ m'.stretch = m.stretch ∧
      m'.isUpdatedStretch = true ∧ m'.isUpdatedState = true ∧
      HasBoth k m.state m.stretch l m' ∧ m'.regions = pointsOf k m.state o) ∨
      (knownOf k m.state m.stretch = .ub ∧ m.update = .ub) := by
  by_cases hb : m.isUpdatedStretch = true ∧ m.isUpdatedState = true
  · obtain ⟨l, o, a, b, c, d⟩ := G.known hb.2
    refine Or.inl ⟨l, o, m, a, b, ?_, G, hk, rfl, rfl, hb.1, hb.2, c, d⟩
    unfold ElongationModel.update
    rw [if_pos hb]
  · have hu : m.update = m.updateWith k := by
      unfold ElongationModel.update
      rw [if_neg hb, hk]
    have fin : ∀ (x : ElongationModel) (l : ℝ × ℝ), x.cable = some k → x.state = m.state → x.stretch = m.stretch →
        loadsOf k m.stretch = .val l → Stretched k m.stretch l m.state.type x → m.update = x.finishUpdate k →
        (∃ l o m', loadsOf k m.stretch = .val l ∧ readOf k m.state m.stretch l = .val o ∧ m.update = .ok m' () ∧
          Good k m' ∧ m'.cable = some k ∧ m'.state = m.state ∧ m'.stretch = m.stretch ∧
          m'.isUpdatedStretch = true ∧ m'.isUpdatedState = true ∧
          HasBoth k m.state m.stretch l m' ∧ m'.regions = pointsOf k m.state o) ∨
          (knownOf k m.state m.stretch = .ub ∧ m.update = .ub) := by
      intro x l e1 e2 e3 e4 e5 e6
      unfold finishUpdate at e6
      have e5' : Stretched k m.stretch l x.state.type { x with isUpdatedStretch := true } := by rw [e2]; exact e5
      rcases updateComponentsState_has e5' with ⟨o, m', a, b, c, d, e⟩ | ⟨a, b⟩
      · simp only [b] at e6
        rw [e2] at a c e
        obtain ⟨g1, g2, g3, g4, g5, g6⟩ := updateComponentsState_ok b
        have c' : HasBoth k m.state m.stretch l { m' with isUpdatedState := true } := c
        refine Or.inl ⟨l, o, _, e4, a, e6, ?_, g1.trans e1, g2.trans e2, g3.trans e3, g5, rfl, c', e⟩
        have s1 : ({ m' with isUpdatedState := true } : ElongationModel).state = m.state := g2.trans e2
        have s2 : ({ m' with isUpdatedState := true } : ElongationModel).stretch = m.stretch := g3.trans e3
        refine ⟨c'.att, fun _ => g5, fun _ => ?_, fun _ => ?_⟩
        · rw [s1, s2]; exact ⟨l, e4, c'.stretched⟩
        · rw [s1, s2]; exact ⟨l, o, e4, a, c', e⟩
      · simp only [b] at e6
        rw [e2] at a
        refine Or.inr ⟨?_, e6⟩
        unfold knownOf
        rw [e4]
        exact a
    unfold updateWith at hu
    by_cases hst : m.isUpdatedStretch = false
    · rw [if_pos hst] at hu
      rcases updateComponentsStretch_has G.att m.state.type with ⟨l, x, a, b, c⟩ | ⟨a, b⟩
      · rw [b] at hu
        obtain ⟨g1, g2, g3, g4, g5⟩ := updateComponentsStretch_ok b
        exact fin x l (g1.trans hk) g2 g3 a c hu
      · rw [b] at hu
        refine Or.inr ⟨?_, hu⟩
        unfold knownOf
        rw [a]
    · rw [if_neg hst] at hu
      obtain ⟨l, a, b⟩ := G.stretched (by simpa using hst)
      exact fin m l hk rfl rfl a b hu

/-- The answer of a part. -/
noncomputable def partOf (body : CableComponent → PolynomialType → Regions → ℝ → ℝ → ℝ) (k : Cable)
    (s : CableState) (o : Option (ℝ × Regions) × Option (ℝ × Regions)) (x : ℝ) : ElongationPart → ℝ
  | .combined => bothOf body k s o x
  | .core => ansOf body k.core s o.1 x
  | .shell => ansOf body k.shell s o.2 x

/-- The inputs of the object are those of the other. -/
def SameSettings (m m' : ElongationModel) : Prop :=
  m'.cable = m.cable ∧ m'.state = m.state ∧ m'.stretch = m.stretch

/-- Reading from an updated object that satisfies the invariant. -/
theorem good_read {k : Cable} {m : ElongationModel} {l o} (hl : loadsOf k m.stretch = .val l)
    (ho : readOf k m.state m.stretch l = .val o) (hf : m.isUpdatedStretch = true)
    (hr : m.regions = pointsOf k m.state o) :
    ∀ m' : ElongationModel, HasBoth k m.state m.stretch l m' → m'.state = m.state → m'.stretch = m.stretch →
      m'.isUpdatedStretch = m.isUpdatedStretch → m'.regions = m.regions → Good k m' := by
  intro m' h e1 e2 e3 e4
  refine ⟨h.att, fun _ => e3.trans hf, fun _ => ?_, fun _ => ?_⟩
  · rw [e1, e2]; exact ⟨l, hl, h.stretched⟩
  · rw [e1, e2, e4]; exact ⟨l, o, hl, ho, h, hr⟩

theorem read_touch {k : Cable} {s : CableState} {ss : CableStretchState} {l : ℝ × ℝ} {o}
    {m : ElongationModel} (h : HasBoth k s ss l m) (ho : readOf k s ss l = .val o) :
    ∃ c d, touch k.core m.core = .ok c () ∧ touch k.shell m.shell = .ok d () ∧
      m.touchBoth k = .ok { m with core := c, shell := d } () ∧
      Has k.core k.temperatureProperties s { ss with load := l.1 } c ∧
      Has k.shell k.temperatureProperties s { ss with load := l.2 } d ∧
      Knows k.core s o.1 c ∧ Knows k.shell s o.2 d := by
  rcases touchBoth_has h with ⟨o', c, d, a, b1, b2, b, e, f⟩ | ⟨a, b⟩
  · rw [ho] at a
    cases a
    exact ⟨c, d, b1, b2, b, e.1, e.2, f.1, f.2⟩
  · rw [ho] at a; cases a

theorem Good.ask {k : Cable} {m : ElongationModel} (G : Good k m) (hk : m.cable = some k)
    (body : CableComponent → PolynomialType → Regions → ℝ → ℝ → ℝ) (t : ElongationPart) (x : ℝ) :
    (∃ o m', knownOf k m.state m.stretch = .val o ∧ m.askPart body t x = .ok m' (partOf body k m.state o x t) ∧
      Good k m' ∧ SameSettings m m') ∨
      (knownOf k m.state m.stretch = .ub ∧ m.askPart body t x = .ub) := by
  unfold askPart updated
  rcases G.update hk with ⟨l, o, m1, a, b, c, G1, e1, e2, e3, f1, f2, g, r⟩ | ⟨a, b⟩
  · rw [c]
    simp only
    rw [e1]
    simp only
    have hkn : knownOf k m.state m.stretch = .val o := by unfold knownOf; rw [a]; exact b
    obtain ⟨cc, dd, h1, h2, h3, h4, h5, h6, h7⟩ := read_touch g b
    have R := good_read (m := m1) (k := k) (l := l) (o := o) (by rw [e3]; exact a) (by rw [e2, e3]; exact b) f1
      (by rw [e2]; exact r)
    rw [e2, e3] at R
    left
    cases t with
    | combined =>
      simp only
      unfold readBoth
      rw [h3]
      refine ⟨o, _, hkn, ?_, R { m1 with core := cc, shell := dd } ⟨h4, h5⟩ e2 e3 rfl rfl, e1.trans hk.symm, e2, e3⟩
      simp only [partOf]
      rw [KnowsBoth.both (m := { m1 with core := cc, shell := dd }) ⟨h6, h7⟩]
    | core =>
      simp only
      unfold readCore
      rw [h1]
      refine ⟨o, _, hkn, ?_, R { m1 with core := cc } ⟨h4, g.2⟩ e2 e3 rfl rfl, e1.trans hk.symm, e2, e3⟩
      simp only [partOf]
      rw [h6.1]
    | shell =>
      simp only
      unfold readShell
      rw [h2]
      refine ⟨o, _, hkn, ?_, R { m1 with shell := dd } ⟨g.1, h5⟩ e2 e3 rfl rfl, e1.trans hk.symm, e2, e3⟩
      simp only [partOf]
      rw [h7.1]
  · rw [b]
    exact Or.inr ⟨a, rfl⟩

/-- The strain of a part. -/
noncomputable def strainOf (k : Cable) (s : CableState) (o : Option (ℝ × Regions) × Option (ℝ × Regions)) (l : ℝ) :
    ElongationPart → Res ℝ
  | .combined => strainCombined (bothOf CableComponent.load k s o) (pointsOf k s o) l
  | .core => .val (ansOf CableComponent.strain k.core s o.1 l)
  | .shell => .val (ansOf CableComponent.strain k.shell s o.2 l)

theorem strainCombined_not_throws (f : ℝ → ℝ) (r : List V2) (l : ℝ) : strainCombined f r l ≠ .throws := by
  unfold strainCombined
  split <;> try (rintro ⟨⟩; done)
  rename_i hx
  intro _
  unfold strainStart at hx
  revert hx
  split
  · split_ifs
    · rintro ⟨⟩
    · rintro ⟨⟩
    · split <;> rintro ⟨⟩
  · rintro ⟨⟩

theorem Good.strain {k : Cable} {m : ElongationModel} (G : Good k m) (hk : m.cable = some k)
    (t : ElongationPart) (y : ℝ) :
    (∃ o x m', knownOf k m.state m.stretch = .val o ∧ strainOf k m.state o y t = .val x ∧ m.strain t y = .ok m' x ∧
      Good k m' ∧ SameSettings m m') ∨
      ((∃ o, knownOf k m.state m.stretch = .val o ∧ strainOf k m.state o y t = .ub) ∧ m.strain t y = .ub) ∨
      (knownOf k m.state m.stretch = .ub ∧ m.strain t y = .ub) := by
  unfold ElongationModel.strain updated
  rcases G.update hk with ⟨l, o, m1, a, b, c, G1, e1, e2, e3, f1, f2, g, r⟩ | ⟨a, b⟩
  · rw [c]
    simp only
    rw [e1]
    simp only
    have hkn : knownOf k m.state m.stretch = .val o := by unfold knownOf; rw [a]; exact b
    obtain ⟨cc, dd, h1, h2, h3, h4, h5, h6, h7⟩ := read_touch g b
    have R := good_read (m := m1) (k := k) (l := l) (o := o) (by rw [e3]; exact a) (by rw [e2, e3]; exact b) f1
      (by rw [e2]; exact r)
    rw [e2, e3] at R
    cases t with
    | combined =>
      simp only
      unfold askStrain
      cases hh : m1.regions.head? with
      | none =>
        right; left
        refine ⟨⟨o, hkn, ?_⟩, rfl⟩
        unfold strainOf strainCombined strainStart
        rw [← r, hh]
      | some p =>
        simp only
        split_ifs with hl
        · left
          refine ⟨o, p.x, m1, hkn, ?_, rfl, G1, e1.trans hk.symm, e2, e3⟩
          unfold strainOf strainCombined strainStart
          rw [← r, hh]
          have : ∃ q, m1.regions.getLast? = some q := by
            cases hq : m1.regions with
            | nil => rw [hq] at hh; cases hh
            | cons a as => exact ⟨_, List.getLast?_cons⟩
          obtain ⟨q, hq⟩ := this
          rw [hq]
          simp only
          rw [if_pos hl]
        · rw [h3]
          simp only
          have hb : (ElongationModel.both CableComponent.load k { m1 with core := cc, shell := dd }) =
              bothOf CableComponent.load k m.state o := by
            funext x
            exact KnowsBoth.both (m := { m1 with core := cc, shell := dd }) ⟨h6, h7⟩ _ x
          rw [hb, r]
          cases hs : strainCombined (bothOf CableComponent.load k m.state o) (pointsOf k m.state o) y with
          | val x =>
            left
            exact ⟨o, x, _, hkn, hs, rfl, R { m1 with core := cc, shell := dd, regions := pointsOf k m.state o }
              ⟨h4, h5⟩ e2 e3 rfl r.symm, e1.trans hk.symm, e2, e3⟩
          | throws => exact absurd hs (strainCombined_not_throws _ _ _)
          | ub =>
            right; left
            exact ⟨⟨o, hkn, hs⟩, rfl⟩
    | core =>
      left
      simp only
      unfold readCore
      rw [h1]
      refine ⟨o, _, _, hkn, rfl, ?_, R { m1 with core := cc } ⟨h4, g.2⟩ e2 e3 rfl rfl, e1.trans hk.symm, e2, e3⟩
      rw [← h6.1]
    | shell =>
      left
      simp only
      unfold readShell
      rw [h2]
      refine ⟨o, _, _, hkn, rfl, ?_, R { m1 with shell := dd } ⟨g.1, h5⟩ e2 e3 rfl rfl, e1.trans hk.symm, e2, e3⟩
      rw [← h7.1]
  · rw [b]
    exact Or.inr (Or.inr ⟨a, rfl⟩)

/-! ## Every call keeps the component models attached -/

/-- Cable, state, stretch, components and reference temperatures are the same. -/
def SameAtt (m m' : ElongationModel) : Prop :=
  (m'.cable, m'.state, m'.stretch) = (m.cable, m.state, m.stretch) ∧ (m'.core.component = m.core.component ∧ m'.core.reference = m.core.reference) ∧
    m'.shell.component = m.shell.component ∧ m'.shell.reference = m.shell.reference

theorem SameAtt.refl (m : ElongationModel) : SameAtt m m := ⟨rfl, ⟨rfl, rfl⟩, rfl, rfl⟩

theorem SameAtt.trans {a b c : ElongationModel} (h : SameAtt a b) (g : SameAtt b c) : SameAtt a c :=
  ⟨g.1.trans h.1, ⟨g.2.1.1.trans h.2.1.1, g.2.1.2.trans h.2.1.2⟩, g.2.2.1.trans h.2.2.1, g.2.2.2.trans h.2.2.2⟩

theorem SameAtt.cable {m m' : ElongationModel} (h : SameAtt m m') : m'.cable = m.cable := congrArg Prod.fst h.1

theorem SameAtt.state {m m' : ElongationModel} (h : SameAtt m m') : m'.state = m.state :=
  congrArg (fun p => p.2.1) h.1

theorem SameAtt.stretch {m m' : ElongationModel} (h : SameAtt m m') : m'.stretch = m.stretch :=
  congrArg (fun p => p.2.2) h.1

theorem SameAtt.att {k : Cable} {m m' : ElongationModel} (h : SameAtt m m') (A : Att k m) : Att k m' :=
  ⟨fun he => ⟨h.2.1.1.trans (A.1 he).1, h.2.1.2.trans (A.1 he).2⟩,
    fun he => ⟨h.2.2.1.trans (A.2 he).1, h.2.2.2.trans (A.2 he).2⟩⟩

/-- Whatever object the call leaves is attached as `m` is. -/
def Keeps {A : Type} (m : ElongationModel) (o : Outcome ElongationModel A) : Prop :=
  ∀ m', o.state? = some m' → SameAtt m m'

theorem Keeps.ok {A : Type} {m m' : ElongationModel} {a : A} (h : SameAtt m m') : Keeps m (.ok m' a) := by
  intro x e; cases e; exact h

theorem Keeps.throws {A : Type} {m m' : ElongationModel} (h : SameAtt m m') :
    Keeps (A := A) m (.throws m') := by
  intro x e; cases e; exact h

theorem Keeps.ub {A : Type} {m : ElongationModel} : Keeps (A := A) m .ub := by
  intro x e; cases e

theorem Keeps.of_ok {A : Type} {m m' : ElongationModel} {a : A} {o} (h : Keeps m o) (e : o = .ok m' a) :
    SameAtt m m' := h m' (by rw [e]; rfl)

theorem Keeps.of_throws {A : Type} {m m' : ElongationModel} {o : Outcome ElongationModel A} (h : Keeps m o)
    (e : o = .throws m') : SameAtt m m' := h m' (by rw [e]; rfl)

theorem Keeps.mono {A : Type} {m m' : ElongationModel} {o : Outcome ElongationModel A} (h : Keeps m' o)
    (g : SameAtt m m') : Keeps m o := fun x e => g.trans (h x e)

theorem touch_keeps {c : CableComponent} {m m' : ComponentModel} (h : (touch c m).state? = some m') :
    m'.component = m.component ∧ m'.reference = m.reference := by
  unfold touch at h
  split_ifs at h
  · cases hu : m.update with
    | ok x b => rw [hu] at h; cases h; have := update_pointers hu; exact ⟨this.1, this.2.2.2⟩
    | throws x => rw [hu] at h; cases h; have := update_pointers_throws hu; exact ⟨this.1, this.2.2.2⟩
    | ub => rw [hu] at h; cases h
  · cases h; exact ⟨rfl, rfl⟩

theorem touchBoth_keeps (k : Cable) (m : ElongationModel) : Keeps m (m.touchBoth k) := by
  unfold touchBoth
  cases h1 : touch k.core m.core with
  | ok c u =>
    have a := touch_keeps (m' := c) (by rw [h1]; rfl)
    cases h2 : touch k.shell m.shell with
    | ok d u => exact Keeps.ok ⟨rfl, a, touch_keeps (m' := d) (by rw [h2]; rfl)⟩
    | throws d => exact Keeps.throws ⟨rfl, a, touch_keeps (m' := d) (by rw [h2]; rfl)⟩
    | ub => exact Keeps.ub
  | throws c =>
    exact Keeps.throws ⟨rfl, touch_keeps (m' := c) (by rw [h1]; rfl), rfl, rfl⟩
  | ub => exact Keeps.ub

theorem updatePointsRegions_keeps (k : Cable) (m : ElongationModel) : Keeps m (m.updatePointsRegions k) := by
  unfold updatePointsRegions
  have := touchBoth_keeps k m
  cases h : m.touchBoth k with
  | ok x u =>
    have a := this.of_ok h
    exact Keeps.ok a
  | throws x => exact Keeps.throws (this.of_throws h)
  | ub => exact Keeps.ub

theorem giveState_keeps (s : CableState) (c : CableComponent) (m : ComponentModel) :
    (giveState s c m).component = m.component ∧ (giveState s c m).reference = m.reference := by
  unfold giveState; split_ifs <;> exact ⟨rfl, rfl⟩

theorem giveStretch_keeps (s : CableStretchState) (c : CableComponent) (m : ComponentModel) :
    (giveStretch s c m).component = m.component ∧ (giveStretch s c m).reference = m.reference := by
  unfold giveStretch; split_ifs <;> exact ⟨rfl, rfl⟩

theorem updateComponentsState_keeps (k : Cable) (s : CableState) (m : ElongationModel) :
    Keeps m (m.updateComponentsState k s) := by
  unfold updateComponentsState
  exact (updatePointsRegions_keeps k _).mono ⟨rfl, giveState_keeps _ _ _, giveState_keeps _ _ _⟩

theorem updateComponentsStretch_keeps (k : Cable) (m : ElongationModel) :
    Keeps m (m.updateComponentsStretch k) := by
  unfold updateComponentsStretch
  simp only
  split_ifs
  · exact Keeps.ok ⟨rfl, giveStretch_keeps _ _ _, giveStretch_keeps _ _ _⟩
  · have K : Keeps m (updateComponentsState k ⟨m.stretch.temperature, m.stretch.type⟩
        { m with core := giveStretch { m.stretch with load := 0 } k.core m.core
                 shell := giveStretch { m.stretch with load := 0 } k.shell m.shell }) :=
      (updateComponentsState_keeps k _ _).mono ⟨rfl, giveStretch_keeps _ _ _, giveStretch_keeps _ _ _⟩
    split
    · rename_i x hx
      have a := K.of_ok hx
      split
      · exact Keeps.ok (a.trans ⟨rfl, giveStretch_keeps _ _ _, giveStretch_keeps _ _ _⟩)
      · exact Keeps.throws a
      · exact Keeps.ub
    · exact K

theorem finishUpdate_keeps (k : Cable) (m : ElongationModel) : Keeps m (m.finishUpdate k) := by
  unfold finishUpdate
  have K : Keeps m (({ m with isUpdatedStretch := true } : ElongationModel).updateComponentsState k m.state) :=
    (updateComponentsState_keeps k _ _).mono ⟨rfl, ⟨rfl, rfl⟩, rfl, rfl⟩
  split
  · rename_i x hx
    have a := K.of_ok hx
    exact Keeps.ok a
  · exact K

theorem update_keeps (m : ElongationModel) : Keeps m m.update := by
  unfold update
  split_ifs
  · exact Keeps.ok (SameAtt.refl m)
  · split
    · exact Keeps.ub
    · rename_i k _
      unfold updateWith
      have K : Keeps m (if m.isUpdatedStretch = false then m.updateComponentsStretch k else .ok m ()) := by
        split_ifs
        · exact updateComponentsStretch_keeps k m
        · exact Keeps.ok (SameAtt.refl m)
      split
      · rename_i x hx
        exact (finishUpdate_keeps k x).mono (K.of_ok hx)
      · exact K

theorem updated_keeps {A : Type} {m : ElongationModel} {f : Cable → ElongationModel → Outcome ElongationModel A}
    (h : ∀ k x, Keeps x (f k x)) : Keeps m (m.updated f) := by
  unfold updated
  have K := update_keeps m
  cases hu : m.update with
  | ok x u =>
    simp only
    split
    · exact (h _ x).mono (K.of_ok hu)
    · exact Keeps.ub
  | throws x => exact Keeps.throws (K.of_throws hu)
  | ub => exact Keeps.ub

theorem readCore_keeps {A : Type} (k : Cable) (m : ElongationModel) (f : ComponentModel → A) :
    Keeps m (m.readCore k f) := by
  unfold readCore
  cases h1 : touch k.core m.core with
  | ok c u => exact Keeps.ok ⟨rfl, touch_keeps (m' := c) (by rw [h1]; rfl), rfl, rfl⟩
  | throws c => exact Keeps.throws ⟨rfl, touch_keeps (m' := c) (by rw [h1]; rfl), rfl, rfl⟩
  | ub => exact Keeps.ub

theorem readShell_keeps {A : Type} (k : Cable) (m : ElongationModel) (f : ComponentModel → A) :
    Keeps m (m.readShell k f) := by
  unfold readShell
  cases h1 : touch k.shell m.shell with
  | ok c u => exact Keeps.ok ⟨rfl, ⟨rfl, rfl⟩, touch_keeps (m' := c) (by rw [h1]; rfl)⟩
  | throws c => exact Keeps.throws ⟨rfl, ⟨rfl, rfl⟩, touch_keeps (m' := c) (by rw [h1]; rfl)⟩
  | ub => exact Keeps.ub

theorem readBoth_keeps {A : Type} (k : Cable) (m : ElongationModel) (f : ElongationModel → A) :
    Keeps m (m.readBoth k f) := by
  unfold readBoth
  have K := touchBoth_keeps k m
  cases h : m.touchBoth k with
  | ok x u => exact Keeps.ok (K.of_ok h)
  | throws x => exact Keeps.throws (K.of_throws h)
  | ub => exact Keeps.ub

theorem askPart_keeps (body t x) (m : ElongationModel) : Keeps m (m.askPart body t x) := by
  unfold askPart
  refine updated_keeps fun k y => ?_
  cases t
  · exact readBoth_keeps _ _ _
  · exact readCore_keeps _ _ _
  · exact readShell_keeps _ _ _

theorem strain_keeps (t l) (m : ElongationModel) : Keeps m (m.strain t l) := by
  unfold ElongationModel.strain
  refine updated_keeps fun k y => ?_
  cases t
  · simp only
    unfold askStrain
    split
    · exact Keeps.ub
    · split_ifs
      · exact Keeps.ok (SameAtt.refl y)
      · have K := touchBoth_keeps k y
        split
        · rename_i x hx
          split
          · exact Keeps.ok (K.of_ok hx)
          · exact Keeps.throws (K.of_ok hx)
          · exact Keeps.ub
        · rename_i x hx; exact Keeps.throws (K.of_throws hx)
        · exact Keeps.ub
  · exact readCore_keeps _ _ _
  · exact readShell_keeps _ _ _

theorem validateStrainLimit_keeps (k : Cable) (m : ElongationModel) : Keeps m (m.validateStrainLimit k) := by
  unfold validateStrainLimit
  have K := updateComponentsState_keeps k ⟨k.temperatureProperties, .loadStrain⟩ m
  split
  · rename_i x hx
    have a := K.of_ok hx
    split
    · split
      · simp only
        have K' := (updateComponentsState_keeps k x.state x).mono a
        split
        · rename_i hy; exact Keeps.ok (K'.of_ok hy)
        · rename_i hy; exact Keeps.throws (K'.of_throws hy)
        · exact Keeps.ub
      · exact Keeps.ub
    · exact Keeps.throws a
    · exact Keeps.ub
  · rename_i x hx; exact Keeps.throws (K.of_throws hx)
  · exact Keeps.ub

theorem validateStrainUnloaded_keeps (k : Cable) (m : ElongationModel) :
    Keeps m (m.validateStrainUnloaded k) := by
  unfold validateStrainUnloaded
  split_ifs
  · simp only
    have K : Keeps m (touchBoth k { m with
        core := (m.core.setState (some ⟨k.temperatureProperties, .loadStrain⟩)).setStretch
          (some ⟨k.temperatureProperties, .loadStrain, 0⟩)
        shell := (m.shell.setState (some ⟨k.temperatureProperties, .loadStrain⟩)).setStretch
          (some ⟨k.temperatureProperties, .loadStrain, 0⟩) }) :=
      (touchBoth_keeps k _).mono ⟨rfl, ⟨rfl, rfl⟩, rfl, rfl⟩
    split
    · rename_i x hx
      exact Keeps.ok ((K.of_ok hx).trans ⟨rfl, ⟨rfl, rfl⟩, rfl, rfl⟩)
    · rename_i x hx; exact Keeps.throws (K.of_throws hx)
    · exact Keeps.ub
  · exact Keeps.ok (SameAtt.refl m)

theorem component_validate_keeps {w : Bool} {m m' : ComponentModel} (h : (m.validate w).state? = some m') :
    m'.component = m.component ∧ m'.reference = m.reference := by
  unfold ComponentModel.validate at h
  revert h
  split
  · split_ifs
    · cases hu : m.update with
      | ok m1 b =>
        have := update_pointers hu
        cases b <;> intro h <;> cases h <;> exact ⟨this.1, this.2.2.2⟩
      | throws m1 =>
        have := update_pointers_throws hu
        intro h; cases h; exact ⟨this.1, this.2.2.2⟩
      | ub => intro h; cases h
    · intro h; cases h; exact ⟨rfl, rfl⟩
  · intro h; cases h; exact ⟨rfl, rfl⟩

open Classical in
theorem validate_part_keeps {w : Bool} {c : CableComponent} {m m' : ComponentModel}
    (h : ((if c.Enabled then m.validate w else .ok m true : Outcome ComponentModel Bool)).state? = some m') :
    m'.component = m.component ∧ m'.reference = m.reference := by
  split_ifs at h
  · exact component_validate_keeps h
  · cases h; exact ⟨rfl, rfl⟩

theorem validateComponents_keeps (w : Bool) (k : Cable) (m : ElongationModel) :
    Keeps m (validateComponents w k m) := by
  unfold validateComponents
  by_cases h0 : k.core.Enabled ∨ k.shell.Enabled
  · rw [if_neg (not_not.2 h0)]
    split
    · rename_i c v1 h1
      have a := validate_part_keeps (m' := c) (by rw [h1]; rfl)
      simp only
      split
      · rename_i d v2 h2
        have b := validate_part_keeps (m' := d) (by rw [h2]; rfl)
        have ab : SameAtt m { m with core := c, shell := d } := ⟨rfl, a, b⟩
        split_ifs
        · exact Keeps.ok ab
        · have K := (validateStrainLimit_keeps k { m with core := c, shell := d }).mono ab
          split
          · rename_i x v3 h3
            have K' := (validateStrainUnloaded_keeps k x).mono (K.of_ok h3)
            split
            · rename_i y v4 h4
              exact Keeps.ok (K'.of_ok h4)
            · exact K'
          · exact K
      · rename_i d h2
        exact Keeps.throws ⟨rfl, a, validate_part_keeps (m' := d) (by rw [h2]; rfl)⟩
      · exact Keeps.ub
    · rename_i c h1
      exact Keeps.throws ⟨rfl, validate_part_keeps (m' := c) (by rw [h1]; rfl), rfl, rfl⟩
    · exact Keeps.ub
  · rw [if_pos h0]
    exact Keeps.ok (SameAtt.refl m)

theorem validate_keeps (w : Bool) (m : ElongationModel) : Keeps m (m.validate w) := by
  unfold ElongationModel.validate
  split
  · exact Keeps.ok (SameAtt.refl m)
  · split_ifs
    · exact updated_keeps fun k x => validateComponents_keeps w k x
    · exact Keeps.ok (SameAtt.refl m)

theorem attach_att (k : Cable) (m : ElongationModel) : ∀ k', (m.setCable (some k)).cable = some k' →
    Att k' (m.setCable (some k)) := by
  intro k' h
  cases h
  refine ⟨fun he => ?_, fun he => ?_⟩
  · show (attach k k.core m.core).component = _ ∧ (attach k k.core m.core).reference = _
    unfold attach; rw [if_pos he]; exact ⟨rfl, rfl⟩
  · show (attach k k.shell m.shell).component = _ ∧ (attach k k.shell m.shell).reference = _
    unfold attach; rw [if_pos he]; exact ⟨rfl, rfl⟩

/-- After any history the component models belong to the cable. -/
theorem run_att {calls : List Call} : ∀ {m m' : ElongationModel}, (∀ k, m.cable = some k → Att k m) →
    run m calls = some m' → ∀ k, m'.cable = some k → Att k m' := by
  induction calls with
  | nil => intro m m' h e; cases e; exact h
  | cons c cs ih =>
    intro m m' h e
    unfold run at e
    cases hn : c.next m with
    | none => rw [hn] at e; cases e
    | some m1 =>
      rw [hn] at e
      refine ih ?_ e
      have q : SameAtt m m1 → ∀ k, m1.cable = some k → Att k m1 := fun s k hk => s.att (h k (s.cable.symm.trans hk))
      cases c with
      | setCable k =>
        cases hn
        cases k with
        | none => intro k hk; cases hk
        | some k => exact attach_att k m
      | setState s => cases hn; exact fun k hk => h k hk
      | setStretch s => cases hn; exact fun k hk => h k hk
      | load t x => exact q (askPart_keeps _ _ _ _ _ hn)
      | slope t x => exact q (askPart_keeps _ _ _ _ _ hn)
      | strain t x => exact q (strain_keeps _ _ _ _ hn)
      | validate w => exact q (validate_keeps _ _ _ hn)

end ElongationModel

end Verif
