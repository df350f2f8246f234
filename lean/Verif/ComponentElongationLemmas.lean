import Verif.ComponentElongation
import Verif.PolynomialLemmas
import Mathlib.Tactic.NormNum
import Mathlib.Tactic.Linarith
import Mathlib.Tactic.FieldSimp

/-! # Lemmas about the component elongation model -/

set_option linter.unusedSectionVars false

namespace Verif

open Verif.Poly

namespace ComponentModel

/-- The result of an update, as a function of what the pointers point to: the stretch load. -/
noncomputable def stretchOf (c : CableComponent) (t : ℝ) (s : CableState) (ss : CableStretchState) :
    Res (Option ℝ) :=
  match new.updateStretch c t s ss with
  | .ok m true => .val (some m.loadStretch)
  | .ok _ false => .val none
  | .throws _ => .throws
  | .ub => .ub

/-- The thermal strain and points after an update. -/
noncomputable def regionsOf (c : CableComponent) (t : ℝ) (s : CableState) (loadStretch : ℝ) :
    Res (ℝ × Regions) :=
  match ({ new with loadStretch := loadStretch }).updateState c t s with
  | .ok m _ => .val (m.thermalState, m.points)
  | .throws _ => .throws
  | .ub => .ub

/-- The full result of an update, as a function of what the pointers point to. -/
noncomputable def spec (c : CableComponent) (t : ℝ) (s : CableState) (ss : CableStretchState) :
    Res (Option (ℝ × ℝ × Regions)) :=
  match stretchOf c t s ss with
  | .val (some l) =>
    match regionsOf c t s l with
    | .val (th, r) => .val (some (l, th, r))
    | .throws => .throws
    | .ub => .ub
  | .val none => .val none
  | .throws => .throws
  | .ub => .ub

/-- What `updateStretch` does to any object. -/
theorem updateStretch_cases (m : ComponentModel) (c : CableComponent) (t : ℝ) (s : CableState)
    (ss : CableStretchState) :
    (∃ l, stretchOf c t s ss = .val (some l) ∧ m.updateStretch c t s ss = .ok { m with loadStretch := l } true) ∨
    (∃ l, stretchOf c t s ss = .val none ∧ m.updateStretch c t s ss = .ok { m with loadStretch := l } false) ∨
    (stretchOf c t s ss = .throws ∧ m.updateStretch c t s ss = .throws m) := by
  unfold stretchOf updateStretch
  split_ifs with h1 h2 h3
  · exact Or.inl ⟨0, by trivial, by trivial⟩
  · exact Or.inl ⟨ss.load, by trivial, by trivial⟩
  · exact Or.inr (Or.inr ⟨by trivial, by trivial⟩)
  · cases h4 : ss.type <;> cases h5 : s.type <;> simp only
    · exact Or.inr (Or.inl ⟨m.loadStretch, by trivial, by trivial⟩)
    · exact Or.inr (Or.inl ⟨m.loadStretch, by trivial, by trivial⟩)
    · exact Or.inr (Or.inl ⟨m.loadStretch, by trivial, by trivial⟩)
    · exact Or.inr (Or.inl ⟨m.loadStretch, by trivial, by trivial⟩)
    · cases h6 : c.transferStretch _ _ _ PolynomialType.creep PolynomialType.creep ss.load
      · exact Or.inr (Or.inl ⟨_, by trivial, by trivial⟩)
      · exact Or.inl ⟨_, by trivial, by trivial⟩
    · cases h6 : c.transferStretch _ _ _ PolynomialType.creep PolynomialType.loadStrain ss.load
      · exact Or.inr (Or.inl ⟨_, by trivial, by trivial⟩)
      · exact Or.inl ⟨_, by trivial, by trivial⟩
    · exact Or.inr (Or.inl ⟨m.loadStretch, by trivial, by trivial⟩)
    · cases h6 : c.transferStretch _ _ _ PolynomialType.loadStrain PolynomialType.creep ss.load
      · exact Or.inr (Or.inl ⟨_, by trivial, by trivial⟩)
      · exact Or.inl ⟨_, by trivial, by trivial⟩
    · cases h6 : c.transferStretch _ _ _ PolynomialType.loadStrain PolynomialType.loadStrain ss.load
      · exact Or.inr (Or.inl ⟨_, by trivial, by trivial⟩)
      · exact Or.inl ⟨_, by trivial, by trivial⟩

theorem updateStretch_again {m m' : ComponentModel} {c : CableComponent} {t : ℝ} {s : CableState}
    {ss : CableStretchState} (h : m.updateStretch c t s ss = .ok m' false) :
    m'.updateStretch c t s ss = .ok m' false := by
  unfold updateStretch at h ⊢
  split_ifs at h ⊢ with g1 g2 g3
  · cases h
  · cases h
  · cases h5 : ss.type <;> cases h6 : s.type <;> simp only [h5, h6] at h ⊢ <;>
      first
      | cases h
      | (revert h; split <;> intro h <;> cases h; rfl)

/-- What `updateState` does to any object. -/
theorem updateState_cases (m : ComponentModel) (c : CableComponent) (t : ℝ) (s : CableState) :
    (∃ th r, regionsOf c t s m.loadStretch = .val (th, r) ∧
      m.updateState c t s = .ok { m with thermalState := th, points := r } true) ∨
    (regionsOf c t s m.loadStretch = .throws ∧ m.updateState c t s = .throws m) ∨
    (regionsOf c t s m.loadStretch = .ub ∧ m.updateState c t s = .ub) := by
  unfold regionsOf updateState
  cases h1 : c.coefficients s.type <;> cases h2 : c.limit s.type <;> simp only
  · exact Or.inr (Or.inr ⟨by trivial, by trivial⟩)
  · exact Or.inr (Or.inr ⟨by trivial, by trivial⟩)
  · exact Or.inr (Or.inr ⟨by trivial, by trivial⟩)
  · split_ifs with h3
    · exact Or.inr (Or.inl ⟨by trivial, by trivial⟩)
    · exact Or.inl ⟨_, _, by trivial, by trivial⟩

/-- The cached data belong to what the pointers point to. -/
structure Clean (m : ComponentModel) : Prop where
  order : m.isUpdatedState = true → m.isUpdatedStretch = true
  set : m.isUpdatedStretch = true → (∃ c, m.component = some c) ∧ (∃ t, m.reference = some t) ∧
    ∃ ss, m.stretch = some ss
  stateSet : m.isUpdatedState = true → ∃ s, m.state = some s
  load : ∀ c t s ss, m.component = some c → m.reference = some t → m.state = some s → m.stretch = some ss →
    m.isUpdatedStretch = true → stretchOf c t s ss = .val (some m.loadStretch)
  points : ∀ c t s, m.component = some c → m.reference = some t → m.state = some s →
    m.isUpdatedState = true → regionsOf c t s m.loadStretch = .val (m.thermalState, m.points)

/-- The pointers are the same. -/
def SamePointers (m m' : ComponentModel) : Prop :=
  m'.component = m.component ∧ m'.state = m.state ∧ m'.stretch = m.stretch ∧ m'.reference = m.reference

theorem SamePointers.refl (m : ComponentModel) : SamePointers m m := ⟨rfl, rfl, rfl, rfl⟩

theorem SamePointers.trans {a b c : ComponentModel} (h : SamePointers a b) (h' : SamePointers b c) :
    SamePointers a c :=
  ⟨h'.1.trans h.1, h'.2.1.trans h.2.1, h'.2.2.1.trans h.2.2.1, h'.2.2.2.trans h.2.2.2⟩

/-- An update of a clean object. -/
theorem Clean.update {m : ComponentModel} (C : Clean m) {c t s ss} (h1 : m.component = some c)
    (h2 : m.reference = some t) (h3 : m.state = some s) (h4 : m.stretch = some ss) :
    (∃ l th r m', spec c t s ss = .val (some (l, th, r)) ∧ m.update = .ok m' true ∧ SamePointers m m' ∧ Clean m' ∧
      m'.isUpdatedState = true ∧ m'.isUpdatedStretch = true ∧ m'.loadStretch = l ∧ m'.thermalState = th ∧
      m'.points = r) ∨
    (∃ m', spec c t s ss = .val none ∧ m.update = .ok m' false ∧ SamePointers m m' ∧ Clean m' ∧
      m'.isUpdatedState = false ∧ m'.isUpdatedStretch = false) ∨
    (∃ m', spec c t s ss = .throws ∧ m.update = .throws m' ∧ SamePointers m m' ∧ Clean m') ∨
    (spec c t s ss = .ub ∧ m.update = .ub) := by
  have aux : ∀ m1 : ComponentModel, SamePointers m m1 → stretchOf c t s ss = .val (some m1.loadStretch) →
      m1.isUpdatedState = false →
      m1.finishUpdate c t s = m.update →
    (∃ l th r m', spec c t s ss = .val (some (l, th, r)) ∧ m.update = .ok m' true ∧ SamePointers m m' ∧ Clean m' ∧
      m'.isUpdatedState = true ∧ m'.isUpdatedStretch = true ∧ m'.loadStretch = l ∧ m'.thermalState = th ∧
      m'.points = r) ∨
    (∃ m', spec c t s ss = .val none ∧ m.update = .ok m' false ∧ SamePointers m m' ∧ Clean m' ∧
      m'.isUpdatedState = false ∧ m'.isUpdatedStretch = false) ∨
    (∃ m', spec c t s ss = .throws ∧ m.update = .throws m' ∧ SamePointers m m' ∧ Clean m') ∨
    (spec c t s ss = .ub ∧ m.update = .ub) := by
    intro m1 P e hf hu
    obtain ⟨p1, p2, p3, p4⟩ := id P
    have q1 : m1.component = some c := p1.trans h1
    have q2 : m1.state = some s := p2.trans h3
    have q3 : m1.stretch = some ss := p3.trans h4
    have q4 : m1.reference = some t := p4.trans h2
    have hsp : spec c t s ss = match regionsOf c t s m1.loadStretch with
        | .val (th, r) => .val (some (m1.loadStretch, th, r))
        | .throws => .throws
        | .ub => .ub := by
      unfold spec; rw [e]
    unfold finishUpdate at hu
    rcases updateState_cases m1 c t s with ⟨th, r, a, b⟩ | ⟨a, b⟩ | ⟨a, b⟩
    · rw [b] at hu
      rw [a] at hsp
      refine Or.inl ⟨m1.loadStretch, th, r, _, hsp, hu.symm, ⟨p1, p2, p3, p4⟩, ?_, rfl, rfl, rfl, rfl, rfl⟩
      refine ⟨fun _ => rfl, fun _ => ⟨⟨c, q1⟩, ⟨t, q4⟩, ⟨ss, q3⟩⟩, fun _ => ⟨s, q2⟩, ?_, ?_⟩
      · intro c' t' s' ss' e1 e2 e3 e4 _
        cases q1.symm.trans e1; cases q4.symm.trans e2; cases q2.symm.trans e3; cases q3.symm.trans e4
        exact e
      · intro c' t' s' e1 e2 e3 _
        cases q1.symm.trans e1; cases q4.symm.trans e2; cases q2.symm.trans e3
        exact a
    · rw [b] at hu
      rw [a] at hsp
      refine Or.inr (Or.inr (Or.inl ⟨_, hsp, hu.symm, ⟨p1, p2, p3, p4⟩, ?_⟩))
      have f : ({ m1 with isUpdatedStretch := true } : ComponentModel).isUpdatedState = false := hf
      refine ⟨fun _ => rfl, fun _ => ⟨⟨c, q1⟩, ⟨t, q4⟩, ⟨ss, q3⟩⟩, fun h => ?_, ?_, fun _ _ _ _ _ _ h => ?_⟩
      · rw [f] at h; cases h
      · intro c' t' s' ss' e1 e2 e3 e4 _
        cases q1.symm.trans e1; cases q4.symm.trans e2; cases q2.symm.trans e3; cases q3.symm.trans e4
        exact e
      · rw [f] at h; cases h
    · rw [b] at hu
      rw [a] at hsp
      exact Or.inr (Or.inr (Or.inr ⟨hsp, hu.symm⟩))
  by_cases hb : m.isUpdatedState = true ∧ m.isUpdatedStretch = true
  · have e1 := C.load c t s ss h1 h2 h3 h4 hb.2
    have e2 := C.points c t s h1 h2 h3 hb.1
    refine Or.inl ⟨_, _, _, m, ?_, ?_, SamePointers.refl m, C, hb.1, hb.2, rfl, rfl, rfl⟩
    · unfold spec; rw [e1]; simp only; rw [e2]
    · unfold ComponentModel.update; rw [if_pos hb]
  · have hu : m.update = m.updateWith c t s ss := by
      unfold ComponentModel.update
      rw [if_neg hb, h1, h2, h3, h4]
    unfold updateWith at hu
    by_cases hst : m.isUpdatedStretch = false
    · rw [if_pos hst] at hu
      have hs0 : m.isUpdatedState = false := by
        by_contra h
        have := C.order (by simpa using h)
        rw [hst] at this; cases this
      rcases updateStretch_cases m c t s ss with ⟨l, a, b⟩ | ⟨l, a, b⟩ | ⟨a, b⟩
      · rw [b] at hu
        exact aux { m with loadStretch := l } ⟨rfl, rfl, rfl, rfl⟩ a hs0 hu.symm
      · rw [b] at hu
        refine Or.inr (Or.inl ⟨_, ?_, hu, ⟨rfl, rfl, rfl, rfl⟩, ?_, hs0, hst⟩)
        · unfold spec; rw [a]
        · refine ⟨fun h => ?_, fun h => ?_, fun h => ?_, fun _ _ _ _ _ _ _ _ h => ?_, fun _ _ _ _ _ _ h => ?_⟩
          · exact absurd (hs0.symm.trans h) (by decide)
          · exact absurd (hst.symm.trans h) (by decide)
          · exact absurd (hs0.symm.trans h) (by decide)
          · exact absurd (hst.symm.trans h) (by decide)
          · exact absurd (hs0.symm.trans h) (by decide)
      · rw [b] at hu
        refine Or.inr (Or.inr (Or.inl ⟨_, ?_, hu, SamePointers.refl m, C⟩))
        unfold spec; rw [a]
    · rw [if_neg hst] at hu
      have hst' : m.isUpdatedStretch = true := by simpa using hst
      have hs0 : m.isUpdatedState = false := by
        by_contra h
        exact hb ⟨by simpa using h, hst'⟩
      exact aux m (SamePointers.refl m) (C.load c t s ss h1 h2 h3 h4 hst') hs0 hu.symm

/-- Updating twice is updating once. -/
theorem update_again {m m' : ComponentModel} (C : Clean m) {b : Bool} (h : m.update = .ok m' b) :
    m'.update = .ok m' b := by
  by_cases hp : ∃ c t s ss, m.component = some c ∧ m.reference = some t ∧ m.state = some s ∧ m.stretch = some ss
  · obtain ⟨c, t, s, ss, h1, h2, h3, h4⟩ := hp
    rcases C.update h1 h2 h3 h4 with ⟨l, th, r, m1, a, b1, P, C1, f1, f2, _⟩ | ⟨m1, a, b1, P, C1, f1, f2⟩ |
      ⟨m1, a, b1, _⟩ | ⟨a, b1⟩
    · rw [b1] at h
      cases h
      unfold update
      rw [if_pos ⟨f1, f2⟩]
    · have hs := h
      rw [b1] at h
      cases h
      have hu : m'.update = m'.updateStretch c t s ss := by
        unfold update
        rw [if_neg (by rw [f1]; rintro ⟨h, _⟩; cases h), P.1, P.2.1, P.2.2.1, P.2.2.2, h1, h2, h3, h4]
        simp only
        unfold updateWith
        rw [if_pos f2]
        rcases updateStretch_cases m' c t s ss with ⟨l, e, e'⟩ | ⟨l, e, e'⟩ | ⟨e, e'⟩
        · unfold spec at a
          rw [e] at a
          simp only at a
          revert a
          cases regionsOf c t s l <;> intro a <;> cases a
        · rw [e']
        · rw [e']
      rw [hu]
      -- the first update wrote what the second writes
      have hm : m.isUpdatedStretch = false := by
        by_contra hc
        have hc : m.isUpdatedStretch = true := by simpa using hc
        have e := C.load c t s ss h1 h2 h3 h4 hc
        unfold spec at a
        rw [e] at a
        simp only at a
        revert a
        cases regionsOf c t s m.loadStretch <;> intro a <;> cases a
      have hm' : m.isUpdatedState = false := by
        by_contra hc
        have := C.order (by simpa using hc)
        rw [hm] at this; cases this
      have hu1 : m.update = m.updateStretch c t s ss := by
        unfold update
        rw [if_neg (by rw [hm]; rintro ⟨_, h⟩; cases h), h1, h2, h3, h4]
        simp only
        unfold updateWith
        rw [if_pos hm]
        rcases updateStretch_cases m c t s ss with ⟨l, e, e'⟩ | ⟨l, e, e'⟩ | ⟨e, e'⟩
        · unfold spec at a
          rw [e] at a
          simp only at a
          revert a
          cases regionsOf c t s l <;> intro a <;> cases a
        · rw [e']
        · rw [e']
      rw [hu1] at hs
      exact updateStretch_again hs
    · rw [b1] at h; cases h
    · rw [b1] at h; cases h
  · exfalso
    unfold ComponentModel.update at h
    split_ifs at h with hb
    · obtain ⟨⟨c, h1⟩, ⟨t, h2⟩, ⟨ss, h4⟩⟩ := C.set hb.2
      obtain ⟨s, h3⟩ := C.stateSet hb.1
      exact hp ⟨c, t, s, ss, h1, h2, h3, h4⟩
    · revert h
      split
      · rename_i c t s ss h1 h2 h3 h4
        exact absurd ⟨c, t, s, ss, h1, h2, h3, h4⟩ hp
      · intro h; cases h

theorem clean_flags_false {m : ComponentModel} (h1 : m.isUpdatedState = false) (h2 : m.isUpdatedStretch = false) :
    Clean m := by
  refine ⟨fun h => ?_, fun h => ?_, fun h => ?_, fun _ _ _ _ _ _ _ _ h => ?_, fun _ _ _ _ _ _ h => ?_⟩
  · exact absurd (h1.symm.trans h) (by decide)
  · exact absurd (h2.symm.trans h) (by decide)
  · exact absurd (h1.symm.trans h) (by decide)
  · exact absurd (h2.symm.trans h) (by decide)
  · exact absurd (h1.symm.trans h) (by decide)

theorem clean_new : Clean new := clean_flags_false rfl rfl
theorem clean_setComponent (m : ComponentModel) (c) : Clean (m.setComponent c) := clean_flags_false rfl rfl
theorem clean_setStretch (m : ComponentModel) (c) : Clean (m.setStretch c) := clean_flags_false rfl rfl
theorem clean_setReference (m : ComponentModel) (c) : Clean (m.setReference c) := clean_flags_false rfl rfl

/-- The stretch load depends on the state only through the polynomial type. -/
theorem stretchOf_congr (c : CableComponent) (t : ℝ) {s s' : CableState} (ss : CableStretchState)
    (h : s.type = s'.type ∨ ss.load = 0) : stretchOf c t s ss = stretchOf c t s' ss := by
  unfold stretchOf updateStretch
  by_cases h0 : ss.load = 0
  · rw [if_pos h0, if_pos h0]
  · rcases h with h | h
    · rw [h]
    · exact absurd h h0

/-- A new state keeps the object clean if it keeps the polynomial type. -/
theorem Clean.setState {m : ComponentModel} (C : Clean m) {s' : CableState}
    (h : m.isUpdatedStretch = true → ∃ s, m.state = some s ∧ s.type = s'.type) :
    Clean (m.setState (some s')) := by
  refine ⟨fun h => ?_, C.set, fun h => ?_, ?_, fun _ _ _ _ _ _ h => ?_⟩
  · cases h
  · cases h
  · intro c t s'' ss e1 e2 e3 e4 hf
    cases e3
    obtain ⟨s, hs, ht⟩ := h hf
    have := C.load c t s ss e1 e2 hs e4 hf
    rw [stretchOf_congr c t ss (Or.inl ht)] at this
    exact this
  · cases h

/-! ## Reading a clean object -/

theorem regionsOf_eq {c : CableComponent} {t : ℝ} {s : CableState} {l : ℝ} {cs : List ℝ} {limit : ℝ}
    (h1 : c.coefficients s.type = some cs) (h2 : cs ≠ []) (h3 : c.limit s.type = some limit) :
    regionsOf c t s l =
      .val (c.thermal t s.temperature, c.regions cs (c.thermal t s.temperature) limit l) := by
  unfold regionsOf updateState
  rw [h1, h3]
  simp only [if_neg h2]

theorem stretchOf_same {c : CableComponent} {t : ℝ} {s : CableState} {ss : CableStretchState}
    (h : s.type = ss.type ∨ ss.load = 0) : stretchOf c t s ss = .val (some ss.load) := by
  unfold stretchOf updateStretch
  by_cases h0 : ss.load = 0
  · rw [if_pos h0, h0]
  · rw [if_neg h0, if_pos (h.resolve_right h0)]

theorem stretchOf_transfer {c : CableComponent} {t : ℝ} {s : CableState} {ss : CableStretchState}
    (h0 : ss.load ≠ 0) (h1 : c.creep ≠ []) (h2 : c.loadStrain ≠ []) (ht : ss.type = .creep)
    (hs : s.type = .loadStrain) {l : ℝ}
    (h : c.transferStretch (c.thermal t ss.temperature) (c.regions c.creep (c.thermal t ss.temperature) c.limitCreep 0)
      (c.regions c.loadStrain (c.thermal t ss.temperature) c.limitLoadStrain 0) .creep .loadStrain ss.load = some l) :
    stretchOf c t s ss = .val (some l) := by
  unfold stretchOf updateStretch
  rw [if_neg h0, if_neg (by rw [ht, hs]; decide), if_neg (by simp [h1, h2])]
  simp only [ht, hs]
  rw [h]

theorem spec_eq {c : CableComponent} {t : ℝ} {s : CableState} {ss : CableStretchState} {l th : ℝ} {r : Regions}
    (h1 : stretchOf c t s ss = .val (some l)) (h2 : regionsOf c t s l = .val (th, r)) :
    spec c t s ss = .val (some (l, th, r)) := by
  unfold spec
  rw [h1]
  simp only
  rw [h2]

/-- A query of a clean object whose update succeeds. -/
theorem Clean.query {A : Type} {fail : A} {body : CableComponent → CableState → ComponentModel → A}
    {m : ComponentModel} (C : Clean m) {c t s ss} (h1 : m.component = some c)
    (h2 : m.reference = some t) (h3 : m.state = some s) (h4 : m.stretch = some ss) {l th : ℝ} {r : Regions}
    (hs : spec c t s ss = .val (some (l, th, r))) :
    ∃ m', m.query fail body = .ok m' (body c s m') ∧ SamePointers m m' ∧ Clean m' ∧
      m'.isUpdatedState = true ∧ m'.isUpdatedStretch = true ∧ m'.loadStretch = l ∧ m'.thermalState = th ∧
      m'.points = r := by
  rcases C.update h1 h2 h3 h4 with ⟨l', th', r', m', a, b, P, C', f⟩ | ⟨m', a, b, _⟩ | ⟨m', a, b, _⟩ | ⟨a, b⟩
  · rw [hs] at a
    cases a
    refine ⟨m', ?_, P, C', f⟩
    unfold ComponentModel.query
    rw [b]
    simp only
    rw [P.1, P.2.1, h1, h3]
  all_goals rw [hs] at a; cases a

/-! ## Linear polynomials -/

/-- A straight line, given as five coefficients, is solved exactly. -/
theorem polynomialX_linear {a : ℝ} (ha : a ≠ 0) (y : ℝ) :
    CableComponent.polynomialX [0, a, 0, 0, 0] y = y / a := by
  have hd : derivCoefficients [0, a, 0, 0, 0] = [a, 0, 0, 0] := by norm_num [derivCoefficients, derivLoop]
  have h1 : ∀ x, evalY [a, 0, 0, 0] x = a := by intro x; norm_num [evalY, yLoop]
  have h2 : ∀ x, evalY [0 - y, a, 0, 0, 0] x = a * x - y := by intro x; simp only [evalY, yLoop]; ring
  have hx : (0.1 : ℝ) - (a * 0.1 - y) / a = y / a := by field_simp; ring
  unfold CableComponent.polynomialX
  simp only [Obj.solveX, Obj.update, Obj.new, if_true, hd]
  rw [Obj.newton, if_pos (by norm_num [abs_of_pos])]
  simp only [h1, h2, if_pos ha]
  rw [hx, Obj.newton]
  split
  · have h3 : a * (y / a) - y = 0 := by field_simp; ring
    simp only [h1, h2, if_pos ha, h3]
    rw [zero_div, sub_zero, Obj.newton, if_neg]
    rw [abs_zero, not_lt]
    positivity
  · rfl

theorem evalY_linear (a x : ℝ) : evalY [0, a, 0, 0, 0] x = a * x := by
  simp only [evalY, yLoop]; ring

theorem evalY_linear_deriv (a x : ℝ) : evalY (derivCoefficients [0, a, 0, 0, 0]) x = a := by
  norm_num [derivCoefficients, derivLoop, evalY, yLoop]

end ComponentModel

end Verif
