import Verif.CableElongation
import Verif.ComponentElongationLemmas

/-! # Lemmas about the cable elongation model -/

set_option linter.unusedSectionVars false

namespace Verif

namespace ComponentModel

/-- Updating twice is updating once, for any object. -/
theorem update_idem {m m' : ComponentModel} {b : Bool} (h : m.update = .ok m' b) : m'.update = .ok m' b := by
  unfold update at h
  split_ifs at h with hb
  · cases h
    unfold update
    rw [if_pos hb]
  · revert h
    split
    · rename_i c t s ss h1 h2 h3 h4
      intro h
      unfold updateWith at h
      have fin : ∀ {x y : ComponentModel} {b}, x.finishUpdate c t s = .ok y b → y.update = .ok y b := by
        intro x y b e
        unfold finishUpdate at e
        rcases updateState_cases x c t s with ⟨th, r, _, e'⟩ | ⟨_, e'⟩ | ⟨_, e'⟩ <;> rw [e'] at e <;> cases e
        unfold update
        rw [if_pos ⟨rfl, rfl⟩]
      by_cases hst : m.isUpdatedStretch = false
      · rw [if_pos hst] at h
        rcases updateStretch_cases m c t s ss with ⟨l, _, e⟩ | ⟨l, _, e⟩ | ⟨_, e⟩
        · rw [e] at h; exact fin h
        · have e2 := updateStretch_again e
          rw [e] at h
          cases h
          unfold update
          rw [if_neg (by rintro ⟨_, g⟩; exact absurd (hst.symm.trans g) (by decide))]
          simp only [h1, h2, h3, h4] at e2 ⊢
          unfold updateWith
          rw [if_pos hst, e2]
        · rw [e] at h; cases h
      · rw [if_neg hst] at h
        exact fin h
    · intro h; cases h

/-- A successful update sets both flags. -/
theorem update_true {m m' : ComponentModel} (h : m.update = .ok m' true) :
    m'.isUpdatedState = true ∧ m'.isUpdatedStretch = true := by
  unfold update at h
  split_ifs at h with hb
  · cases h; exact hb
  · revert h
    split
    · rename_i c t s ss h1 h2 h3 h4
      intro h
      unfold updateWith at h
      have fin : ∀ {x y : ComponentModel}, x.finishUpdate c t s = .ok y true →
          y.isUpdatedState = true ∧ y.isUpdatedStretch = true := by
        intro x y e
        unfold finishUpdate at e
        rcases updateState_cases x c t s with ⟨th, r, _, e'⟩ | ⟨_, e'⟩ | ⟨_, e'⟩ <;> rw [e'] at e <;> cases e
        exact ⟨rfl, rfl⟩
      by_cases hst : m.isUpdatedStretch = false
      · rw [if_pos hst] at h
        rcases updateStretch_cases m c t s ss with ⟨l, _, e⟩ | ⟨l, _, e⟩ | ⟨_, e⟩ <;> rw [e] at h
        · exact fin h
        · cases h
        · cases h
      · rw [if_neg hst] at h
        exact fin h
    · intro h; cases h

end ComponentModel

namespace ElongationModel

open ComponentModel

theorem touch_idem {c : CableComponent} {m m' : ComponentModel} (h : touch c m = .ok m' ()) :
    touch c m' = .ok m' () := by
  unfold touch at h ⊢
  split_ifs at h ⊢ with he
  · cases hu : m.update with
    | ok x b =>
      rw [hu] at h
      cases h
      rw [update_idem hu]
    | throws x => rw [hu] at h; cases h
    | ub => rw [hu] at h; cases h
  · rfl

theorem touchBoth_ok {k : Cable} {m m' : ElongationModel} (h : m.touchBoth k = .ok m' ()) :
    ∃ c s, touch k.core m.core = .ok c () ∧ touch k.shell m.shell = .ok s () ∧
      m' = { m with core := c, shell := s } := by
  unfold touchBoth at h
  cases h1 : touch k.core m.core with
  | ok c u =>
    rw [h1] at h
    simp only at h
    cases h2 : touch k.shell m.shell with
    | ok s u =>
      rw [h2] at h
      simp only at h
      cases h
      exact ⟨c, s, rfl, rfl, rfl⟩
    | throws s => rw [h2] at h; cases h
    | ub => rw [h2] at h; cases h
  | throws c => rw [h1] at h; cases h
  | ub => rw [h1] at h; cases h

theorem touchBoth_idem {k : Cable} {m m' : ElongationModel} (h : m.touchBoth k = .ok m' ()) :
    m'.touchBoth k = .ok m' () := by
  obtain ⟨c, s, h1, h2, rfl⟩ := touchBoth_ok h
  unfold touchBoth
  simp only
  rw [touch_idem h1]
  simp only
  rw [touch_idem h2]

/-- After an update both flags are set and the cable is the same. -/
theorem updatePointsRegions_ok {k : Cable} {m m' : ElongationModel} (h : m.updatePointsRegions k = .ok m' ()) :
    m'.cable = m.cable ∧ m'.state = m.state ∧ m'.stretch = m.stretch ∧
      m'.isUpdatedState = m.isUpdatedState ∧ m'.isUpdatedStretch = m.isUpdatedStretch ∧
      m'.touchBoth k = .ok m' () := by
  unfold updatePointsRegions at h
  cases ht : m.touchBoth k with
  | ok x u =>
    rw [ht] at h
    obtain ⟨c, s, h1, h2, rfl⟩ := touchBoth_ok ht
    cases h
    refine ⟨rfl, rfl, rfl, rfl, rfl, ?_⟩
    unfold touchBoth
    simp only
    rw [touch_idem h1]
    simp only
    rw [touch_idem h2]
  | throws x => rw [ht] at h; cases h
  | ub => rw [ht] at h; cases h

theorem updateComponentsState_ok {k : Cable} {s : CableState} {m m' : ElongationModel}
    (h : m.updateComponentsState k s = .ok m' ()) :
    m'.cable = m.cable ∧ m'.state = m.state ∧ m'.stretch = m.stretch ∧
      m'.isUpdatedState = m.isUpdatedState ∧ m'.isUpdatedStretch = m.isUpdatedStretch ∧
      m'.touchBoth k = .ok m' () := by
  have := updatePointsRegions_ok (show ElongationModel.updatePointsRegions k
    { m with core := giveState s k.core m.core, shell := giveState s k.shell m.shell } = .ok m' () from h)
  exact this

theorem updateComponentsStretch_ok {k : Cable} {m m' : ElongationModel}
    (h : m.updateComponentsStretch k = .ok m' ()) :
    m'.cable = m.cable ∧ m'.state = m.state ∧ m'.stretch = m.stretch ∧
      m'.isUpdatedState = m.isUpdatedState ∧ m'.isUpdatedStretch = m.isUpdatedStretch := by
  unfold updateComponentsStretch at h
  simp only at h
  split_ifs at h with h0
  · cases h; exact ⟨rfl, rfl, rfl, rfl, rfl⟩
  · revert h
    split
    · rename_i m1 hm
      obtain ⟨a, b, c, d, e, _⟩ := updateComponentsState_ok hm
      split
      · intro h; cases h; exact ⟨a, b, c, d, e⟩
      · intro h; cases h
      · intro h; cases h
    · intro h
      rename_i hno
      exact absurd h (hno _)

theorem update_ok {m m' : ElongationModel} (h : m.update = .ok m' ()) :
    m'.cable = m.cable ∧ m'.state = m.state ∧ m'.stretch = m.stretch ∧ m'.isUpdatedStretch = true ∧ m'.isUpdatedState = true ∧
      (m' = m ∨ ∃ k, m.cable = some k ∧ m'.touchBoth k = .ok m' ()) := by
  unfold update at h
  split_ifs at h with hb
  · cases h; exact ⟨rfl, rfl, rfl, hb.1, hb.2, Or.inl rfl⟩
  · cases hk : m.cable with
    | none => rw [hk] at h; cases h
    | some k =>
      rw [hk] at h
      simp only at h
      have fin : ∀ x : ElongationModel, x.cable = some k → x.state = m.state → x.stretch = m.stretch →
          x.finishUpdate k = .ok m' () →
          m'.cable = some k ∧ m'.state = m.state ∧ m'.stretch = m.stretch ∧ m'.isUpdatedStretch = true ∧
            m'.isUpdatedState = true ∧ (m' = m ∨ ∃ k', some k = some k' ∧ m'.touchBoth k' = .ok m' ()) := by
        intro x e1 e2 e3 e4
        unfold finishUpdate at e4
        cases hs : ({ x with isUpdatedStretch := true } : ElongationModel).updateComponentsState k x.state with
        | ok y u =>
          rw [hs] at e4
          cases e4
          obtain ⟨a, b, c, d, e, f⟩ := updateComponentsState_ok hs
          refine ⟨a.trans e1, b.trans e2, c.trans e3, e, rfl, Or.inr ⟨k, rfl, ?_⟩⟩
          obtain ⟨c', s', h1, h2, h3⟩ := touchBoth_ok f
          unfold touchBoth
          simp only
          rw [h1]
          simp only
          rw [h2]
          have := congrArg ElongationModel.core h3
          have h4 := congrArg ElongationModel.shell h3
          simp only at this h4
          rw [← this, ← h4]
        | throws y => rw [hs] at e4; cases e4
        | ub => rw [hs] at e4; cases e4
      unfold updateWith at h
      by_cases hst : m.isUpdatedStretch = false
      · rw [if_pos hst] at h
        cases hu : m.updateComponentsStretch k with
        | ok x u =>
          rw [hu] at h
          obtain ⟨a, b, c, d, e⟩ := updateComponentsStretch_ok hu
          exact fin x (a.trans hk) b c h
        | throws x => rw [hu] at h; cases h
        | ub => rw [hu] at h; cases h
      · rw [if_neg hst] at h
        exact fin m hk rfl rfl h

/-- The region points lie on the load curve of the updated object. -/
theorem updatePointsRegions_regions {k : Cable} {m m' : ElongationModel}
    (h : m.updatePointsRegions k = .ok m' ()) :
    (∀ p ∈ m'.regions, p.y = m'.both CableComponent.load k p.x) ∧
      (k.core.Enabled ∨ k.shell.Enabled → m'.regions ≠ []) ∧
      (¬ k.core.Enabled ∧ ¬ k.shell.Enabled → m'.regions = []) := by
  unfold updatePointsRegions at h
  cases ht : m.touchBoth k with
  | ok x u =>
    rw [ht] at h
    cases h
    refine ⟨?_, ?_, ?_⟩
    · intro p hp
      simp only [List.mem_map] at hp
      obtain ⟨z, -, rfl⟩ := hp
      rfl
    · intro he hn
      simp only [List.map_eq_nil_iff] at hn
      have hl := congrArg List.length hn
      rw [List.length_insertionSort] at hl
      rcases he with he | he <;> simp [regionStrains, he] at hl
    · rintro ⟨h1, h2⟩
      simp [regionStrains, h1, h2]
  | throws x => rw [ht] at h; cases h
  | ub => rw [ht] at h; cases h

theorem update_regions {k : Cable} {m m' : ElongationModel} (hf : m.isUpdatedState = false)
    (hk : m.cable = some k) (h : m.update = .ok m' ()) :
    (∀ p ∈ m'.regions, p.y = m'.both CableComponent.load k p.x) ∧
      (k.core.Enabled ∨ k.shell.Enabled → m'.regions ≠ []) ∧
      (¬ k.core.Enabled ∧ ¬ k.shell.Enabled → m'.regions = []) := by
  unfold update at h
  rw [if_neg (by rintro ⟨_, g⟩; exact absurd (hf.symm.trans g) (by decide)), hk] at h
  simp only at h
  have fin : ∀ x : ElongationModel, x.finishUpdate k = .ok m' () →
      (∀ p ∈ m'.regions, p.y = m'.both CableComponent.load k p.x) ∧
        (k.core.Enabled ∨ k.shell.Enabled → m'.regions ≠ []) ∧
      (¬ k.core.Enabled ∧ ¬ k.shell.Enabled → m'.regions = []) := by
    intro x e4
    unfold finishUpdate at e4
    cases hs : ({ x with isUpdatedStretch := true } : ElongationModel).updateComponentsState k x.state with
    | ok y u =>
      rw [hs] at e4
      cases e4
      have := updatePointsRegions_regions (show ElongationModel.updatePointsRegions k
        { x with isUpdatedStretch := true, core := giveState x.state k.core x.core,
                 shell := giveState x.state k.shell x.shell } = .ok y () from hs)
      exact this
    | throws y => rw [hs] at e4; cases e4
    | ub => rw [hs] at e4; cases e4
  unfold updateWith at h
  by_cases hst : m.isUpdatedStretch = false
  · rw [if_pos hst] at h
    cases hu : m.updateComponentsStretch k with
    | ok x u => rw [hu] at h; exact fin x h
    | throws x => rw [hu] at h; cases h
    | ub => rw [hu] at h; cases h
  · rw [if_neg hst] at h
    exact fin m h

/-- An updated object stays as it is. -/
theorem updated_flags {A : Type} {m : ElongationModel} {k : Cable}
    {f : Cable → ElongationModel → Outcome ElongationModel A} (h1 : m.isUpdatedStretch = true)
    (h2 : m.isUpdatedState = true) (hk : m.cable = some k) : m.updated f = f k m := by
  unfold updated update
  rw [if_pos ⟨h1, h2⟩]
  simp only
  rw [hk]

/-- What an answered question tells. -/
theorem updated_ok {A : Type} {m m' : ElongationModel} {a : A}
    {f : Cable → ElongationModel → Outcome ElongationModel A} (h : m.updated f = .ok m' a) :
    ∃ m1 k, m.update = .ok m1 () ∧ m1.cable = some k ∧ m.cable = some k ∧ m1.isUpdatedStretch = true ∧
      m1.isUpdatedState = true ∧ f k m1 = .ok m' a := by
  unfold updated at h
  cases hu : m.update with
  | ok m1 u =>
    rw [hu] at h
    simp only at h
    obtain ⟨a1, a2, a3, a4, a5, _⟩ := update_ok hu
    cases hk : m1.cable with
    | none => rw [hk] at h; cases h
    | some k => rw [hk] at h; exact ⟨m1, k, rfl, hk, a1.symm.trans hk, a4, a5, h⟩
  | throws m1 => rw [hu] at h; cases h
  | ub => rw [hu] at h; cases h

theorem readBoth_ok {A : Type} {k : Cable} {m m' : ElongationModel} {f : ElongationModel → A} {a : A}
    (h : m.readBoth k f = .ok m' a) : m.touchBoth k = .ok m' () ∧ a = f m' := by
  unfold readBoth at h
  cases ht : m.touchBoth k with
  | ok x u => rw [ht] at h; cases h; exact ⟨rfl, rfl⟩
  | throws x => rw [ht] at h; cases h
  | ub => rw [ht] at h; cases h

/-! ## The search for a strain -/

theorem strainStep_current (f : ℝ → ℝ) (l : ℝ) (s : StrainSearch) :
    (s.step f l).current.y = f (s.step f l).current.x ∧ (s.step f l).iter = s.iter + 1 := by
  unfold StrainSearch.step
  simp only
  split_ifs <;> exact ⟨rfl, rfl⟩

/-- If the loop stops early it has found a strain. -/
theorem strainLoop_spec (f : ℝ → ℝ) (l : ℝ) : ∀ (n : ℕ) (s : StrainSearch),
    (strainLoop f l n s).iter < s.iter + n →
    |(strainLoop f l n s).current.y - l| ≤ 0.01 ∧
      (strainLoop f l n s = s ∨ (strainLoop f l n s).current.y = f (strainLoop f l n s).current.x)
  | 0, s, h => by unfold strainLoop at h; omega
  | n + 1, s, h => by
    unfold strainLoop at h ⊢
    split_ifs at h ⊢ with hc
    · have e := (strainStep_current f l s)
      obtain ⟨a, b⟩ := strainLoop_spec f l n (s.step f l) (by rw [e.2]; omega)
      refine ⟨a, Or.inr ?_⟩
      rcases b with b | b
      · rw [b]; exact e.1
      · exact b
    · refine ⟨?_, Or.inl rfl⟩
      have := not_lt.1 hc
      norm_num at this ⊢
      exact this

/-- The search never leaves the points: a load between the first and the last one is between two neighbours. -/
theorem findRegion_some (l : ℝ) : ∀ (ps : List V2) (p q : V2), ps.head? = some p → ps.getLast? = some q → p.y < l →
    l < q.y → ∃ r, findRegion l ps = some r
  | [], p, q, h, _, _, _ => by cases h
  | [a], p, q, h, h', h1, h2 => by cases h; cases h'; exact absurd (h1.trans h2) (lt_irrefl _)
  | a :: b :: rest, p, q, h, h', h1, h2 => by
    cases h
    unfold findRegion
    split_ifs with hc
    · exact ⟨_, rfl⟩
    · refine findRegion_some l (b :: rest) b q rfl ?_ ?_ h2
      · rw [List.getLast?_cons_cons] at h'; exact h'
      · by_contra hb
        exact hc ⟨h1.le, not_lt.1 hb⟩

theorem strainCombined_val (f : ℝ → ℝ) {ps : List V2} (h : ps ≠ []) (l : ℝ) :
    ∃ x, strainCombined f ps l = .val x := by
  unfold strainCombined strainStart
  obtain ⟨a, rest, rfl⟩ := List.exists_cons_of_ne_nil h
  obtain ⟨q, hq⟩ : ∃ q, (a :: rest).getLast? = some q := ⟨_, List.getLast?_eq_some_getLast (by simp)⟩
  rw [hq]
  simp only [List.head?_cons]
  split_ifs with h1 h2
  · exact ⟨_, rfl⟩
  · exact ⟨_, rfl⟩
  · obtain ⟨r, hr⟩ := findRegion_some l _ a q rfl hq (not_le.1 h1) (not_le.1 h2)
    rw [hr]
    exact ⟨_, rfl⟩

/-- A strain that is found has the load asked for, unless the load is below all points. -/
theorem strainCombined_accurate {f : ℝ → ℝ} {ps : List V2} {l x : ℝ} (h : strainCombined f ps l = .val x)
    (hx : x ≠ -999999) : |f x - l| ≤ 0.01 ∨ ∃ p, ps.head? = some p ∧ l ≤ p.y ∧ x = p.x := by
  unfold strainCombined at h
  cases hs : strainStart f ps l with
  | val o =>
    rw [hs] at h
    cases o with
    | inl z =>
      right
      simp only at h
      cases h
      unfold strainStart at hs
      revert hs
      split
      · rename_i p q e1 e2
        split_ifs with h1 h2
        · intro hs; cases hs; exact ⟨p, e1, h1, rfl⟩
        · intro hs; cases hs
        · split <;> intro hs <;> cases hs
      · intro hs; cases hs
    | inr o =>
      left
      obtain ⟨a, b⟩ := o
      simp only at h
      injection h with h
      split_ifs at h with hi
      · subst h
        obtain ⟨e1, e2⟩ := strainLoop_spec f l 99 ⟨a, b, ⟨-999999, -999999⟩, 1⟩ hi
        rcases e2 with e2 | e2
        · rw [e2] at hx; exact absurd rfl hx
        · rw [e2] at e1; exact e1
      · exact absurd h.symm hx
  | throws => rw [hs] at h; cases h
  | ub => rw [hs] at h; cases h

end ElongationModel

end Verif
