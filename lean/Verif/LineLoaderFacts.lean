import Verif.LineLoaderLemmas

/-!
# What a successful update of a line cable reloader leaves behind
-/

set_option linter.unusedSectionVars false

namespace Verif

/-- The search ends at a stretch load that reproduces itself within 0.01, or at one whose reload failed. -/
theorem stretchLoop_found {f : ℝ → Res (Option ℝ)} {n : ℕ} {s : StretchSearch} {x : ℝ}
    (hs : 0.01 < |s.current.y - 0| ∨ f s.current.x = .val (some s.current.y))
    (h : stretchLoop f n s = .val (.found x)) : f x = .val none ∨ ∃ y, f x = .val (some y) ∧ |y| ≤ 0.01 := by
  induction n generalizing s with
  | zero => cases h
  | succ n ih =>
    unfold stretchLoop at h
    by_cases h1 : 0.01 < |s.current.y - 0|
    · rw [if_pos h1] at h
      by_cases h2 : s.right.x = s.left.x ∨ s.right.y = s.left.y
      · rw [if_pos h2] at h; cases h
      rw [if_neg h2] at h
      simp only at h
      split at h
      · rename_i y e
        refine ih (Or.inr ?_) h
        unfold StretchSearch.place
        split_ifs <;> exact e
      · rename_i e
        split_ifs at h with h4
        · cases h
        · cases h
          exact Or.inl e
      · cases h
      · cases h
    · rw [if_neg h1] at h
      cases h
      rcases hs with hs | hs
      · exact absurd hs h1
      · refine Or.inr ⟨_, hs, ?_⟩
        rw [sub_zero] at h1
        exact not_lt.1 h1

theorem stretchSearch_found {f : ℝ → Res (Option ℝ)} {a x : ℝ} (h : stretchSearch f a = .val (.found x)) :
    f x = .val none ∨ ∃ y, f x = .val (some y) ∧ |y| ≤ 0.01 := by
  unfold stretchSearch at h
  split at h
  · split at h
    · split at h
      · refine stretchLoop_found (Or.inl ?_) h
        norm_num
      · cases h
    · cases h
    · cases h
  · cases h
  · cases h

namespace LineLoader

open Run

/-- The stretch of a weather case: what the reload of the constraint's catenary gives. -/
def Stretches (t : LineLoader) (c : SectionCable) (rel : ElongationModel) (w : Option WeatherLoadCase)
    (z : CableStretchState) : Prop :=
  ∃ v r, c.unitLoad w = .val v ∧
    (CatenaryReloader.given t.catenary t.modelConstraint rel v).validate = .ok r true ∧
    z = ⟨rel.state.temperature, rel.state.type, r.catenaryReloaded.tensionAverage⟩

/-- The stretch of the constraint's own condition. -/
def Balances (t : LineLoader) (c : SectionCable) (k : Cable) (s : CableState) (u : CableState)
    (w : Option WeatherLoadCase) (z : CableStretchState) : Prop :=
  ∃ v x, c.unitLoad w = .val v ∧ z = ⟨u.temperature, u.type, x⟩ ∧ t.modelConstraint = modelOf k s z ∧
    (averageReloaded t.catenary t.modelConstraint (modelOf k u ⟨u.temperature, u.type, 0⟩) v = .val none ∨
      ∃ y, averageReloaded t.catenary t.modelConstraint (modelOf k u ⟨u.temperature, u.type, 0⟩) v = .val (some y) ∧
        |y - x| ≤ 0.01)

theorem solveStretch_some {s : LineLoader} {c : SectionCable} {m : ElongationModel} {w : Option WeatherLoadCase}
    {z : CableStretchState} (h : s.solveStretch c m w = .val (some z)) : Stretches s c m w z := by
  unfold solveStretch at h
  split at h
  · rename_i v hv
    split at h
    · rename_i r hr
      cases h
      exact ⟨v, r, hv, hr, rfl⟩
    · cases h
    · cases h
    · cases h
  · cases h
  · cases h

theorem solveConstraint_true {s t : LineLoader} {c : SectionCable} {k : Cable} {q u : CableState}
    {w : Option WeatherLoadCase} (hc : c.cable = some k)
    (hm : s.modelConstraint = modelOf k q ⟨u.temperature, u.type, 0⟩)
    (h : s.solveConstraintStretch c (modelOf k u ⟨u.temperature, u.type, 0⟩) w = .ok t true) :
    ∃ z, t = { s with modelConstraint := modelOf k q z } ∧ Balances t c k q u w z := by
  unfold solveConstraintStretch at h
  rw [hc] at h
  split at h
  · rename_i v k' hv e
    cases e
    have e : ∀ x, s.stretched x = modelOf k q ⟨u.temperature, u.type, x⟩ := by
      intro x; unfold stretched; rw [hm]; rfl
    split at h
    · rename_i x hx
      cases h
      refine ⟨⟨u.temperature, u.type, x⟩, by rw [e], v, x, hv, rfl, e x, ?_⟩
      have key := stretchSearch_found hx
      unfold stretchDifference at key
      have g : ({ s with modelConstraint := s.stretched x } : LineLoader).modelConstraint = s.stretched x := rfl
      rw [g]
      show averageReloaded s.catenary _ _ _ = _ ∨ ∃ y, averageReloaded s.catenary _ _ _ = _ ∧ _
      generalize averageReloaded s.catenary (s.stretched x) (modelOf k u ⟨u.temperature, u.type, 0⟩) v = o at key ⊢
      match o, key with
      | .val none, _ => exact Or.inl rfl
      | .val (some y), key =>
        right
        refine ⟨y, rfl, ?_⟩
        rcases key with key | ⟨y', e1, e2⟩
        · cases key
        · cases e1; exact e2
      | .throws, key => rcases key with key | ⟨_, key, _⟩ <;> cases key
      | .ub, key => rcases key with key | ⟨_, key, _⟩ <;> cases key
    · cases h
    · cases h
    · cases h
    · cases h
  · cases h

/-- The models are set up. -/
theorem initModels_true {s t : LineLoader} {c : SectionCable} {b : Bool} (h : s.initModels c = .ok t b)
    (hn : c.constraint.condition ≠ .null) :
    ∃ k w a d, c.cable = some k ∧ c.constraint.caseWeather = some w ∧ c.weatherCreep = some a ∧ c.weatherLoad = some d ∧
      t.catenary = s.catenary ∧
      t.modelConstraint = modelOf k ⟨w.temperatureCable, .loadStrain⟩ (stretchStart c.constraint.condition a d) ∧
      t.modelCreep = modelOf k ⟨a.temperatureCable, .creep⟩ ⟨a.temperatureCable, .creep, 0⟩ ∧
      t.modelLoad = modelOf k ⟨d.temperatureCable, .loadStrain⟩ ⟨d.temperatureCable, .loadStrain, 0⟩ := by
  unfold initModels at h
  split at h
  swap
  · cases h
  rename_i k w hk hw
  rw [if_neg hn] at h
  split at h
  swap
  · cases h
  rename_i a d ha hd
  cases h
  exact ⟨k, w, a, d, hk, hw, ha, hd, rfl, rfl, rfl, rfl⟩

theorem updateStretchCreep_true {s t : LineLoader} {c : SectionCable} (h : s.updateStretchCreep c = .ok t true) :
    t.catenary = s.catenary ∧ t.modelConstraint = s.modelConstraint ∧ t.modelLoad = s.modelLoad ∧
      (if c.constraint.condition = .creep then t.stretchCreep = s.modelConstraint.stretch
        else Stretches s c s.modelCreep c.weatherCreep t.stretchCreep) := by
  unfold updateStretchCreep at h
  by_cases hd : c.constraint.condition = .creep
  · rw [if_pos hd] at h ⊢
    cases h
    exact ⟨rfl, rfl, rfl, rfl⟩
  · rw [if_neg hd] at h ⊢
    split at h
    · rename_i z hz
      cases h
      exact ⟨rfl, rfl, rfl, solveStretch_some hz⟩
    all_goals cases h

theorem updateStretchLoad_true {s t : LineLoader} {c : SectionCable} (h : s.updateStretchLoad c = .ok t true) :
    t.catenary = s.catenary ∧ t.modelConstraint = s.modelConstraint ∧ t.stretchCreep = s.stretchCreep ∧
      (if c.constraint.condition = .load then t.stretchLoad = s.modelConstraint.stretch
        else Stretches s c s.modelLoad c.weatherLoad t.stretchLoad) := by
  unfold updateStretchLoad at h
  by_cases hd : c.constraint.condition = .load
  · rw [if_pos hd] at h ⊢
    cases h
    exact ⟨rfl, rfl, rfl, rfl⟩
  · rw [if_neg hd] at h ⊢
    split at h
    · rename_i z hz
      cases h
      exact ⟨rfl, rfl, rfl, solveStretch_some hz⟩
    all_goals cases h

theorem Stretches.congr {s t : LineLoader} {c : SectionCable} {m : ElongationModel} {w : Option WeatherLoadCase}
    {z : CableStretchState} (h : Stretches s c m w z) (h1 : t.catenary = s.catenary)
    (h2 : t.modelConstraint = s.modelConstraint) : Stretches t c m w z := by
  unfold Stretches at h ⊢
  rw [h1, h2]
  exact h

theorem Balances.congr {s t : LineLoader} {c : SectionCable} {k : Cable} {q u : CableState}
    {w : Option WeatherLoadCase} {z : CableStretchState} (h : Balances s c k q u w z) (h1 : t.catenary = s.catenary)
    (h2 : t.modelConstraint = s.modelConstraint) : Balances t c k q u w z := by
  unfold Balances at h ⊢
  rw [h1, h2]
  exact h

/-- What a successful update leaves behind. -/
theorem update_facts {s t : LineLoader} (h : s.update = .ok t true) :
    ∃ c k w a b, s.lineCable = some c ∧ c.cable = some k ∧ c.constraint.caseWeather = some w ∧
      c.weatherCreep = some a ∧ c.weatherLoad = some b ∧ c.constraint.condition ≠ .null ∧
      c.catenaryRulingSpan = .val t.catenary ∧ t.catenary.validate.1 = true ∧
      (if c.constraint.condition = .creep then
        Balances t c k ⟨w.temperatureCable, .loadStrain⟩ ⟨a.temperatureCable, .creep⟩ (some a) t.stretchCreep
      else Stretches t c (modelOf k ⟨a.temperatureCable, .creep⟩ ⟨a.temperatureCable, .creep, 0⟩) (some a)
        t.stretchCreep) ∧
      (if c.constraint.condition = .load then
        Balances t c k ⟨w.temperatureCable, .loadStrain⟩ ⟨b.temperatureCable, .loadStrain⟩ (some b) t.stretchLoad
      else Stretches t c (modelOf k ⟨b.temperatureCable, .loadStrain⟩ ⟨b.temperatureCable, .loadStrain, 0⟩) (some b)
        t.stretchLoad) ∧
      (c.constraint.condition = .initial →
        t.modelConstraint = modelOf k ⟨w.temperatureCable, .loadStrain⟩ ⟨0, .loadStrain, 0⟩) := by
  unfold update at h
  split at h
  · cases h
  rename_i c hc
  obtain ⟨t1, b1, e1, h⟩ := bind_ok h
  by_cases hb : b1 = false
  · rw [if_pos hb] at h; cases h
  rw [if_neg hb] at h
  obtain ⟨t2, b2, e2, h⟩ := bind_ok h
  obtain ⟨t3, b3, e3, h⟩ := bind_ok h
  by_cases hb3 : b3 = false
  · rw [if_pos hb3] at h; cases h
  rw [if_neg hb3] at h
  have hb3 : b3 = true := by simpa using hb3
  subst hb3
  obtain ⟨t4, b4, e4, h⟩ := bind_ok h
  cases h
  -- the catenary
  have hcat : c.catenaryRulingSpan = .val t1.catenary ∧ t1.catenary.validate.1 = true := by
    unfold updateCatenary at e1
    split at e1
    · rename_i k hk
      split_ifs at e1 with hv
      · cases e1; exact ⟨hk, hv⟩
      · cases e1; exact absurd rfl hb
    · cases e1
    · cases e1
  by_cases hn : c.constraint.condition = .null
  · unfold updateConstraintModel at e3
    rw [hn] at e3
    cases e3
  obtain ⟨k, w, a, d, hk, hw, ha, hd, f1, f2, f3, f4⟩ := initModels_true e2 hn
  -- the stretch of the weather cases
  unfold updateLoadStretch at e4
  obtain ⟨t5, b5, e5, e4⟩ := bind_ok e4
  by_cases hb5 : b5 = true
  swap
  · rw [if_neg hb5] at e4; cases e4
  rw [if_pos hb5] at e4
  subst hb5
  obtain ⟨p1, p2, p3, p4⟩ := updateStretchCreep_true e5
  obtain ⟨q1, q2, q3, q4⟩ := updateStretchLoad_true e4
  refine ⟨c, k, w, a, d, hc, hk, hw, ha, hd, hn, ?_⟩
  show c.catenaryRulingSpan = .val t4.catenary ∧ t4.catenary.validate.1 = true ∧
    (if c.constraint.condition = .creep then Balances t4 c k _ _ _ t4.stretchCreep
      else Stretches t4 c _ _ t4.stretchCreep) ∧
    (if c.constraint.condition = .load then Balances t4 c k _ _ _ t4.stretchLoad
      else Stretches t4 c _ _ t4.stretchLoad) ∧ (_ → t4.modelConstraint = _)
  have p1 : t5.catenary = t3.catenary := p1
  have p2 : t5.modelConstraint = t3.modelConstraint := p2
  have p3 : t5.modelLoad = t3.modelLoad := p3
  have p4 : if c.constraint.condition = .creep then t5.stretchCreep = t3.modelConstraint.stretch
        else Stretches t3 c t3.modelCreep c.weatherCreep t5.stretchCreep := p4
  rw [ha] at p4
  rw [hd] at q4
  have f1 : t2.catenary = t1.catenary := f1
  unfold updateConstraintModel at e3
  rw [ha, hd, f3, f4] at e3
  -- the constraint's own model
  have key : t3.catenary = t1.catenary ∧ t3.modelCreep = t2.modelCreep ∧ t3.modelLoad = t2.modelLoad ∧
      (c.constraint.condition = .initial → t3.modelConstraint = t2.modelConstraint) ∧
      (c.constraint.condition = .creep → ∃ z, t3.modelConstraint = modelOf k ⟨w.temperatureCable, .loadStrain⟩ z ∧
        Balances t3 c k ⟨w.temperatureCable, .loadStrain⟩ ⟨a.temperatureCable, .creep⟩ (some a) z) ∧
      (c.constraint.condition = .load → ∃ z, t3.modelConstraint = modelOf k ⟨w.temperatureCable, .loadStrain⟩ z ∧
        Balances t3 c k ⟨w.temperatureCable, .loadStrain⟩ ⟨d.temperatureCable, .loadStrain⟩ (some d) z) := by
    cases ht : c.constraint.condition with
    | null => exact absurd ht hn
    | initial =>
      rw [ht] at e3
      cases e3
      exact ⟨f1, rfl, rfl, fun _ => rfl, (fun e => by cases e), (fun e => by cases e)⟩
    | creep =>
      rw [ht] at e3 f2
      obtain ⟨z, g1, g2⟩ := solveConstraint_true (q := ⟨w.temperatureCable, .loadStrain⟩)
        (u := ⟨a.temperatureCable, .creep⟩) hk f2 e3
      refine ⟨by rw [g1]; exact f1, by rw [g1], by rw [g1], (fun e => by cases e), fun _ => ⟨z, by rw [g1], g2⟩,
        (fun e => by cases e)⟩
    | load =>
      rw [ht] at e3 f2
      obtain ⟨z, g1, g2⟩ := solveConstraint_true (q := ⟨w.temperatureCable, .loadStrain⟩)
        (u := ⟨d.temperatureCable, .loadStrain⟩) hk f2 e3
      refine ⟨by rw [g1]; exact f1, by rw [g1], by rw [g1], (fun e => by cases e), (fun e => by cases e),
        fun _ => ⟨z, by rw [g1], g2⟩⟩
  obtain ⟨k1, k2, k3, k4, k5, k6⟩ := key
  have c1 : t4.catenary = t3.catenary := q1.trans p1
  have c2 : t4.modelConstraint = t3.modelConstraint := q2.trans p2
  refine ⟨by rw [c1, k1]; exact hcat.1, by rw [c1, k1]; exact hcat.2, ?_, ?_, ?_⟩
  · rw [q3]
    split_ifs at p4 ⊢ with hc'
    · obtain ⟨z, g1, g2⟩ := k5 hc'
      rw [p4, g1]
      exact g2.congr c1 c2
    · rw [k2, f3] at p4
      exact p4.congr c1 c2
  · split_ifs at q4 ⊢ with hc'
    · obtain ⟨z, g1, g2⟩ := k6 hc'
      rw [q4, p2, g1]
      exact g2.congr c1 c2
    · rw [p3, k3, f4] at q4
      exact q4.congr q1 q2
  · intro hi
    rw [c2, k4 hi, f2, hi]
    rfl

end LineLoader

end Verif
