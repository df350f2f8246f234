import Verif.Props.Validators

/-!
# A line cable whose stretch is undefined

C117: the search for the stretch of a constraint takes a failing reload for its end.
-/

set_option linter.unusedSectionVars false

namespace Verif.Props
open Verif Verif.CatenaryReloader Verif.ElongationModel

/-- A search over answers answers. -/
theorem loopOn_total {f : ℝ → Res ℝ} (hf : ∀ x, ∃ y, f x = .val y) (fuel : ℕ) : ∀ h s,
    ∃ h' s', loopOn f fuel h s = .ok h' s' := by
  induction fuel with
  | zero => exact fun h s => ⟨h, s, rfl⟩
  | succ n ih =>
    intro h s
    unfold loopOn
    split_ifs with hc
    · obtain ⟨y, hy⟩ := hf s.tension
      rw [hy]
      exact ih _ _
    · exact ⟨h, s, rfl⟩

theorem searchOn_total {f : ℝ → Res ℝ} (hf : ∀ x, ∃ y, f x = .val y) (x : ℝ) : ∃ h b, searchOn f x = .ok h b := by
  obtain ⟨l, hl⟩ := hf x
  obtain ⟨r, hr⟩ := hf (2 * x)
  unfold searchOn
  rw [hl]
  simp only
  rw [hr]
  simp only
  obtain ⟨h, s, e⟩ := loopOn_total hf 100 (2 * x) ⟨⟨x, l⟩, ⟨2 * x, r⟩, ⟨-999999, -999999⟩, 0⟩
  rw [e]
  exact ⟨_, _, rfl⟩

/-- A reload with models that answer ends. -/
theorem reload_total {k : Catenary3d} {a b : ElongationModel} {w : V3}
    (ha : ∀ l, ∃ x, strainThrough (some a) l = .val x)
    (hb : ∀ l, ∃ x, strainThrough (some b) l = .val x) :
    ∃ r c, (CatenaryReloader.given k a b w).update = .ok r c := by
  have hf : ∀ h, ∃ y, gap k (some a) (some b) w h = .val y := by
    intro h
    obtain ⟨x, hx⟩ := ha k.tensionAverage
    obtain ⟨y, hy⟩ := hb (trial k w h).tensionAverage
    unfold gap CableStrainer.lengthFinish trialStrainer
    simp only
    rw [hx, hy]
    exact ⟨_, rfl⟩
  obtain ⟨h, c, e⟩ := searchOn_total hf (tensionLeast k w)
  have hs : (CatenaryReloader.given k a b w).solve =
      mapState ((CatenaryReloader.given k a b w).trying k w) (.ok h c) := by
    rw [solve_eq (k := k) (w := w) rfl rfl]
    unfold found
    exact congrArg _ e
  unfold CatenaryReloader.update
  rw [if_neg (by show ¬ false = true; decide), hs]
  exact ⟨_, _, rfl⟩

/-- A reload whose answer the search hits at once fails. -/
theorem level_stuck {a b : ElongationModel} (ha : HookeLike 1000000 (some a)) (hb : HookeLike 1000000 (some b)) :
    ∃ r, (CatenaryReloader.given (levelSpan 100 1 75) a b ⟨0, 0, 1⟩).update = .ok r false := by
  have hm := level_magnitudes (s := 100) (v := 1) (by norm_num) (by norm_num) 1 75
  have ht : tensionLeast (levelSpan 100 1 75) ⟨0, 0, 1⟩ = 50 := by
    have : tensionLeast (levelSpan 100 1 75) ⟨0, 0, 1⟩ =
      (levelSpan 100 1 75).spacing.magnitude / 2 * (V3.mk 0 0 1).magnitude := rfl
    rw [this, hm]; norm_num
  have g : ∀ x, 50 ≤ x → x ≤ 100 →
      gap (levelSpan 100 1 75) (some a) (some b) ⟨0, 0, 1⟩ x = .val (levelGap 1000000 100 1 75 1 x) := by
    intro x h1 h2
    exact level_gap_like ha hb (by norm_num) (by norm_num) (by norm_num) (by norm_num) (by linarith)
      (by norm_num) (by norm_num; linarith)
  have g1 := level_gap_anti (e := 1000000) (s := 100) (w := 1) (h := 75) (v := 1) (x := 50) (y := 75) (by norm_num)
    (by norm_num) (by norm_num) (by norm_num) (by norm_num) (by norm_num) (by norm_num)
  have g2 := level_gap_anti (e := 1000000) (s := 100) (w := 1) (h := 75) (v := 1) (x := 75) (y := 100) (by norm_num)
    (by norm_num) (by norm_num) (by norm_num) (by norm_num) (by norm_num) (by norm_num)
  rw [level_gap_self] at g1 g2
  set f := gap (levelSpan 100 1 75) (some a) (some b) ⟨0, 0, 1⟩ with hf
  set G := levelGap 1000000 100 1 75 1 with hG
  have g0 : G 75 = 0 := level_gap_self
  have B : Bracket G ⟨⟨50, G 50⟩, ⟨100, G 100⟩, ⟨-999999, -999999⟩, 0⟩ :=
    ⟨by norm_num, rfl, rfl, g1, g2⟩
  have ht75 := B.tension
  simp only at ht75
  norm_num at ht75
  have B' : Bracket G ⟨⟨50, G 50⟩, ⟨100, G 100⟩, ⟨75, 0⟩, 1⟩ := ⟨by norm_num, rfl, rfl, g1, g2⟩
  have ht75' := B'.tension
  simp only at ht75'
  norm_num at ht75'
  obtain ⟨s', e1, e2, e3⟩ := loopOn_stuck (f := f) 99 75 _ B' (by norm_num [abs_of_neg])
    (by rw [ht75', g 75 (by norm_num) (by norm_num), g0]) (by rw [ht75']) rfl
  have hplace : ReloadSearch.place ⟨⟨50, G 50⟩, ⟨100, G 100⟩, ⟨-999999, -999999⟩, 0⟩ ⟨75, 0⟩ =
      ⟨⟨50, G 50⟩, ⟨100, G 100⟩, ⟨75, 0⟩, 1⟩ := by
    unfold ReloadSearch.place
    norm_num
  have hfound : (CatenaryReloader.given (levelSpan 100 1 75) a b ⟨0, 0, 1⟩).found (levelSpan 100 1 75) ⟨0, 0, 1⟩ =
      .ok 75 false := by
    show searchOn f (tensionLeast (levelSpan 100 1 75) ⟨0, 0, 1⟩) = _
    unfold searchOn
    rw [ht, g 50 (le_refl _) (by norm_num)]
    simp only
    rw [show (2:ℝ) * 50 = 100 by norm_num, g 100 (by norm_num) (le_refl _)]
    simp only
    rw [loopOn, if_pos (by norm_num [abs_of_neg]), ht75, g 75 (by norm_num) (by norm_num), g0]
    simp only
    rw [hplace, e1, ht75']
    simp only [e2]
    norm_num
  unfold CatenaryReloader.update
  rw [if_neg (by show ¬ false = true; decide), solve_eq (k := levelSpan 100 1 75) (w := ⟨0, 0, 1⟩) rfl rfl, hfound]
  exact ⟨_, rfl⟩

/-- A line cable strung with a horizontal tension of 75 in still air over a 100 ft ruling span, after a condition. -/
noncomputable def exTaut (d : CableCondition) : SectionCable :=
  ⟨some (hookeCable 1000000), [], ⟨some exCalm, d, 75, .horizontalTension⟩, ⟨100, 0, 0⟩, some exCalm, some exCalm⟩

theorem taut_load (d : CableCondition) : (exTaut d).unitLoad (some exCalm) = .val ⟨0, 0, 1⟩ := exHung_load

theorem taut_ruling (d : CableCondition) : (exTaut d).catenaryRulingSpan = .val (levelSpan 100 1 75) := by
  unfold SectionCable.catenaryRulingSpan
  have : (exTaut d).loadUnit = .val ⟨0, 0, 1⟩ := exHung_load
  rw [this]
  rfl

theorem taut_members {d : CableCondition} (hd : d ≠ .null) : (exTaut d).validateMembers = (true, []) := by
  have h := honest_members (exTaut d)
  have : (exTaut d).validateMembers.2 = [] := by
    simp [SectionCable.validateMembers, SectionCable.validateCable, exTaut, hookeCable, Cable.validate,
      CableConstraint.validate, validateWeather, exCalm, WeatherLoadCase.validate, hd]
    norm_num
  exact Prod.ext (h.mpr this) this

/-- A model of the example answers. -/
theorem taut_answers {s : CableState} (hs : s.type ≠ .null) {t : CableStretchState} (ht : t.type ≠ .null) (l : ℝ) :
    ∃ x, strainThrough (some (modelOf (hookeCable 1000000) s t)) l = .val x := by
  have := (C91_returns (calls := [.setCable (some (hookeCable 1000000)), .setState s, .setStretch t])
    (m := modelOf (hookeCable 1000000) s t) (k := hookeCable 1000000) rfl rfl
    (Or.inl (hooke_enabled (by norm_num))) hs (Or.inr ht)).1 (.strain .combined l)
  obtain ⟨x, hx⟩ := this
  refine ⟨x, ?_⟩
  unfold strainThrough
  simp only
  change valueOf id ((modelOf (hookeCable 1000000) s t).strain .combined l) = .val x at hx
  generalize (modelOf (hookeCable 1000000) s t).strain .combined l = o at hx ⊢
  cases o with
  | ok m y => exact hx
  | throws m => cases hx
  | ub => cases hx

/-- The search for the stretch of the example ends with an undefined number. -/
theorem taut_search {ty : PolynomialType} (h : ty ≠ .null) {s : LineLoader} (hk : s.catenary = levelSpan 100 1 75)
    (hm : s.modelConstraint = modelOf (hookeCable 1000000) ⟨60, .loadStrain⟩ ⟨60, ty, 0⟩) :
    stretchSearch (s.stretchDifference (modelOf (hookeCable 1000000) ⟨60, ty⟩ ⟨60, ty, 0⟩) ⟨0, 0, 1⟩) 100 =
      .val .nan := by
  have e : ∀ x, s.stretched x = modelOf (hookeCable 1000000) ⟨60, .loadStrain⟩ ⟨60, ty, x⟩ := by
    intro x
    unfold LineLoader.stretched
    rw [hm]
    rfl
  have f0 : s.stretchDifference (modelOf (hookeCable 1000000) ⟨60, ty⟩ ⟨60, ty, 0⟩) ⟨0, 0, 1⟩ 0 = .val none := by
    obtain ⟨r, hr⟩ := level_stuck (hung_like (s := ⟨60, .loadStrain⟩) (t := ⟨60, ty, 0⟩) (by decide) rfl)
      (hung_like (s := ⟨60, ty⟩) (t := ⟨60, ty, 0⟩) h rfl)
    unfold LineLoader.stretchDifference averageReloaded
    rw [e, hk, hr]
    rfl
  have f1 : ∃ y, s.stretchDifference (modelOf (hookeCable 1000000) ⟨60, ty⟩ ⟨60, ty, 0⟩) ⟨0, 0, 1⟩ 100 = .val y := by
    obtain ⟨r, c, hr⟩ := reload_total (k := levelSpan 100 1 75) (w := ⟨0, 0, 1⟩)
      (taut_answers (s := ⟨60, .loadStrain⟩) (t := ⟨60, ty, 100⟩) (by decide) h)
      (taut_answers (s := ⟨60, ty⟩) (t := ⟨60, ty, 0⟩) h h)
    unfold LineLoader.stretchDifference averageReloaded
    rw [e, hk, hr]
    cases c <;> exact ⟨_, rfl⟩
  obtain ⟨y, f1⟩ := f1
  unfold stretchSearch
  rw [f0]
  simp only
  rw [f1]

theorem taut_undefined {d : CableCondition} (hd : d = .creep ∨ d = .load) {s : LineLoader}
    (hc : s.lineCable = some (exTaut d)) : s.update = .nan := by
  have hv : (levelSpan 100 1 75).validate.1 = true := level_valid (by norm_num) (by norm_num) (by norm_num)
  have a1 : s.updateCatenary (exTaut d) = .ok { s with catenary := levelSpan 100 1 75 } true := by
    unfold LineLoader.updateCatenary
    rw [taut_ruling]
    simp only
    rw [if_pos hv]
  have u : ∀ (x : LineLoader), (x.catenary = levelSpan 100 1 75) → (x.modelConstraint =
        modelOf (hookeCable 1000000) ⟨60, .loadStrain⟩ (LineLoader.stretchStart d exCalm exCalm)) →
      (x.modelCreep = modelOf (hookeCable 1000000) ⟨60, .creep⟩ ⟨60, .creep, 0⟩) →
      (x.modelLoad = modelOf (hookeCable 1000000) ⟨60, .loadStrain⟩ ⟨60, .loadStrain, 0⟩) →
      x.updateConstraintModel (exTaut d) = .nan := by
    intro x h1 h2 h3 h4
    have hl : (exTaut d).unitLoad (exTaut d).weatherCreep = .val ⟨0, 0, 1⟩ := taut_load d
    have hl' : (exTaut d).unitLoad (exTaut d).weatherLoad = .val ⟨0, 0, 1⟩ := taut_load d
    rcases hd with rfl | rfl
    · show x.solveConstraintStretch (exTaut .creep) x.modelCreep (exTaut .creep).weatherCreep = .nan
      unfold LineLoader.solveConstraintStretch
      rw [hl, h3]
      have : (exTaut .creep).cable = some (hookeCable 1000000) := rfl
      rw [this]
      simp only
      have := taut_search (ty := .creep) (by decide) h1 h2
      have e : (hookeCable 1000000).strengthRated = 100 := rfl
      rw [e, this]
    · show x.solveConstraintStretch (exTaut .load) x.modelLoad (exTaut .load).weatherLoad = .nan
      unfold LineLoader.solveConstraintStretch
      rw [hl', h4]
      have : (exTaut .load).cable = some (hookeCable 1000000) := rfl
      rw [this]
      simp only
      have := taut_search (ty := .loadStrain) (by decide) h1 h2
      have e : (hookeCable 1000000).strengthRated = 100 := rfl
      rw [e, this]
  have a2 : ∀ x : LineLoader, x.initModels (exTaut d) = .ok { x with
      modelConstraint := modelOf (hookeCable 1000000) ⟨60, .loadStrain⟩ (LineLoader.stretchStart d exCalm exCalm)
      modelCreep := modelOf (hookeCable 1000000) ⟨60, .creep⟩ ⟨60, .creep, 0⟩
      modelLoad := modelOf (hookeCable 1000000) ⟨60, .loadStrain⟩ ⟨60, .loadStrain, 0⟩ } true := by
    intro x
    rcases hd with rfl | rfl <;> rfl
  unfold LineLoader.update
  rw [hc]
  simp only
  rw [a1]
  simp only [Run.bind]
  rw [if_neg (by decide), a2]
  simp only
  rw [u _ rfl rfl rfl rfl]

/-- **C117** fails: a line cable whose members are accepted, with a valid cable and a valid ruling span, is strung with
a tension of 75 for the creep or the load condition, its creep and load weather being the weather of the constraint.
The reload at the first trial stretch fails, the search ends with success, and its stretch is a NaN; every answer of
a reloader for this line cable is computed with it. -/
theorem C117_fails (d : CableCondition) (hd : d = .creep ∨ d = .load) (d' : CableCondition)
    (w : Option WeatherLoadCase) : ∃ (c : SectionCable) (k : Cable) (K : Catenary3d) (s : LineReloader),
    c.constraint.condition = d ∧ c.cable = some k ∧ k.validateSagTension.1 = true ∧ c.validateMembers = (true, []) ∧
    c.catenaryRulingSpan = .val K ∧ K.validate = (true, []) ∧
    LineReloader.run .new [.setLineCable (some c), .setCondition d', .setWeather w] = some s ∧
    s.stretchCreep = .nan ∧ s.stretchLoad = .nan ∧ s.catenaryReloaded = .nan ∧ s.tensionHorizontal = .nan := by
  have hv : (levelSpan 100 1 75).validate.1 = true := level_valid (by norm_num) (by norm_num) (by norm_num)
  set s : LineReloader := ((LineReloader.new.setLineCable (some (exTaut d))).setCondition d').setWeather w with hs
  have hu : s.update = .nan := by
    have : s.updateBase = .nan := by
      have e : s.updateBase = s.base.update.mapState fun b => { s with base := b } := rfl
      rw [e, taut_undefined hd rfl]
      rfl
    unfold LineReloader.update
    rw [this]
    rfl
  have ha : ∀ {A : Type} (x : A) f, s.ask x f = .nan := by
    intro A x f
    unfold LineReloader.ask
    rw [if_neg (by show ¬ false = true; decide), hu]
    rfl
  exact ⟨exTaut d, hookeCable 1000000, levelSpan 100 1 75, s, rfl, rfl, hooke_valid.1,
    taut_members (by rcases hd with rfl | rfl <;> decide), taut_ruling d,
    Prod.ext hv ((honest_catenary3d _).mp hv), rfl, ha _ _, ha _ _, ha _ _, ha _ _⟩

end Verif.Props
