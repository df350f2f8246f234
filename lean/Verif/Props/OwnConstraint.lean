import Verif.Props.LineLoader
import Verif.Props.ReloadAgain
import Verif.Props.ReloadAbove

/-!
# Reloading a line cable to its own constraint

C202: a line cable reloader with the weather case and the condition of the constraint of its line cable.
-/

set_option linter.unusedSectionVars false

namespace Verif.Props
open Verif Verif.CatenaryReloader Verif.ElongationModel

theorem ruling_facts {c : SectionCable} {K : Catenary3d} (h : c.catenaryRulingSpan = .val K) :
    K.Reachable ∧ K.spacing = c.spacing ∧ c.unitLoad c.constraint.caseWeather = .val K.weightUnit := by
  unfold SectionCable.catenaryRulingSpan at h
  have e : c.unitLoad c.constraint.caseWeather = c.loadUnit := by
    unfold SectionCable.unitLoad SectionCable.loadUnit; rfl
  rw [e]
  split at h
  · rename_i load hl
    have h := Res.val.inj h
    rw [hl, ← h]
    split_ifs
    · exact ⟨⟨[.setSpacing c.spacing, .setWeight load, .setTension _], rfl⟩, rfl, rfl⟩
    · exact ⟨⟨[.setSpacing c.spacing, .setWeight load, .setTension _], rfl⟩, rfl, rfl⟩
  · cases h
  · cases h

/-- **C202** (partial). Whatever calls led to a line cable reloader that has the condition and the weather case of its
line cable's constraint: if it reports a tension, the catenary it reports spans the ruling span under the constraint's
unit load.  Where the difference of the lengths decreases with the tension, the reported tension is within 0.01 of the
constraint's, if that is at most twice the least tension.  In any case it is within 0.01 of it, or it is not larger and
the catenary is less than 0.1 longer than the cable.

Missing: that a tension is reported (it is not always, see `C202_fails`), and how far the reported tension can be below
the constraint's when that is more than twice the least tension. -/
theorem C202_tension_partial {ks : List LineReloader.Call} {s : LineReloader} (h : LineReloader.run .new ks = some s)
    {c : SectionCable} (hc : s.base.lineCable = some c) (hd : s.condition = c.constraint.condition)
    (hw : s.weather = c.constraint.caseWeather) {x : ℝ} (hx : s.tensionHorizontal.result = some (.val x))
    (h0 : x ≠ -999999) :
    ∃ K Q k w zc zl, c.catenaryRulingSpan = .val K ∧ s.catenaryReloaded.result = some (.val Q) ∧
      Q.tensionHorizontal = x ∧ Q.spacing = K.spacing ∧ Q.weightUnit = K.weightUnit ∧
      c.cable = some k ∧ c.constraint.caseWeather = some w ∧
      s.stretchCreep.result = some (.val zc) ∧ s.stretchLoad.result = some (.val zl) ∧
      let m := some (modelOf k ⟨w.temperatureCable, .loadStrain⟩ (conditionStretch c.constraint.condition zc zl))
      let a := K.spacing.magnitude / 2 * K.weightUnit.magnitude
      ∀ g : ℝ → ℝ, a < K.tensionHorizontal →
        ((∀ h, a ≤ h → h ≤ 2 * a → gap K m m K.weightUnit h = .val (g h)) →
          (∀ h h', a ≤ h → h < h' → h' ≤ 2 * a → g h' < g h) → a ≤ 2 ^ 90 → K.tensionHorizontal < 2 * a →
          |x - K.tensionHorizontal| ≤ 0.01) ∧
        ((∀ h, a ≤ h → gap K m m K.weightUnit h = .val (g h)) → (∀ h h', a ≤ h → h < h' → g h' < g h) → 0.01 < a →
          (x ≤ K.tensionHorizontal ∧ 0 ≤ g x ∧ g x < 0.1) ∨ |x - K.tensionHorizontal| ≤ 0.01) := by
  have hs : s.Sound := LineReloader.run_sound (LineReloader.fresh_sound .new) ks h
  obtain ⟨t, hu, ht, hk, e⟩ := asked_updated hs hx h0
  have e : t.catenary.tensionHorizontal = x := Res.val.inj e
  have ht' := ht
  unfold LineReloader.isUpdated LineLoader.isUpdated at ht'
  simp only [Bool.and_eq_true] at ht'
  have hbu : t.base.isUpdated = true := by
    unfold LineLoader.isUpdated; rw [ht'.1.1.1, ht'.1.1.2]; rfl
  obtain ⟨c', k, w, a, b, f1, f2, f3, f4, f5, f6, f7, f8, f9, f10, f11⟩ :=
    LineLoader.update_facts (hk.1.base ht'.1.1.2).2
  have f1 : t.base.lineCable = some c' := f1
  have ec : c' = c := by
    have := f1.symm.trans (hk.2.1.trans hc)
    exact Option.some.inj this
  subst ec
  -- the model of the constraint
  have hm : t.base.modelConstraint = modelOf k ⟨w.temperatureCable, .loadStrain⟩
      (conditionStretch c'.constraint.condition t.base.stretchCreep t.base.stretchLoad) := by
    cases hd : c'.constraint.condition with
    | null => exact absurd hd f6
    | initial => exact f11 hd
    | creep =>
      rw [if_pos hd] at f9
      obtain ⟨v, x, _, _, g, _⟩ := f9
      exact g
    | load =>
      rw [if_pos hd] at f10
      obtain ⟨v, x, _, _, g, _⟩ := f10
      exact g
  -- the model of the reloader
  obtain ⟨k', w', e1, e2, e3⟩ := updated_model hk.1 ht
  have ek : k' = k := by
    rw [f1] at e1
    exact Option.some.inj (e1.symm.trans f2)
  have ew : w' = w := by
    rw [hk.2.2.2, hw, f3] at e2
    exact (Option.some.inj e2).symm
  rw [ek, ew, hk.2.2.1, hd, ← hm] at e3
  obtain ⟨R, r1, r2⟩ := ruling_facts f7
  -- the reload
  have hcat := hk.1.cat hbu ht'.2
  unfold LineReloader.catenaryValue at hcat
  rw [f1, hk.2.2.2, hw] at hcat
  simp only at hcat
  rw [r2, e3] at hcat
  simp only at hcat
  obtain ⟨r, hr, er⟩ : ∃ r, (CatenaryReloader.given t.base.catenary t.base.modelConstraint t.base.modelConstraint
      t.base.catenary.weightUnit).validate = .ok r true ∧ r.catenaryReloaded = t.catenary := by
    generalize (CatenaryReloader.given t.base.catenary t.base.modelConstraint t.base.modelConstraint
      t.base.catenary.weightUnit).validate = o at hcat
    match o, hcat with
    | .ok r true, hcat => exact ⟨r, rfl, Option.some.inj (Res.val.inj hcat)⟩
    | .ok _ false, hcat => cases Res.val.inj hcat
    | .throws _, hcat => cases hcat
    | .ub, hcat => cases hcat
  have hr := validate_update hr
  obtain ⟨y, -, hy, -⟩ := update_found (k := t.base.catenary) (w := t.base.catenary.weightUnit) rfl rfl rfl hr
  rw [er] at hy
  refine ⟨t.base.catenary, t.catenary, k, w, t.base.stretchCreep, t.base.stretchLoad, f7, updated_ask hu _ _, e,
    by rw [hy]; rfl, by rw [hy]; rfl, f2, f3, updated_ask hu _ _, updated_ask hu _ _, ?_⟩
  rw [← hm]
  intro m a g hl
  constructor
  · intro hg ha h1 h2
    obtain ⟨r', b, q1, q2⟩ := C92_partial (r := CatenaryReloader.given t.base.catenary t.base.modelConstraint
      t.base.modelConstraint t.base.catenary.weightUnit) R rfl rfl rfl rfl hg ha h1 hl h2
    rw [hr] at q1
    cases q1
    have := q2 rfl
    rwa [er, e] at this
  · intro hg ha h1
    obtain ⟨r', b, q1, q2⟩ := C92_above_partial (r := CatenaryReloader.given t.base.catenary t.base.modelConstraint
      t.base.modelConstraint t.base.catenary.weightUnit) R rfl rfl rfl rfl hg ha h1 hl
    rw [hr] at q1
    cases q1
    have := q2 rfl
    rwa [er, e] at this

/-- The theorem applies to the example, which is reloaded to its own constraint. -/
example : ∃ s x, LineReloader.run .new
      [.setLineCable (some exHung), .setCondition .initial, .setWeather (some exCalm)] = some s ∧
    s.base.lineCable = some exHung ∧ s.condition = exHung.constraint.condition ∧
    s.weather = exHung.constraint.caseWeather ∧ s.tensionHorizontal.result = some (.val x) ∧ x ≠ -999999 ∧
    |x - 70| ≤ 0.01 := by
  obtain ⟨t, h1, -, -, -, -, -, -, x, hx, hd⟩ := hung_reloads
  refine ⟨exReloader, x, exReloader_run, rfl, rfl, rfl, ?_, ?_, hd⟩
  · have := updated_ask h1 (-999999) fun s => .val s.catenary.tensionHorizontal
    rw [hx] at this
    exact this
  · rintro rfl
    norm_num [abs_of_neg] at hd

/-- The lengths of the example decrease. -/
example (t : CableStretchState) (ht : t.load = 0) :
    let m := some (modelOf (hookeCable 1000000) ⟨60, .loadStrain⟩ t)
    ∃ g : ℝ → ℝ, (∀ h, 50 ≤ h → h ≤ 100 → gap (levelSpan 100 1 70) m m ⟨0, 0, 1⟩ h = .val (g h)) ∧
      ∀ h h', 50 ≤ h → h < h' → h' ≤ 100 → g h' < g h := by
  refine ⟨levelGap 1000000 100 1 70 1, fun h h1 h2 => ?_, fun h h' h1 h2 _ => ?_⟩
  · exact level_gap_like (hung_like (by decide) ht) (hung_like (by decide) ht) (by norm_num) (by norm_num) (by norm_num)
      (by norm_num) (by linarith) (by norm_num) (by linarith)
  · exact level_gap_anti (by norm_num) (by norm_num) (by norm_num) (by norm_num) (by norm_num) (by linarith) h2

/-! ## A tension that the search tries -/

/-- A line cable strung with a horizontal tension of 75 in still air over a 100 ft ruling span. -/
noncomputable def exTried : SectionCable :=
  ⟨some (hookeCable 1000000), [], ⟨some exCalm, .initial, 75, .horizontalTension⟩, ⟨100, 0, 0⟩, some exCalm,
    some exCalm⟩

theorem exTried_ruling : exTried.catenaryRulingSpan = .val (levelSpan 100 1 75) := by
  unfold SectionCable.catenaryRulingSpan
  have : exTried.loadUnit = .val ⟨0, 0, 1⟩ := exHung_load
  rw [this]
  rfl

theorem tried_valid : (levelSpan 100 1 75).validate.1 = true := level_valid (by norm_num) (by norm_num) (by norm_num)

/-- A reload of the example finds the tension 75 and reports failure. -/
theorem tried_reload {t t' : PolynomialType} (ht : t ≠ .null) (ht' : t' ≠ .null) (a b : CableStretchState)
    (ha : a.load = 0) (hb : b.load = 0) :
    ∃ r, (CatenaryReloader.given (levelSpan 100 1 75) (modelOf (hookeCable 1000000) ⟨60, t⟩ a)
      (modelOf (hookeCable 1000000) ⟨60, t'⟩ b) ⟨0, 0, 1⟩).validate = .ok r false := by
  set q := CatenaryReloader.given (levelSpan 100 1 75) (modelOf (hookeCable 1000000) ⟨60, t⟩ a)
    (modelOf (hookeCable 1000000) ⟨60, t'⟩ b) ⟨0, 0, 1⟩ with hq
  have e := level_magnitudes (s := 100) (v := 1) (by norm_num) (by norm_num) 1 75
  have e' : (100:ℝ) / 2 * 1 = 50 := by norm_num
  rw [e'] at e
  have anti : ∀ h h', 50 ≤ h → h < h' → levelGap 1000000 100 1 75 1 h' < levelGap 1000000 100 1 75 1 h := fun h h' h1 h2 =>
    level_gap_anti (by norm_num) (by norm_num) (by norm_num) (by norm_num) (by norm_num) (by linarith) h2
  have z : levelGap 1000000 100 1 75 1 75 = 0 := level_gap_self
  obtain ⟨r, h1, -, -⟩ := reload_meets (r := q) (k := levelSpan 100 1 75) (w := ⟨0, 0, 1⟩) rfl rfl rfl
    (g := levelGap 1000000 100 1 75 1) (x := 75)
    (by
      rw [e]
      intro h h1 h2
      exact level_gap_like (hung_like ht ha) (hung_like ht' hb) (by norm_num) (by norm_num) (by norm_num) (by norm_num)
        (by linarith) (by norm_num) (by linarith))
    (by rw [e]; norm_num) (by rw [e]; exact ⟨1, 1, by norm_num, Or.inr (by norm_num)⟩) z (by rw [e]; norm_num)
    (by rw [e]; norm_num)
    (by rw [e]; intro h h1 h2; have := anti _ _ h1 h2; linarith)
    (by rw [e]; intro h h1 _; have := anti _ _ (by norm_num) h1; linarith)
  refine ⟨r, ?_⟩
  unfold CatenaryReloader.validate
  have e1 : q.modelReference = some (modelOf (hookeCable 1000000) ⟨60, t⟩ a) := rfl
  have e2 : q.modelReloaded = some (modelOf (hookeCable 1000000) ⟨60, t'⟩ b) := rfl
  have e3 : q.catenary = some (levelSpan 100 1 75) := rfl
  have e4 : q.weight = some ⟨0, 0, 1⟩ := rfl
  have v1 : validCatenary (some (levelSpan 100 1 75)) = true := tried_valid
  have v2 : validWeight (some ⟨0, 0, 1⟩) = true := by unfold validWeight; norm_num
  rw [e1, e2, e3, e4, hung_valid ht (calm_state ht) ha, hung_valid ht' (calm_state ht') hb, v1, v2]
  exact h1

/-- **C202** fails.  The reloader is given a line cable with a valid catenary of tension 75, and the weather case and the
condition of its constraint; it reports no tension, because a reload tries 75 and keeps trying it. -/
theorem C202_fails : ∃ s, LineReloader.run .new
      [.setLineCable (some exTried), .setCondition .initial, .setWeather (some exCalm)] = some s ∧
    s.condition = exTried.constraint.condition ∧ s.weather = exTried.constraint.caseWeather ∧
    (hookeCable 1000000).validateSagTension.1 = true ∧
    (∃ K, exTried.catenaryRulingSpan = .val K ∧ K.validate.1 = true ∧ K.tensionHorizontal = 75) ∧
    s.tensionHorizontal.result = some (.val (-999999)) := by
  obtain ⟨r, hr⟩ := tried_reload (t := .loadStrain) (t' := .creep) (by decide) (by decide) ⟨0, .loadStrain, 0⟩
    ⟨60, .creep, 0⟩ rfl rfl
  set s := ((LineReloader.new.setLineCable (some exTried)).setCondition .initial).setWeather (some exCalm) with hs
  have a1 : s.base.updateCatenary exTried = .ok { s.base with catenary := levelSpan 100 1 75 } true := by
    unfold LineLoader.updateCatenary
    rw [exTried_ruling]
    simp only
    rw [if_pos tried_valid]
  have a2 : ∀ x : LineLoader, x.initModels exTried = .ok { x with
      modelConstraint := modelOf (hookeCable 1000000) ⟨60, .loadStrain⟩ ⟨0, .loadStrain, 0⟩
      modelCreep := modelOf (hookeCable 1000000) ⟨60, .creep⟩ ⟨60, .creep, 0⟩
      modelLoad := modelOf (hookeCable 1000000) ⟨60, .loadStrain⟩ ⟨60, .loadStrain, 0⟩ } true := fun x => rfl
  have a3 : ∀ x : LineLoader, x.updateConstraintModel exTried = .ok x true := fun x => rfl
  have a4 : ∀ x : LineLoader, x.catenary = levelSpan 100 1 75 →
      x.modelConstraint = modelOf (hookeCable 1000000) ⟨60, .loadStrain⟩ ⟨0, .loadStrain, 0⟩ →
      x.modelCreep = modelOf (hookeCable 1000000) ⟨60, .creep⟩ ⟨60, .creep, 0⟩ →
      x.updateLoadStretch exTried = .ok x false := by
    intro x e1 e2 e3
    have q : x.solveStretch exTried x.modelCreep exTried.weatherCreep = .val none := by
      unfold LineLoader.solveStretch
      have : exTried.unitLoad exTried.weatherCreep = .val ⟨0, 0, 1⟩ := exHung_load
      rw [this, e1, e2, e3]
      simp only
      rw [hr]
    unfold LineLoader.updateLoadStretch LineLoader.updateStretchCreep
    rw [if_neg (by decide), q]
    rfl
  have hb : ∃ b, s.base.update = .ok b false := by
    unfold LineLoader.update
    have : s.base.lineCable = some exTried := rfl
    rw [this]
    simp only
    rw [a1]
    simp only [Run.bind]
    rw [if_neg (by decide), a2]
    simp only
    rw [a3]
    simp only
    rw [if_neg (by decide)]
    erw [a4 _ rfl rfl rfl]
    exact ⟨_, rfl⟩
  obtain ⟨b, hb⟩ := hb
  refine ⟨s, rfl, rfl, rfl, hooke_valid.1, ⟨_, exTried_ruling, tried_valid, rfl⟩, ?_⟩
  have hu : ∃ t, s.update = .ok t false := by
    have u1 : s.updateBase = .ok { s with base := b } false := by
      have : s.updateBase = s.base.update.mapState fun b => { s with base := b } := rfl
      rw [this, hb]
      rfl
    unfold LineReloader.update
    rw [u1]
    exact ⟨_, rfl⟩
  obtain ⟨t, ht⟩ := hu
  have : s.tensionHorizontal = s.ask (-999999) fun s => .val s.catenary.tensionHorizontal := rfl
  rw [this, LineReloader.ask_eq, ht]
  rfl

end Verif.Props
