import Verif.Props.PointeeEdits

/-!
# C134: the unloaded length of a line cable
-/

set_option linter.unusedSectionVars false

namespace Verif.Props
open Verif Verif.CatenaryReloader Verif.ElongationModel

theorem unloader_asked {A : Type} {s : LineUnloader} (hs : s.Sound) {d z : A} {f : LineUnloader → Res A}
    (h : (s.ask d f).result = some (.val z)) (hz : z ≠ d) :
    ∃ t, s.update = .ok t true ∧ t.isUpdated = true ∧ LineUnloader.Keeps s t ∧ f t = .val z := by
  rw [LineUnloader.ask_eq] at h
  obtain ⟨k1, k2⟩ := LineUnloader.update_sound hs
  generalize hu : s.update = o at h k1 k2
  match o with
  | .ok t true =>
    refine ⟨t, rfl, k2 t rfl, k1 t rfl, ?_⟩
    have h : (Run.ofRes t (f t)).result = some (.val z) := h
    generalize f t = r at h
    match r with
    | .val a => cases h; rfl
    | .throws => cases h
    | .ub => cases h
  | .ok t false => cases h; exact absurd rfl hz
  | .throws t => cases h
  | .ub => cases h
  | .nan => cases h

theorem unloader_ask {A : Type} {s t : LineUnloader} (h : s.update = .ok t true) (d : A) (f : LineUnloader → Res A) :
    (s.ask d f).result = (Run.ofRes t (f t)).result := by
  rw [LineUnloader.ask_eq, h]
  rfl

theorem lengthValue_facts {t : LineUnloader} {l : ℝ} (h : t.lengthValue = .val (some l)) :
    (t.base.catenary.setSpacing t.spacing).validate.1 = true ∧ 0 < (t.base.catenary.setSpacing t.spacing).length ∧
    0 ≤ (t.base.catenary.setSpacing t.spacing).tensionAverage ∧
    CableStrainer.lengthFinish ⟨(t.base.catenary.setSpacing t.spacing).length, 0,
      (t.base.catenary.setSpacing t.spacing).tensionAverage, some t.model, some t.base.modelConstraint⟩ = .val l := by
  unfold LineUnloader.lengthValue at h
  simp only [CatenaryUnloader.setCatenary, CatenaryUnloader.new, CableStrainer.new, CableStrainer.setLoadFinish,
    CableStrainer.setLengthStart, CableStrainer.setLoadStart, CatenaryUnloader.setModelReference,
    CatenaryUnloader.setModelUnloaded, CableStrainer.setModelStart, CableStrainer.setModelFinish] at h
  split at h
  · rename_i hv
    split at h
    · rename_i l' hl
      cases h
      refine ⟨?_, ?_, ?_, hl⟩
      all_goals
        unfold CatenaryUnloader.validate at hv
        simp only at hv
        split at hv
        · rename_i b hb
          cases b with
          | false => simp at hv
          | true =>
            unfold CableStrainer.validate at hb
            split_ifs at hb with hc
            · cases hb
            · first
              | (simp only [not_or, not_le, not_lt] at hc; first | exact hc.1 | exact hc.2.2)
              | (simpa [CatenaryReloader.validCatenary] using hv)
        · cases hv
        · cases hv
    · cases h
    · cases h
  · cases h
  · cases h
  · cases h

/-- **C134**. If a line cable unloader, after any history of calls, reports an unloaded length, then that length is
positive and it is the length of the cable at zero tension: let the span be the ruling span of the constraint hung
between the requested attachment points.  When the reported length is stretched from zero tension, at the requested
temperature and in the requested condition, to the average tension of the span, in the condition and weather of the
constraint, it is exactly as long as the span's cable.  The span is a valid catenary. -/
theorem C134_unloaded {ks : List LineUnloader.Call} {s : LineUnloader} (h : LineUnloader.run .new ks = some s)
    {l : ℝ} {zc zl : CableStretchState} (hl : s.lengthUnloaded.result = some (.val l)) (h0 : l ≠ -999999)
    (hc : s.stretchCreep.result = some (.val zc)) (hd : s.stretchLoad.result = some (.val zl)) :
    ∃ c k w K, s.base.lineCable = some c ∧ c.cable = some k ∧ c.constraint.caseWeather = some w ∧
      c.catenaryRulingSpan = .val K ∧ s.condition ≠ .null ∧
      let span := K.setSpacing s.spacing
      let hung := modelOf k ⟨w.temperatureCable, .loadStrain⟩ (conditionStretch c.constraint.condition zc zl)
      let slack := modelOf k ⟨s.temperature, .loadStrain⟩ (conditionStretch s.condition zc zl)
      span.validate.1 = true ∧ 0 ≤ span.tensionAverage ∧ 0 < l ∧
      CableStrainer.lengthFinish
        { lengthStart := l, loadStart := 0, loadFinish := span.tensionAverage, modelStart := some slack,
          modelFinish := some hung } = .val span.length := by
  have hs : s.Sound := LineUnloader.run_sound (LineUnloader.fresh_sound .new) ks h
  obtain ⟨t, hu, ht, hk, e⟩ := unloader_asked hs hl h0
  have e : t.length = l := by cases e; rfl
  have ec : t.base.stretchCreep = zc := by
    have := unloader_ask hu CableStretchState.new fun s => .val s.base.stretchCreep
    have hc : (s.ask CableStretchState.new fun s => .val s.base.stretchCreep).result = some (.val zc) := hc
    rw [this] at hc
    cases hc; rfl
  have el : t.base.stretchLoad = zl := by
    have := unloader_ask hu CableStretchState.new fun s => .val s.base.stretchLoad
    have hd : (s.ask CableStretchState.new fun s => .val s.base.stretchLoad).result = some (.val zl) := hd
    rw [this] at hd
    cases hd; rfl
  unfold LineUnloader.isUpdated at ht
  simp only [Bool.and_eq_true] at ht
  obtain ⟨⟨hb, hm⟩, hlen⟩ := ht
  have hb' : t.base.updatedStretch = true := by
    unfold LineLoader.isUpdated at hb
    simp only [Bool.and_eq_true] at hb
    exact hb.2
  obtain ⟨c, k, w, a, b, f1, f2, f3, f4, f5, f6, f7, f8, f9, f10, f11⟩ :=
    LineLoader.update_facts (hk.1.base hb').2
  have f1 : t.base.lineCable = some c := f1
  have hmc : t.base.modelConstraint =
      modelOf k ⟨w.temperatureCable, .loadStrain⟩ (conditionStretch c.constraint.condition zc zl) := by
    rw [ec] at f9
    rw [el] at f10
    cases hd : c.constraint.condition with
    | null => exact absurd hd f6
    | initial => exact f11 hd
    | creep =>
      rw [if_pos hd] at f9
      obtain ⟨v, x, _, _, g, _⟩ := f9
      exact g
    | load =>
      rw [if_pos hd] at f10
      obtain ⟨v, x, _, _, g, _⟩ := f10
      exact g
  have hmu : s.condition ≠ .null ∧
      t.model = modelOf k ⟨s.temperature, .loadStrain⟩ (conditionStretch s.condition zc zl) := by
    have := hk.1.model hb hm
    unfold LineUnloader.modelValue at this
    rw [f1] at this
    simp only [Option.bind_some, f2] at this
    rw [hk.2.2.1, hk.2.2.2.2] at this
    cases hd : s.condition with
    | null => rw [hd] at this; cases this
    | initial =>
      rw [hd] at this
      exact ⟨by decide, (Option.some.inj (Res.val.inj this)).symm⟩
    | creep =>
      rw [hd] at this
      refine ⟨by decide, ?_⟩
      have this : Res.val (some (modelOf k ⟨s.temperature, .loadStrain⟩ t.base.stretchCreep)) = .val (some t.model) := this
      rw [ec] at this
      exact (Option.some.inj (Res.val.inj this)).symm
    | load =>
      rw [hd] at this
      refine ⟨by decide, ?_⟩
      have this : Res.val (some (modelOf k ⟨s.temperature, .loadStrain⟩ t.base.stretchLoad)) = .val (some t.model) := this
      rw [el] at this
      exact (Option.some.inj (Res.val.inj this)).symm
  obtain ⟨g1, g2, g3, g4⟩ := lengthValue_facts (hk.1.cat hb hlen)
  rw [hk.2.2.2.1] at g1 g2 g3 g4
  rw [e, hmc, hmu.2] at g4
  refine ⟨c, k, w, t.base.catenary, by rw [← hk.2.1]; exact f1, f2, f3, f7, hmu.1, g1, g3, ?_, C60_round_trip g4⟩
  have key := g4
  unfold CableStrainer.lengthFinish at key
  simp only at key
  split at key
  · rename_i p hp
    split at key
    · rename_i q hq
      exact (C60_sign (s := ⟨_, _, _, _, _⟩) g2 g4 hp hq).1
    · cases key
    · cases key
  · cases key
  · cases key

/-! ## An example: 80 ft of the hung cable -/

/-- An unloader for the example, with attachment points 80 ft apart. -/
noncomputable def exUnloader : LineUnloader :=
  (((LineUnloader.new.setLineCable (some exHung)).setCondition .initial).setSpacing ⟨80, 0, 0⟩).setTemperature 60

theorem exUnloader_run : LineUnloader.run .new [.setLineCable (some exHung), .setCondition .initial,
    .setSpacing ⟨80, 0, 0⟩, .setTemperature 60] = some exUnloader := rfl

theorem hung_unloads : ∃ s l, exUnloader.update = .ok s true ∧ s.isUpdated = true ∧ s.length = l ∧
    s.base.lineCable = some exHung ∧ l = (levelSpan 80 1 70).length / (1 + (levelSpan 80 1 70).tensionAverage / 2000000) ∧
    0 < l ∧ l < (levelSpan 80 1 70).length := by
  obtain ⟨b, h1, h2, h3, h4, h5, h6, h7⟩ := hung_base (s := exUnloader.base) rfl
  obtain ⟨a1, a2⟩ := levelSpan_tension (s := 80) (w := 1) (h := 70) (by norm_num) (by norm_num) (by norm_num)
  have hpos : 0 < (levelSpan 80 1 70).length := by
    rw [(levelSpan_facts (by norm_num) (by norm_num) (by norm_num)).1]
    have := Real.sinh_pos_iff.2 (show (0:ℝ) < 80 * 1 / (2 * 70) by norm_num)
    positivity
  have u1 : exUnloader.updateBase = .ok { exUnloader with base := b } true := by
    have : exUnloader.updateBase = exUnloader.base.update.mapState fun b => { exUnloader with base := b } := rfl
    rw [this, h1]
    rfl
  have u2 : ({ exUnloader with base := b } : LineUnloader).updateModel = .ok { exUnloader with
      base := b
      model := modelOf (hookeCable 1000000) ⟨60, .loadStrain⟩ ⟨0, .loadStrain, 0⟩
      updatedModel := true } true := by
    have : ({ exUnloader with base := b } : LineUnloader).modelValue =
        .val (some (modelOf (hookeCable 1000000) ⟨60, .loadStrain⟩ ⟨0, .loadStrain, 0⟩)) := by
      unfold LineUnloader.modelValue
      have e : ({ exUnloader with base := b } : LineUnloader).base.lineCable = some exHung := h2
      rw [e]
      rfl
    unfold LineUnloader.updateModel
    rw [this]
  set m := modelOf (hookeCable 1000000) ⟨60, .loadStrain⟩ ⟨0, .loadStrain, 0⟩ with hm
  have hl : CableStrainer.lengthFinish ⟨(levelSpan 80 1 70).length, 0, (levelSpan 80 1 70).tensionAverage, some m,
      some m⟩ = .val ((levelSpan 80 1 70).length / (1 + (levelSpan 80 1 70).tensionAverage / 2000000)) := by
    unfold CableStrainer.lengthFinish
    simp only
    rw [hung_like (by decide) rfl _ (by linarith) (by linarith), hung_like (by decide) rfl _ (le_refl _) (by norm_num)]
    simp only
    unfold CableStrainer.elongate
    simp only
    have q : (0:ℝ) / (2 * 1000000) - (levelSpan 80 1 70).tensionAverage / (2 * 1000000) < 0 := by
      rw [zero_div, zero_sub, neg_lt_zero]
      apply div_pos <;> linarith
    rw [if_pos q, abs_of_neg q]
    congr 3
    ring
  have hval : validModel (some m) = .val true := hung_valid (by decide) (calm_state (by decide)) rfl
  obtain ⟨m', hmv⟩ : ∃ m', m.validate false = .ok m' true := by
    unfold validModel at hval
    simp only at hval
    generalize m.validate false = o at hval
    match o with
    | .ok m' v => cases hval; exact ⟨m', rfl⟩
    | .throws _ => cases hval
    | .ub => cases hval
  have u3 : ∀ x : LineUnloader, x.base = b → x.spacing = ⟨80, 0, 0⟩ → x.model = m → x.updateLength = .ok { x with
      length := (levelSpan 80 1 70).length / (1 + (levelSpan 80 1 70).tensionAverage / 2000000)
      updatedLength := true } true := by
    intro x e1 e2 e3
    have : x.lengthValue = .val (some ((levelSpan 80 1 70).length / (1 + (levelSpan 80 1 70).tensionAverage / 2000000))) := by
      unfold LineUnloader.lengthValue
      rw [e1, e2, e3, h3, h4]
      have es : (levelSpan 100 1 70).setSpacing ⟨80, 0, 0⟩ = levelSpan 80 1 70 := rfl
      rw [es]
      simp only [CatenaryUnloader.setCatenary, CatenaryUnloader.new, CableStrainer.new, CableStrainer.setLoadFinish,
        CableStrainer.setLengthStart, CableStrainer.setLoadStart, CatenaryUnloader.setModelReference,
        CatenaryUnloader.setModelUnloaded, CableStrainer.setModelStart, CableStrainer.setModelFinish,
        CatenaryUnloader.validate, CableStrainer.validate, CatenaryUnloader.lengthUnloaded, hl]
      have hn : ¬ ((levelSpan 80 1 70).length ≤ 0 ∨ (0:ℝ) < 0 ∨ (levelSpan 80 1 70).tensionAverage < 0) := by
        simp only [not_or, not_le, not_lt]; exact ⟨hpos, le_refl _, by linarith⟩
      simp only [if_neg hn, hmv]
      have v : validCatenary (some (levelSpan 80 1 70)) = true :=
        level_valid (by norm_num) (by norm_num) (by norm_num)
      simp only [v]
      rfl
    unfold LineUnloader.updateLength
    rw [this]
  refine ⟨{ exUnloader with
      base := b
      model := m
      updatedModel := true
      length := (levelSpan 80 1 70).length / (1 + (levelSpan 80 1 70).tensionAverage / 2000000)
      updatedLength := true }, _, ?_, ?_, rfl, h2, rfl, ?_, ?_⟩
  · unfold LineUnloader.update
    rw [u1]
    have u4 := u3 { exUnloader with base := b, model := m, updatedModel := true } rfl rfl rfl
    show (({ exUnloader with base := b } : LineUnloader).updateModel.bind fun s c =>
      if c = false then .ok s false else if s.updatedLength = true then .ok s true else s.updateLength) = _
    rw [u2]
    exact u4
  · show (b.isUpdated && true && true) = true
    unfold LineLoader.isUpdated
    rw [h5, h6]; rfl
  · have : 0 < 1 + (levelSpan 80 1 70).tensionAverage / 2000000 := by
      have : 0 ≤ (levelSpan 80 1 70).tensionAverage / 2000000 := by apply div_nonneg <;> linarith
      linarith
    positivity
  · apply div_lt_self hpos
    have : 0 < (levelSpan 80 1 70).tensionAverage / 2000000 := by apply div_pos <;> linarith
    linarith

/-- The theorem applies to the example: the unloaded length is shorter than the hung one. -/
example : ∃ l zc zl, exUnloader.lengthUnloaded.result = some (.val l) ∧ l ≠ -999999 ∧
    l < (levelSpan 80 1 70).length ∧ exUnloader.stretchCreep.result = some (.val zc) ∧
    exUnloader.stretchLoad.result = some (.val zl) := by
  obtain ⟨s, l, h1, h2, h3, h4, h5, h6, h7⟩ := hung_unloads
  exact ⟨_, _, _, unloader_ask h1 _ _, by rw [h3]; linarith, by rw [h3]; exact h7, unloader_ask h1 _ _,
    unloader_ask h1 _ _⟩

/-- C133_unloader_ignores applies to the example. -/
example : ∃ s, exUnloader.lengthUnloaded.state? = some s ∧ s.isUpdated = true := by
  obtain ⟨s, l, h1, h2, h3, h4, h5, h6, h7⟩ := hung_unloads
  refine ⟨s, ?_, h2⟩
  unfold LineUnloader.lengthUnloaded
  rw [LineUnloader.ask_eq, h1]
  rfl

end Verif.Props
