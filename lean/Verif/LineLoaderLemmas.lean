import Verif.LineLoader

/-! # Lemmas about the line loaders: updates depend on the settings only -/

set_option linter.unusedSectionVars false

namespace Verif

namespace Run

/-- Two calls that go the same way, with related states when both return. -/
def Rel {S T A : Type} (R : A → S → T → Prop) (o : Run S A) (o' : Run T A) : Prop :=
  match o, o' with
  | .ok s a, .ok s' a' => a = a' ∧ R a s s'
  | .throws _, .throws _ => True
  | .ub, .ub => True
  | .nan, .nan => True
  | _, _ => False

theorem Rel.bind {S T A B : Type} {R : A → S → T → Prop} {Q : B → S → T → Prop} {o : Run S A} {o' : Run T A}
    {f : S → A → Run S B} {f' : T → A → Run T B} (h : Rel R o o')
    (hf : ∀ a s s', R a s s' → Rel Q (f s a) (f' s' a)) : Rel Q (o.bind f) (o'.bind f') := by
  match o, o', h with
  | .ok s a, .ok s' _, ⟨rfl, h⟩ => exact hf _ _ _ h
  | .throws _, .throws _, _ => exact True.intro
  | .ub, .ub, _ => exact True.intro
  | .nan, .nan, _ => exact True.intro

theorem Rel.mono {S T A : Type} {R Q : A → S → T → Prop} {o : Run S A} {o' : Run T A} (h : Rel R o o')
    (hf : ∀ a s s', R a s s' → Q a s s') : Rel Q o o' := by
  match o, o', h with
  | .ok s a, .ok s' _, ⟨rfl, h⟩ => exact ⟨rfl, hf _ _ _ h⟩
  | .throws _, .throws _, _ => exact True.intro
  | .ub, .ub, _ => exact True.intro
  | .nan, .nan, _ => exact True.intro

theorem Rel.result {S T A : Type} {R : A → S → T → Prop} {o : Run S A} {o' : Run T A} (h : Rel R o o') :
    o.result = o'.result := by
  match o, o', h with
  | .ok s a, .ok s' _, ⟨rfl, _⟩ => rfl
  | .throws _, .throws _, _ => rfl
  | .ub, .ub, _ => rfl
  | .nan, .nan, _ => rfl

theorem Rel.refl {S A : Type} {R : A → S → S → Prop} (hR : ∀ a s, R a s s) (o : Run S A) : Rel R o o := by
  match o with
  | .ok s a => exact ⟨rfl, hR _ _⟩
  | .throws _ => exact True.intro
  | .ub => exact True.intro
  | .nan => exact True.intro

theorem Rel.ok {S T A : Type} {R : A → S → T → Prop} {o : Run S A} {t : T} {a : A} (h : Rel R o (.ok t a)) :
    ∃ s, o = .ok s a ∧ R a s t := by
  match o, h with
  | .ok s _, ⟨rfl, h⟩ => exact ⟨s, rfl, h⟩

/-- A property of the states after a call, given with the value when it returns. -/
def All {S A : Type} (P : S → Prop) (o : Run S A) : Prop := ∀ t, o.state? = some t → P t

theorem Rel.join {S T U A : Type} {R : A → S → U → Prop} {Q : A → T → U → Prop} {o : Run S A} {o' : Run T A}
    {p : Run U A} (h : Rel R o p) (h' : Rel Q o' p) : Rel (fun a s t => ∃ u, R a s u ∧ Q a t u) o o' := by
  match o, o', p, h, h' with
  | .ok s a, .ok s' _, .ok u _, ⟨rfl, h⟩, ⟨rfl, h'⟩ => exact ⟨rfl, u, h, h'⟩
  | .throws _, .throws _, .throws _, _, _ => exact True.intro
  | .ub, .ub, .ub, _, _ => exact True.intro
  | .nan, .nan, .nan, _, _ => exact True.intro

theorem Rel.andOk {S T A : Type} {R : A → S → T → Prop} {o : Run S A} {o' : Run T A} (h : Rel R o o') :
    Rel (fun a s t => R a s t ∧ o = .ok s a ∧ o' = .ok t a) o o' := by
  match o, o', h with
  | .ok s a, .ok s' _, ⟨rfl, h⟩ => exact ⟨rfl, h, rfl, rfl⟩
  | .throws _, .throws _, _ => exact True.intro
  | .ub, .ub, _ => exact True.intro
  | .nan, .nan, _ => exact True.intro

theorem Rel.mapState {S T U A : Type} {R : A → S → T → Prop} {Q : A → U → T → Prop} {o : Run S A} {o' : Run T A}
    {g : S → U} (h : Rel R o o') (hg : ∀ a s t, R a s t → Q a (g s) t) : Rel Q (o.mapState g) o' := by
  match o, o', h with
  | .ok s a, .ok s' _, ⟨rfl, h⟩ => exact ⟨rfl, hg _ _ _ h⟩
  | .throws _, .throws _, _ => exact True.intro
  | .ub, .ub, _ => exact True.intro
  | .nan, .nan, _ => exact True.intro

theorem Rel.and {S T A : Type} {R : A → S → T → Prop} {P : S → Prop} {Q : T → Prop} {o : Run S A} {o' : Run T A}
    (h : Rel R o o') (hP : All P o) (hQ : All Q o') : Rel (fun a s t => R a s t ∧ P s ∧ Q t) o o' := by
  match o, o', h with
  | .ok s a, .ok s' _, ⟨rfl, h⟩ => exact ⟨rfl, h, hP _ rfl, hQ _ rfl⟩
  | .throws _, .throws _, _ => exact True.intro
  | .ub, .ub, _ => exact True.intro
  | .nan, .nan, _ => exact True.intro

theorem All.bind {S A B : Type} {P Q : S → Prop} {o : Run S A} {f : S → A → Run S B} (h : All P o)
    (ht : ∀ s, P s → Q s) (hf : ∀ s a, o = .ok s a → P s → All Q (f s a)) : All Q (o.bind f) := by
  intro t e
  match o, h with
  | .ok s a, h => exact hf s a rfl (h s rfl) t e
  | .throws s, h => cases e; exact ht _ (h _ rfl)
  | .ub, _ => cases e
  | .nan, _ => cases e

theorem bind_ok {S A B : Type} {o : Run S A} {f : S → A → Run S B} {t : S} {b : B}
    (h : o.bind f = .ok t b) : ∃ s a, o = .ok s a ∧ f s a = .ok t b := by
  match o with
  | .ok s a => exact ⟨s, a, rfl, h⟩
  | .throws s => cases h
  | .ub => cases h
  | .nan => cases h

end Run

namespace LineLoader

open Run

/-- Everything but the stretch. -/
def Agree (s s' : LineLoader) : Prop :=
  s.lineCable = s'.lineCable ∧ s.catenary = s'.catenary ∧ s.modelConstraint = s'.modelConstraint ∧
    s.modelCreep = s'.modelCreep ∧ s.modelLoad = s'.modelLoad

theorem updateCatenary_rel (s s' : LineLoader) (c : SectionCable) (h : s.lineCable = s'.lineCable) :
    Rel (fun b t t' => t.lineCable = t'.lineCable ∧ (b = true → t.catenary = t'.catenary))
      (s.updateCatenary c) (s'.updateCatenary c) := by
  unfold updateCatenary
  split
  · split_ifs
    · exact ⟨rfl, h, fun _ => rfl⟩
    · exact ⟨rfl, h, fun h => by cases h⟩
  · exact True.intro
  · exact True.intro

theorem initModels_rel (s s' : LineLoader) (c : SectionCable) (h : s.lineCable = s'.lineCable)
    (hc : s.catenary = s'.catenary) :
    Rel (fun _ t t' => c.constraint.condition = .null ∧ t.lineCable = t'.lineCable ∨ Agree t t')
      (s.initModels c) (s'.initModels c) := by
  unfold initModels
  split
  · split_ifs with h0
    · exact ⟨rfl, Or.inl ⟨h0, h⟩⟩
    · split
      · exact ⟨rfl, Or.inr ⟨h, hc, rfl, rfl, rfl⟩⟩
      · exact True.intro
  · exact True.intro

theorem solveConstraintStretch_rel {s s' : LineLoader} (h : Agree s s') (c : SectionCable) (rel : ElongationModel)
    (w : Option WeatherLoadCase) :
    Rel (fun _ t t' => Agree t t') (s.solveConstraintStretch c rel w) (s'.solveConstraintStretch c rel w) := by
  obtain ⟨h1, h2, h3, h4, h5⟩ := h
  have e : ∀ x, s.stretched x = s'.stretched x := fun x => by unfold stretched; rw [h3]
  have e2 : ∀ v, s.stretchDifference rel v = s'.stretchDifference rel v := fun v => by
    funext x; unfold stretchDifference; rw [h2, e]
  unfold solveConstraintStretch
  split
  · rw [e2]
    split
    · exact ⟨rfl, h1, h2, e _, h4, h5⟩
    · exact ⟨rfl, h1, h2, e _, h4, h5⟩
    · exact True.intro
    · exact True.intro
    · exact True.intro
  · exact True.intro

theorem updateConstraintModel_rel {s s' : LineLoader} (c : SectionCable)
    (h : c.constraint.condition = .null ∧ s.lineCable = s'.lineCable ∨ Agree s s') :
    Rel (fun b t t' => t.lineCable = t'.lineCable ∧ (b = true → Agree t t'))
      (s.updateConstraintModel c) (s'.updateConstraintModel c) := by
  unfold updateConstraintModel
  rcases h with ⟨h, h'⟩ | h
  · rw [h]
    exact ⟨rfl, h', fun h => by cases h⟩
  · split
    · exact ⟨rfl, h.1, fun _ => h⟩
    · rw [h.2.2.2.1]
      exact (solveConstraintStretch_rel h c _ _).mono fun _ _ _ h => ⟨h.1, fun _ => h⟩
    · rw [h.2.2.2.2]
      exact (solveConstraintStretch_rel h c _ _).mono fun _ _ _ h => ⟨h.1, fun _ => h⟩
    · exact ⟨rfl, h.1, fun h => by cases h⟩

theorem solveStretch_agree {s s' : LineLoader} (h : Agree s s') (c : SectionCable) (rel : ElongationModel)
    (w : Option WeatherLoadCase) : s.solveStretch c rel w = s'.solveStretch c rel w := by
  unfold solveStretch; rw [h.2.1, h.2.2.1]

theorem updateLoadStretch_rel {s s' : LineLoader} (h : Agree s s') (c : SectionCable) :
    Rel (fun b t t' => t.lineCable = t'.lineCable ∧ (b = true → Agree t t' ∧ t.stretchCreep = t'.stretchCreep ∧
      t.stretchLoad = t'.stretchLoad)) (s.updateLoadStretch c) (s'.updateLoadStretch c) := by
  unfold updateLoadStretch
  have h1 : Rel (fun b t t' => Agree t t' ∧ (b = true → t.stretchCreep = t'.stretchCreep))
      (s.updateStretchCreep c) (s'.updateStretchCreep c) := by
    unfold updateStretchCreep
    split_ifs
    · exact ⟨rfl, h, fun _ => h.2.2.1 ▸ rfl⟩
    · have e : s.solveStretch c s.modelCreep c.weatherCreep = s'.solveStretch c s'.modelCreep c.weatherCreep := by
        rw [solveStretch_agree h, h.2.2.2.1]
      rw [e]
      split
      · exact ⟨rfl, h, fun _ => rfl⟩
      · exact ⟨rfl, h, fun h => by cases h⟩
      · exact True.intro
      · exact True.intro
  refine h1.bind fun b t t' ht => ?_
  split_ifs with hb
  · obtain ⟨ha, hc⟩ := ht
    unfold updateStretchLoad
    split_ifs
    · exact ⟨rfl, ha.1, fun _ => ⟨ha, hc hb, ha.2.2.1 ▸ rfl⟩⟩
    · have e : t.solveStretch c t.modelLoad c.weatherLoad = t'.solveStretch c t'.modelLoad c.weatherLoad := by
        rw [solveStretch_agree ha, ha.2.2.2.2]
      rw [e]
      split
      · exact ⟨rfl, ha.1, fun _ => ⟨ha, hc hb, rfl⟩⟩
      · exact ⟨rfl, ha.1, fun h => by cases h⟩
      · exact True.intro
      · exact True.intro
  · exact ⟨rfl, ht.1.1, fun h => by cases h⟩

theorem updateLoadStretch_flag (t : LineLoader) (c : SectionCable) :
    All (fun r => r.updatedCatenary = t.updatedCatenary) (t.updateLoadStretch c) := by
  unfold updateLoadStretch
  refine All.bind (P := fun r => r.updatedCatenary = t.updatedCatenary) ?_ (fun _ h => h) ?_
  · unfold updateStretchCreep
    split_ifs
    · intro r e; cases e; rfl
    · split <;> (intro r e; cases e; try rfl)
  · intro r b _ hr
    split_ifs
    · unfold updateStretchLoad
      split_ifs
      · intro q e; cases e; exact hr
      · split <;> (intro r e; cases e; try exact hr)
    · intro q e; cases e; exact hr

/-- An update depends on the line cable only; a successful one determines the whole object. -/
theorem update_rel {s s' : LineLoader} (h : s.lineCable = s'.lineCable) :
    Rel (fun b t t' => t.lineCable = t'.lineCable ∧ (b = true → t = t' ∧ t.updatedStretch = true)) s.update s'.update := by
  unfold update
  rw [← h]
  split
  · exact True.intro
  · rename_i c _
    refine (updateCatenary_rel s s' c h).bind fun b t t' ht => ?_
    split_ifs with hb
    · exact ⟨rfl, ht.1, fun h => by cases h⟩
    · have hc := ht.2 (by simpa using hb)
      refine (initModels_rel { t with updatedCatenary := true } { t' with updatedCatenary := true } c ht.1 hc).bind fun _ t t' ht => ?_
      refine (updateConstraintModel_rel c ht).bind fun b t t' ht => ?_
      split_ifs with hb
      · exact ⟨rfl, ht.1, fun h => by cases h⟩
      · have ha := ht.2 (by simpa using hb)
        have key := updateLoadStretch_rel (s := { t with updatedCatenary := true })
          (s' := { t' with updatedCatenary := true }) ha c
        have f1 := updateLoadStretch_flag { t with updatedCatenary := true } c
        have f2 := updateLoadStretch_flag { t' with updatedCatenary := true } c
        refine (key.and f1 f2).bind fun b r r' hr => ?_
        obtain ⟨⟨h1, h2⟩, e1, e2⟩ := hr
        refine ⟨rfl, h1, fun hb => ?_⟩
        obtain ⟨⟨g1, g2, g3, g4, g5⟩, g6, g7⟩ := h2 hb
        refine ⟨?_, hb⟩
        obtain ⟨a1, a2, a3, a4, a5, a6, a7, a8, a9⟩ := r
        obtain ⟨b1, b2, b3, b4, b5, b6, b7, b8, b9⟩ := r'
        simp only at g1 g2 g3 g4 g5 g6 g7 e1 e2
        subst g1 g2 g3 g4 g5 g6 g7 e1 e2
        rfl

/-- The flags and the line cable after an update. -/
theorem update_flags {s : LineLoader} (hs : s.updatedStretch = false) :
    (∀ t, s.update.state? = some t → t.lineCable = s.lineCable) ∧
    (∀ t, s.update = .ok t true → t.updatedCatenary = true ∧ t.updatedStretch = true) ∧
    (∀ t, s.update = .ok t false → t.updatedStretch = false) ∧
    (∀ t, s.update = .throws t → t.updatedStretch = false) := by
  -- the line cable and the stretch flag during the update
  let P : LineLoader → Prop := fun t => t.lineCable = s.lineCable ∧ t.updatedStretch = false
  have h1 : ∀ t c, P t → All P (t.updateCatenary c) := by
    intro t c ht
    unfold updateCatenary
    split
    · split_ifs <;> (intro r e; cases e; exact ht)
    · intro r e; cases e; exact ht
    · intro r e; cases e
  have h2 : ∀ t c, P t → All P (t.initModels c) := by
    intro t c ht
    unfold initModels
    split
    · split_ifs
      · intro r e; cases e; exact ht
      · split
        · intro r e; cases e; exact ht
        · intro r e; cases e
    · intro r e; cases e
  have h3 : ∀ t c m w, P t → All P (t.solveConstraintStretch c m w) := by
    intro t c m w ht
    unfold solveConstraintStretch
    split
    · split <;> (intro r e; cases e; try exact ht)
    · intro r e; cases e
  have h4 : ∀ t c, P t → All P (t.updateConstraintModel c) := by
    intro t c ht
    unfold updateConstraintModel
    split
    · intro r e; cases e; exact ht
    · exact h3 _ _ _ _ ht
    · exact h3 _ _ _ _ ht
    · intro r e; cases e; exact ht
  have h5 : ∀ t c, P t → All P (t.updateLoadStretch c) := by
    intro t c ht
    unfold updateLoadStretch
    refine All.bind (P := P) ?_ (fun _ h => h) ?_
    · unfold updateStretchCreep
      split_ifs
      · intro r e; cases e; exact ht
      · split <;> (intro r e; cases e; try exact ht)
    · intro r b _ hr
      split_ifs
      · unfold updateStretchLoad
        split_ifs
        · intro r e; cases e; exact hr
        · split <;> (intro r e; cases e; try exact hr)
      · intro r e; cases e; exact hr
  -- the final state
  let F : Run LineLoader Bool → Prop := fun o =>
    match o with
    | .ok t true => t.lineCable = s.lineCable ∧ t.updatedStretch = true
    | .ok t false => P t
    | .throws t => P t
    | _ => True
  have hF : F s.update := by
    show F (match s.lineCable with | none => _ | some c => _)
    have bindF : ∀ {A : Type} (o : Run LineLoader A) (f : LineLoader → A → Run LineLoader Bool), All P o →
        (∀ t a, P t → F (f t a)) → F (o.bind f) := by
      intro A o f ho hf
      match o, ho with
      | .ok t a, ho => exact hf t a (ho t rfl)
      | .throws t, ho => exact ho t rfl
      | .ub, _ => exact True.intro
      | .nan, _ => exact True.intro
    split
    · exact True.intro
    · rename_i c _
      refine bindF _ _ (h1 s c ⟨rfl, hs⟩) fun t b ht => ?_
      split_ifs
      · exact ht
      · refine bindF _ _ (h2 _ c ht) fun t _ ht => ?_
        refine bindF _ _ (h4 t c ht) fun t b ht => ?_
        split_ifs
        · exact ht
        · refine bindF _ _ (h5 _ c ht) fun t b ht => ?_
          cases b with
          | true => exact ⟨ht.1, rfl⟩
          | false => exact ⟨ht.1, rfl⟩
  have hC : ∀ t, s.update = .ok t true → t.updatedCatenary = true := by
    intro t e
    unfold update at e
    split at e
    · cases e
    · obtain ⟨t1, b1, _, e⟩ := bind_ok e
      split_ifs at e
      · cases e
      obtain ⟨t2, b2, _, e⟩ := bind_ok e
      obtain ⟨t3, b3, _, e⟩ := bind_ok e
      split_ifs at e
      · cases e
      obtain ⟨t4, b4, e4, e⟩ := bind_ok e
      have := updateLoadStretch_flag _ _ t4 (by rw [e4]; rfl)
      cases e
      exact this
  refine ⟨?_, ?_, ?_, ?_⟩
  · intro t e
    generalize s.update = o at hF e
    match o, hF with
    | .ok t true, hF => cases e; exact hF.1
    | .ok t false, hF => cases e; exact hF.1
    | .throws t, hF => cases e; exact hF.1
    | .ub, _ => cases e
    | .nan, _ => cases e
  · intro t e
    have := hC t e
    rw [e] at hF
    exact ⟨this, hF.2⟩
  · intro t e; rw [e] at hF; exact hF.2
  · intro t e; rw [e] at hF; exact hF.2

/-- The base object after any history: the stretch is marked as updated only if the object is what an update of a
new one gives. -/
def Sound (s : LineLoader) : Prop :=
  s.updatedStretch = true → s.updatedCatenary = true ∧ (LineLoader.new.setLineCable s.lineCable).update = .ok s true

theorem sound_update {s : LineLoader} (hs : s.updatedStretch = false) {t : LineLoader}
    (h : s.update.state? = some t) : Sound t := by
  intro ht
  obtain ⟨f1, f2, f3, f4⟩ := update_flags hs
  have hl := f1 t h
  have key := update_rel (s := LineLoader.new.setLineCable t.lineCable) (s' := s) hl
  generalize hu : s.update = o at h f2 f3 f4 key
  match o with
  | .ok r true =>
    cases h
    refine ⟨(f2 t rfl).1, ?_⟩
    obtain ⟨r, h1, _, h2⟩ := key.ok
    rw [h1, (h2 rfl).1]
  | .ok r false =>
    cases h
    rw [f3 t rfl] at ht; cases ht
  | .throws r =>
    cases h
    rw [f4 t rfl] at ht; cases ht
  | .ub => cases h
  | .nan => cases h

theorem Sound.stretch_false {s : LineLoader} (h : Sound s) (hu : s.isUpdated = false) : s.updatedStretch = false := by
  by_contra hc
  have hc : s.updatedStretch = true := by simpa using hc
  have := (h hc).1
  unfold isUpdated at hu
  rw [this, hc] at hu
  cases hu

end LineLoader


namespace LineReloader

open Run

/-- A new reloader with the settings of `s`. -/
noncomputable def fresh (s : LineReloader) : LineReloader :=
  ((LineReloader.new.setLineCable s.base.lineCable).setCondition s.condition).setWeather s.weather

/-- The object after any history: what is marked as updated is what the present settings give. -/
structure Sound (s : LineReloader) : Prop where
  base : s.base.Sound
  order : s.updatedCatenary = true → s.updatedModel = true
  model : s.base.isUpdated = true → s.updatedModel = true → s.modelValue = .val (some s.model)
  cat : s.base.isUpdated = true → s.updatedCatenary = true → s.catenaryValue = .val (some s.catenary)

/-- The same settings and, after a success, the same object. -/
def Match (b : Bool) (s s' : LineReloader) : Prop :=
  (s.base.lineCable = s'.base.lineCable ∧ s.condition = s'.condition ∧ s.weather = s'.weather) ∧
    (b = true → s = s')

/-- The settings of the object, and what holds of it after a call. -/
def Keeps (s t : LineReloader) : Prop :=
  t.Sound ∧ t.base.lineCable = s.base.lineCable ∧ t.condition = s.condition ∧ t.weather = s.weather

theorem modelValue_congr {s s' : LineReloader} (hb : s.base = s'.base) (hc : s.condition = s'.condition)
    (hw : s.weather = s'.weather) : s.modelValue = s'.modelValue := by
  unfold modelValue; rw [hb, hc, hw]

theorem catenaryValue_congr {s s' : LineReloader} (hb : s.base = s'.base) (hm : s.model = s'.model)
    (hw : s.weather = s'.weather) : s.catenaryValue = s'.catenaryValue := by
  unfold catenaryValue; rw [hb, hm, hw]

/-- What the first part of an update gives. -/
theorem updateBase_sound {s : LineReloader} (h : s.Sound) :
    All (Keeps s) s.updateBase ∧ ∀ t, s.updateBase = .ok t true → t.base.isUpdated = true := by
  by_cases hu : s.base.isUpdated = true
  · have e : s.updateBase = .ok s true := by unfold updateBase; rw [if_pos hu]
    rw [e]
    refine ⟨?_, ?_⟩
    · intro t ht; cases ht; exact ⟨h, rfl, rfl, rfl⟩
    · intro t ht; cases ht; exact hu
  · have e : s.updateBase = s.base.update.mapState
        (fun b => { s with base := b, updatedModel := false, updatedCatenary := false }) := by
      unfold updateBase; rw [if_neg hu]
    have hf := h.base.stretch_false (by simpa using hu)
    obtain ⟨f1, f2, f3, f4⟩ := LineLoader.update_flags hf
    have f5 := fun t => LineLoader.sound_update (t := t) hf
    rw [e]
    generalize s.base.update = o at f1 f2 f3 f4 f5
    refine ⟨?_, ?_⟩
    · intro t ht
      match o with
      | .ok b v =>
        cases ht
        exact ⟨⟨f5 b rfl, (fun h => by cases h), (fun _ h => by cases h), (fun _ h => by cases h)⟩, f1 b rfl, rfl, rfl⟩
      | .throws b =>
        cases ht
        exact ⟨⟨f5 b rfl, (fun h => by cases h), (fun _ h => by cases h), (fun _ h => by cases h)⟩, f1 b rfl, rfl, rfl⟩
      | .ub => cases ht
      | .nan => cases ht
    · intro t ht
      match o with
      | .ok b v =>
        cases ht
        obtain ⟨g1, g2⟩ := f2 b rfl
        show (b.updatedCatenary && b.updatedStretch) = true
        rw [g1, g2]; rfl
      | .throws b => cases ht
      | .ub => cases ht
      | .nan => cases ht

/-- The second stage of an update. -/
theorem stage_model {s : LineReloader} (h : s.Sound) (hu : s.base.isUpdated = true) :
    (if s.updatedModel = true then .ok s true else s.updateModel) = s.updateModel := by
  split_ifs with hm
  · unfold updateModel
    rw [h.model hu hm]
    simp only
    congr 1
    obtain ⟨a, b, c, d, e, f, g⟩ := s
    simp only at hm
    subst hm
    rfl
  · rfl

/-- The third stage of an update. -/
theorem stage_catenary {s : LineReloader} (h : s.Sound) (hu : s.base.isUpdated = true) :
    (if s.updatedCatenary = true then .ok s true else s.updateReloaded) = s.updateReloaded := by
  split_ifs with hm
  · unfold updateReloaded
    rw [h.cat hu hm]
    simp only
    congr 1
    obtain ⟨a, b, c, d, e, f, g⟩ := s
    simp only at hm
    subst hm
    rfl
  · rfl

theorem updateModel_sound {s : LineReloader} (h : s.Sound) (hu : s.base.isUpdated = true) :
    All (Keeps s) s.updateModel ∧
      ∀ t, s.updateModel = .ok t true → t.base = s.base := by
  unfold updateModel
  match hv : s.modelValue with
  | .val (some m) =>
    refine ⟨?_, ?_⟩
    · intro t ht; cases ht
      refine ⟨⟨h.base, (fun _ => rfl), fun _ _ => hv, fun hb hc => ?_⟩, rfl, rfl, rfl⟩
      have h1 := h.model hb (h.order hc)
      have h2 := h.cat hb hc
      rw [hv] at h1
      have : m = s.model := by injection h1 with h1; injection h1
      subst this
      exact h2
    · intro t ht; cases ht; rfl
  | .val none =>
    refine ⟨?_, fun t ht => by cases ht⟩
    intro t ht; cases ht
    by_cases hc : s.updatedCatenary = true
    · have h1 := h.model hu (h.order hc)
      rw [hv] at h1
      cases h1
    · exact ⟨⟨h.base, (fun h => absurd h hc), (fun _ h => by cases h), (fun _ h => absurd h hc)⟩, rfl, rfl, rfl⟩
  | .throws =>
    refine ⟨?_, fun t ht => by cases ht⟩
    intro t ht; cases ht; exact ⟨h, rfl, rfl, rfl⟩
  | .ub => exact ⟨(fun t ht => by cases ht), fun t ht => by cases ht⟩

theorem updateReloaded_sound {s : LineReloader} (h : s.Sound) (hm : s.updatedModel = true) :
    All (Keeps s) s.updateReloaded ∧
      ∀ t, s.updateReloaded = .ok t true → t.base = s.base ∧ t.updatedModel = true ∧ t.updatedCatenary = true := by
  unfold updateReloaded
  match hv : s.catenaryValue with
  | .val (some k) =>
    refine ⟨?_, ?_⟩
    · intro t ht; cases ht
      exact ⟨⟨h.base, (fun _ => hm), h.model, fun _ _ => hv⟩, rfl, rfl, rfl⟩
    · intro t ht; cases ht; exact ⟨rfl, hm, rfl⟩
  | .val none =>
    refine ⟨?_, fun t ht => by cases ht⟩
    intro t ht; cases ht
    exact ⟨⟨h.base, (fun h => by cases h), h.model, (fun _ h => by cases h)⟩, rfl, rfl, rfl⟩
  | .throws =>
    refine ⟨?_, fun t ht => by cases ht⟩
    intro t ht; cases ht; exact ⟨h, rfl, rfl, rfl⟩
  | .ub => exact ⟨(fun t ht => by cases ht), fun t ht => by cases ht⟩

theorem Keeps.trans {s t u : LineReloader} (h : Keeps s t) (h' : Keeps t u) : Keeps s u :=
  ⟨h'.1, h'.2.1.trans h.2.1, h'.2.2.1.trans h.2.2.1, h'.2.2.2.trans h.2.2.2⟩

theorem Keeps.rfl {s : LineReloader} (h : s.Sound) : Keeps s s := ⟨h, _root_.rfl, _root_.rfl, _root_.rfl⟩

theorem updateModel_true {s t : LineReloader} (h : s.updateModel = .ok t true) : t.updatedModel = true := by
  unfold updateModel at h
  split at h
  · cases h; rfl
  · cases h
  · cases h
  · cases h

/-- An update keeps the settings and leaves a sound object. -/
theorem update_sound {s : LineReloader} (h : s.Sound) :
    All (Keeps s) s.update ∧ ∀ t, s.update = .ok t true → t.isUpdated = true := by
  obtain ⟨b1, b2⟩ := updateBase_sound h
  refine ⟨?_, ?_⟩
  · refine All.bind b1 (fun _ h => h) fun t b e ht => ?_
    by_cases hb : b = false
    · rw [if_pos hb]; intro u hu; cases hu; exact ht
    · rw [if_neg hb]
      have hu := b2 t (by rw [e]; congr 1; simpa using hb)
      rw [stage_model ht.1 hu]
      obtain ⟨m1, m2⟩ := updateModel_sound ht.1 hu
      refine All.bind m1 (fun _ h => ht.trans h) fun r b e' hr => ?_
      split_ifs with hb
      · intro u hu; cases hu; exact ht.trans hr
      · intro u hu; cases hu; exact ht.trans hr
      · have e'' : t.updateModel = .ok r true := by rw [e']; congr 1; simpa using hb
        intro u hu
        exact (ht.trans hr).trans ((updateReloaded_sound hr.1 (updateModel_true e'')).1 u hu)
  · intro t e
    unfold update at e
    obtain ⟨t1, c1, e1, e⟩ := bind_ok e
    by_cases hb : c1 = false
    · rw [if_pos hb] at e; cases e
    rw [if_neg hb] at e
    have h1 := b1 t1 (by rw [e1]; rfl)
    have hu := b2 t1 (by rw [e1]; congr 1; simpa using hb)
    rw [stage_model h1.1 hu] at e
    obtain ⟨t2, c2, e2, e⟩ := bind_ok e
    have h2 := (updateModel_sound h1.1 hu).1 t2 (by rw [e2]; rfl)
    split_ifs at e with hb2 hb3
    · cases e
    · cases e
      have e2' : t1.updateModel = .ok t true := by rw [e2]; congr 1; simpa using hb2
      have := (updateModel_sound h1.1 hu).2 t e2'
      unfold isUpdated
      rw [this, hu, updateModel_true e2', hb3]; rfl
    · have e2' : t1.updateModel = .ok t2 true := by rw [e2]; congr 1; simpa using hb2
      obtain ⟨g1, g2, g3⟩ := (updateReloaded_sound h2.1 (updateModel_true e2')).2 t e
      unfold isUpdated
      rw [g1, g2, g3, (updateModel_sound h1.1 hu).2 t2 e2', hu]; rfl

theorem updateBase_rel {s : LineReloader} (h : s.Sound) :
    Rel (fun b t u => b = true → t.base = u) s.updateBase (LineLoader.new.setLineCable s.base.lineCable).update := by
  by_cases hu : s.base.isUpdated = true
  · have e : s.updateBase = .ok s true := by unfold updateBase; rw [if_pos hu]
    have hst : s.base.updatedStretch = true := by
      unfold LineLoader.isUpdated at hu
      rw [Bool.and_eq_true] at hu; exact hu.2
    rw [e, (h.base hst).2]
    exact ⟨rfl, fun _ => rfl⟩
  · have e : s.updateBase = s.base.update.mapState
        (fun b => { s with base := b, updatedModel := false, updatedCatenary := false }) := by
      unfold updateBase; rw [if_neg hu]
    rw [e]
    have key := LineLoader.update_rel (s := s.base) (s' := LineLoader.new.setLineCable s.base.lineCable) rfl
    exact key.mapState fun b t t' ht hb => (ht.2 hb).1

/-- Updates of sound objects with the same settings go the same way and end with the same object. -/
theorem update_rel {s s' : LineReloader} (h : s.Sound) (h' : s'.Sound)
    (hl : s.base.lineCable = s'.base.lineCable) (hc : s.condition = s'.condition) (hw : s.weather = s'.weather) :
    Rel Match s.update s'.update := by
  have r1 := updateBase_rel h
  rw [hl] at r1
  have r := ((r1.join (updateBase_rel h')).and (updateBase_sound h).1 (updateBase_sound h').1).andOk
  refine r.bind fun b t t' ht => ?_
  obtain ⟨⟨⟨u, g1, g2⟩, k, k'⟩, e, e'⟩ := ht
  have settings : t.base.lineCable = t'.base.lineCable ∧ t.condition = t'.condition ∧ t.weather = t'.weather :=
    ⟨by rw [k.2.1, k'.2.1, hl], by rw [k.2.2.1, k'.2.2.1, hc], by rw [k.2.2.2, k'.2.2.2, hw]⟩
  by_cases hb : b = false
  · rw [if_pos hb, if_pos hb]; exact ⟨rfl, settings, fun h => by cases h⟩
  · rw [if_neg hb, if_neg hb]
    have hb : b = true := by simpa using hb
    subst hb
    have hbase : t.base = t'.base := (g1 rfl).trans (g2 rfl).symm
    have hu := (updateBase_sound h).2 t e
    have hu' := (updateBase_sound h').2 t' e'
    rw [stage_model k.1 hu, stage_model k'.1 hu']
    have hm : Rel (fun b r r' => (r.base.lineCable = r'.base.lineCable ∧ r.condition = r'.condition ∧
        r.weather = r'.weather) ∧ (b = true → r.base = r'.base ∧ r.model = r'.model)) t.updateModel t'.updateModel := by
      unfold updateModel
      rw [modelValue_congr hbase settings.2.1 settings.2.2]
      split
      · exact ⟨rfl, settings, fun _ => ⟨hbase, rfl⟩⟩
      · exact ⟨rfl, settings, fun h => by cases h⟩
      · exact True.intro
      · exact True.intro
    refine (hm.and (updateModel_sound k.1 hu).1 (updateModel_sound k'.1 hu').1).andOk.bind fun b r r' hr => ?_
    obtain ⟨⟨⟨st, hr⟩, q, q'⟩, e, e'⟩ := hr
    by_cases hb : b = false
    · rw [if_pos hb, if_pos hb]
      exact ⟨rfl, st, fun h => by cases h⟩
    · have hb' : b = true := by simpa using hb
      rw [if_neg hb, if_neg hb]
      subst hb'
      obtain ⟨n1, n2⟩ := hr rfl
      have c1 := (updateModel_sound k.1 hu).2 r e
      have c2 := (updateModel_sound k'.1 hu').2 r' e'
      rw [stage_catenary q.1 (by rw [c1]; exact hu), stage_catenary q'.1 (by rw [c2]; exact hu')]
      have m1 := updateModel_true e
      have m2 := updateModel_true e'
      unfold updateReloaded
      rw [catenaryValue_congr n1 n2 st.2.2]
      split
      · refine ⟨rfl, st, fun _ => ?_⟩
        obtain ⟨a1, a2, a3, a4, a5, a6, a7⟩ := r
        obtain ⟨b1, b2, b3, b4, b5, b6, b7⟩ := r'
        simp only at n1 n2 st m1 m2
        obtain ⟨_, s2, s3⟩ := st
        subst n1 n2 s2 s3 m1 m2
        rfl
      · exact ⟨rfl, st, fun h => by cases h⟩
      · exact True.intro
      · exact True.intro

theorem fresh_sound (s : LineReloader) : (fresh s).Sound :=
  ⟨(fun h => by cases h), (fun h => by cases h), (fun h => by cases h), (fun h => by cases h)⟩

/-- An updated object is not changed by an update. -/
theorem update_updated {s : LineReloader} (h : s.isUpdated = true) : s.update = .ok s true := by
  unfold isUpdated at h
  rw [Bool.and_eq_true, Bool.and_eq_true] at h
  obtain ⟨⟨h1, h2⟩, h3⟩ := h
  have e : s.updateBase = .ok s true := by unfold updateBase; rw [if_pos h1]
  unfold update
  rw [e]
  simp [Run.bind, h2, h3]

theorem ask_eq {A : Type} (s : LineReloader) (d : A) (f : LineReloader → Res A) :
    s.ask d f = s.update.bind fun s b => if b = true then .ofRes s (f s) else .ok s d := by
  unfold ask
  by_cases h : s.isUpdated = true
  · rw [if_pos h, update_updated h]
  · rw [if_neg h]

theorem ask_rel {A : Type} {s s' : LineReloader} (h : s.Sound) (h' : s'.Sound)
    (hl : s.base.lineCable = s'.base.lineCable) (hc : s.condition = s'.condition) (hw : s.weather = s'.weather)
    (d : A) (f : LineReloader → Res A) : Rel (fun _ _ _ => True) (s.ask d f) (s'.ask d f) := by
  rw [ask_eq, ask_eq]
  refine (update_rel h h' hl hc hw).bind fun b t t' ht => ?_
  split_ifs with hb
  · rw [ht.2 hb]
    exact Rel.refl (fun _ _ => True.intro) _
  · exact ⟨rfl, True.intro⟩

theorem validate_rel (heap : Heap ℝ) {s s' : LineReloader} (h : s.Sound) (h' : s'.Sound)
    (hl : s.base.lineCable = s'.base.lineCable) (hc : s.condition = s'.condition) (hw : s.weather = s'.weather) :
    Rel (fun _ _ _ => True) (s.validate heap) (s'.validate heap) := by
  have hv : s.base.validMembers heap = s'.base.validMembers heap := by
    unfold LineLoader.validMembers; rw [hl]
  have hb : Rel (fun _ t t' => t.Sound ∧ t'.Sound ∧ t.base.lineCable = t'.base.lineCable ∧
      t.condition = t'.condition ∧ t.weather = t'.weather) (s.validateBase heap) (s'.validateBase heap) := by
    unfold validateBase
    rw [hv]
    have : Rel (fun _ t t' => t = s ∧ t' = s') (Run.ofRes s (s'.base.validMembers heap))
        (Run.ofRes s' (s'.base.validMembers heap)) := by
      cases s'.base.validMembers heap with
      | val a => exact ⟨rfl, rfl, rfl⟩
      | throws => exact True.intro
      | ub => exact True.intro
    refine this.bind fun b t t' ht => ?_
    obtain ⟨rfl, rfl⟩ := ht
    split_ifs
    · refine ((update_rel h h' hl hc hw).and (update_sound h).1 (update_sound h').1).mono fun b t t' ht => ?_
      exact ⟨ht.2.1.1, ht.2.2.1, ht.1.1⟩
    · exact ⟨rfl, h, h', hl, hc, hw⟩
  unfold validate
  refine hb.bind fun b t t' ht => ?_
  obtain ⟨h, h', hl, hc, hw⟩ := ht
  have hi : t.validInputs = t'.validInputs := by unfold validInputs; rw [hc, hw]
  rw [hi]
  split_ifs
  · exact (update_rel h h' hl hc hw).mono fun _ _ _ _ => True.intro
  · exact ⟨rfl, True.intro⟩

theorem ask_sound {A : Type} {s : LineReloader} (h : s.Sound) (d : A) (f : LineReloader → Res A) :
    All (Keeps s) (s.ask d f) := by
  rw [ask_eq]
  refine All.bind (update_sound h).1 (fun _ h => h) fun t b _ ht => ?_
  split_ifs
  · intro u hu
    cases hf : f t with
    | val a => rw [hf] at hu; cases hu; exact ht
    | throws => rw [hf] at hu; cases hu; exact ht
    | ub => rw [hf] at hu; cases hu
  · intro u hu; cases hu; exact ht

theorem validate_sound (heap : Heap ℝ) {s : LineReloader} (h : s.Sound) : All (Keeps s) (s.validate heap) := by
  have hb : All (Keeps s) (s.validateBase heap) := by
    unfold validateBase
    refine All.bind (P := fun t => t = s) ?_ (fun t ht => by subst ht; exact Keeps.rfl h) fun t b _ ht => ?_
    · intro t ht
      cases hf : s.base.validMembers heap with
      | val a => rw [hf] at ht; cases ht; rfl
      | throws => rw [hf] at ht; cases ht; rfl
      | ub => rw [hf] at ht; cases ht
    · subst ht
      split_ifs
      · exact (update_sound h).1
      · intro u hu; cases hu; exact Keeps.rfl h
  unfold validate
  refine All.bind hb (fun _ h => h) fun t b _ ht => ?_
  split_ifs
  · exact fun u hu => ht.trans ((update_sound ht.1).1 u hu)
  · intro u hu; cases hu; exact ht

/-- Every history leaves a sound object. -/
theorem run_sound {s t : LineReloader} (h : s.Sound) (ks : List Call) (hr : run s ks = some t) : t.Sound := by
  induction ks generalizing s with
  | nil => cases hr; exact h
  | cons k ks ih =>
    unfold run at hr
    rw [Option.bind_eq_some_iff] at hr
    obtain ⟨u, h1, h2⟩ := hr
    refine ih ?_ h2
    cases k with
    | setLineCable c =>
      cases h1
      exact ⟨(fun h => by cases h), h.order, (fun h => by cases h), (fun h => by cases h)⟩
    | setCondition d =>
      cases h1
      exact ⟨h.base, (fun h => by cases h), (fun _ h => by cases h), (fun _ h => by cases h)⟩
    | setWeather w =>
      cases h1
      exact ⟨h.base, (fun h => by cases h), (fun _ h => by cases h), (fun _ h => by cases h)⟩
    | query => exact (ask_sound h _ _ u h1).1
    | validate heap => exact (validate_sound heap h u h1).1

end LineReloader

namespace LineUnloader

open Run

/-- A new unloader with the settings of `s`. -/
noncomputable def fresh (s : LineUnloader) : LineUnloader :=
  (((LineUnloader.new.setLineCable s.base.lineCable).setCondition s.condition).setSpacing s.spacing).setTemperature
    s.temperature

/-- The object after any history: what is marked as updated is what the present settings give. -/
structure Sound (s : LineUnloader) : Prop where
  base : s.base.Sound
  order : s.updatedLength = true → s.updatedModel = true
  model : s.base.isUpdated = true → s.updatedModel = true → s.modelValue = .val (some s.model)
  cat : s.base.isUpdated = true → s.updatedLength = true → s.lengthValue = .val (some s.length)

/-- The same settings and, after a success, the same object. -/
def Match (b : Bool) (s s' : LineUnloader) : Prop :=
  (s.base.lineCable = s'.base.lineCable ∧ s.condition = s'.condition ∧ s.spacing = s'.spacing ∧ s.temperature = s'.temperature) ∧
    (b = true → s = s')

/-- The settings of the object, and what holds of it after a call. -/
def Keeps (s t : LineUnloader) : Prop :=
  t.Sound ∧ t.base.lineCable = s.base.lineCable ∧ t.condition = s.condition ∧ t.spacing = s.spacing ∧ t.temperature = s.temperature

theorem modelValue_congr {s s' : LineUnloader} (hb : s.base = s'.base) (hc : s.condition = s'.condition)
    (ht : s.temperature = s'.temperature) : s.modelValue = s'.modelValue := by
  unfold modelValue; rw [hb, hc, ht]

theorem lengthValue_congr {s s' : LineUnloader} (hb : s.base = s'.base) (hm : s.model = s'.model)
    (hp : s.spacing = s'.spacing) : s.lengthValue = s'.lengthValue := by
  unfold lengthValue; rw [hb, hm, hp]

/-- What the first part of an update gives. -/
theorem updateBase_sound {s : LineUnloader} (h : s.Sound) :
    All (Keeps s) s.updateBase ∧ ∀ t, s.updateBase = .ok t true → t.base.isUpdated = true := by
  by_cases hu : s.base.isUpdated = true
  · have e : s.updateBase = .ok s true := by unfold updateBase; rw [if_pos hu]
    rw [e]
    refine ⟨?_, ?_⟩
    · intro t ht; cases ht; exact ⟨h, rfl, rfl, rfl, rfl⟩
    · intro t ht; cases ht; exact hu
  · have e : s.updateBase = s.base.update.mapState
        (fun b => { s with base := b, updatedModel := false, updatedLength := false }) := by
      unfold updateBase; rw [if_neg hu]
    have hf := h.base.stretch_false (by simpa using hu)
    obtain ⟨f1, f2, f3, f4⟩ := LineLoader.update_flags hf
    have f5 := fun t => LineLoader.sound_update (t := t) hf
    rw [e]
    generalize s.base.update = o at f1 f2 f3 f4 f5
    refine ⟨?_, ?_⟩
    · intro t ht
      match o with
      | .ok b v =>
        cases ht
        exact ⟨⟨f5 b rfl, (fun h => by cases h), (fun _ h => by cases h), (fun _ h => by cases h)⟩, f1 b rfl, rfl, rfl, rfl⟩
      | .throws b =>
        cases ht
        exact ⟨⟨f5 b rfl, (fun h => by cases h), (fun _ h => by cases h), (fun _ h => by cases h)⟩, f1 b rfl, rfl, rfl, rfl⟩
      | .ub => cases ht
      | .nan => cases ht
    · intro t ht
      match o with
      | .ok b v =>
        cases ht
        obtain ⟨g1, g2⟩ := f2 b rfl
        show (b.updatedCatenary && b.updatedStretch) = true
        rw [g1, g2]; rfl
      | .throws b => cases ht
      | .ub => cases ht
      | .nan => cases ht

/-- The second stage of an update. -/
theorem stage_model {s : LineUnloader} (h : s.Sound) (hu : s.base.isUpdated = true) :
    (if s.updatedModel = true then .ok s true else s.updateModel) = s.updateModel := by
  split_ifs with hm
  · unfold updateModel
    rw [h.model hu hm]
    simp only
    congr 1
    obtain ⟨a, b, c, d, e, f, g, i⟩ := s
    simp only at hm
    subst hm
    rfl
  · rfl

/-- The third stage of an update. -/
theorem stage_length {s : LineUnloader} (h : s.Sound) (hu : s.base.isUpdated = true) :
    (if s.updatedLength = true then .ok s true else s.updateLength) = s.updateLength := by
  split_ifs with hm
  · unfold updateLength
    rw [h.cat hu hm]
    simp only
    congr 1
    obtain ⟨a, b, c, d, e, f, g, i⟩ := s
    simp only at hm
    subst hm
    rfl
  · rfl

theorem updateModel_sound {s : LineUnloader} (h : s.Sound) (hu : s.base.isUpdated = true) :
    All (Keeps s) s.updateModel ∧
      ∀ t, s.updateModel = .ok t true → t.base = s.base := by
  unfold updateModel
  match hv : s.modelValue with
  | .val (some m) =>
    refine ⟨?_, ?_⟩
    · intro t ht; cases ht
      refine ⟨⟨h.base, (fun _ => rfl), fun _ _ => hv, fun hb hc => ?_⟩, rfl, rfl, rfl, rfl⟩
      have h1 := h.model hb (h.order hc)
      have h2 := h.cat hb hc
      rw [hv] at h1
      have : m = s.model := by injection h1 with h1; injection h1
      subst this
      exact h2
    · intro t ht; cases ht; rfl
  | .val none =>
    refine ⟨?_, fun t ht => by cases ht⟩
    intro t ht; cases ht
    by_cases hc : s.updatedLength = true
    · have h1 := h.model hu (h.order hc)
      rw [hv] at h1
      cases h1
    · exact ⟨⟨h.base, (fun h => absurd h hc), (fun _ h => by cases h), (fun _ h => absurd h hc)⟩, rfl, rfl, rfl, rfl⟩
  | .throws =>
    refine ⟨?_, fun t ht => by cases ht⟩
    intro t ht; cases ht; exact ⟨h, rfl, rfl, rfl, rfl⟩
  | .ub => exact ⟨(fun t ht => by cases ht), fun t ht => by cases ht⟩

theorem updateLength_sound {s : LineUnloader} (h : s.Sound) (hm : s.updatedModel = true) :
    All (Keeps s) s.updateLength ∧
      ∀ t, s.updateLength = .ok t true → t.base = s.base ∧ t.updatedModel = true ∧ t.updatedLength = true := by
  unfold updateLength
  match hv : s.lengthValue with
  | .val (some k) =>
    refine ⟨?_, ?_⟩
    · intro t ht; cases ht
      exact ⟨⟨h.base, (fun _ => hm), h.model, fun _ _ => hv⟩, rfl, rfl, rfl, rfl⟩
    · intro t ht; cases ht; exact ⟨rfl, hm, rfl⟩
  | .val none =>
    refine ⟨?_, fun t ht => by cases ht⟩
    intro t ht; cases ht
    exact ⟨⟨h.base, (fun h => by cases h), h.model, (fun _ h => by cases h)⟩, rfl, rfl, rfl, rfl⟩
  | .throws =>
    refine ⟨?_, fun t ht => by cases ht⟩
    intro t ht; cases ht; exact ⟨h, rfl, rfl, rfl, rfl⟩
  | .ub => exact ⟨(fun t ht => by cases ht), fun t ht => by cases ht⟩

theorem Keeps.trans {s t u : LineUnloader} (h : Keeps s t) (h' : Keeps t u) : Keeps s u :=
  ⟨h'.1, h'.2.1.trans h.2.1, h'.2.2.1.trans h.2.2.1, h'.2.2.2.1.trans h.2.2.2.1, h'.2.2.2.2.trans h.2.2.2.2⟩

theorem Keeps.rfl {s : LineUnloader} (h : s.Sound) : Keeps s s := ⟨h, _root_.rfl, _root_.rfl, _root_.rfl, _root_.rfl⟩

theorem updateModel_true {s t : LineUnloader} (h : s.updateModel = .ok t true) : t.updatedModel = true := by
  unfold updateModel at h
  split at h
  · cases h; rfl
  · cases h
  · cases h
  · cases h

/-- An update keeps the settings and leaves a sound object. -/
theorem update_sound {s : LineUnloader} (h : s.Sound) :
    All (Keeps s) s.update ∧ ∀ t, s.update = .ok t true → t.isUpdated = true := by
  obtain ⟨b1, b2⟩ := updateBase_sound h
  refine ⟨?_, ?_⟩
  · refine All.bind b1 (fun _ h => h) fun t b e ht => ?_
    by_cases hb : b = false
    · rw [if_pos hb]; intro u hu; cases hu; exact ht
    · rw [if_neg hb]
      have hu := b2 t (by rw [e]; congr 1; simpa using hb)
      rw [stage_model ht.1 hu]
      obtain ⟨m1, m2⟩ := updateModel_sound ht.1 hu
      refine All.bind m1 (fun _ h => ht.trans h) fun r b e' hr => ?_
      split_ifs with hb
      · intro u hu; cases hu; exact ht.trans hr
      · intro u hu; cases hu; exact ht.trans hr
      · have e'' : t.updateModel = .ok r true := by rw [e']; congr 1; simpa using hb
        intro u hu
        exact (ht.trans hr).trans ((updateLength_sound hr.1 (updateModel_true e'')).1 u hu)
  · intro t e
    unfold update at e
    obtain ⟨t1, c1, e1, e⟩ := bind_ok e
    by_cases hb : c1 = false
    · rw [if_pos hb] at e; cases e
    rw [if_neg hb] at e
    have h1 := b1 t1 (by rw [e1]; rfl)
    have hu := b2 t1 (by rw [e1]; congr 1; simpa using hb)
    rw [stage_model h1.1 hu] at e
    obtain ⟨t2, c2, e2, e⟩ := bind_ok e
    have h2 := (updateModel_sound h1.1 hu).1 t2 (by rw [e2]; rfl)
    split_ifs at e with hb2 hb3
    · cases e
    · cases e
      have e2' : t1.updateModel = .ok t true := by rw [e2]; congr 1; simpa using hb2
      have := (updateModel_sound h1.1 hu).2 t e2'
      unfold isUpdated
      rw [this, hu, updateModel_true e2', hb3]; rfl
    · have e2' : t1.updateModel = .ok t2 true := by rw [e2]; congr 1; simpa using hb2
      obtain ⟨g1, g2, g3⟩ := (updateLength_sound h2.1 (updateModel_true e2')).2 t e
      unfold isUpdated
      rw [g1, g2, g3, (updateModel_sound h1.1 hu).2 t2 e2', hu]; rfl

theorem updateBase_rel {s : LineUnloader} (h : s.Sound) :
    Rel (fun b t u => b = true → t.base = u) s.updateBase (LineLoader.new.setLineCable s.base.lineCable).update := by
  by_cases hu : s.base.isUpdated = true
  · have e : s.updateBase = .ok s true := by unfold updateBase; rw [if_pos hu]
    have hst : s.base.updatedStretch = true := by
      unfold LineLoader.isUpdated at hu
      rw [Bool.and_eq_true] at hu; exact hu.2
    rw [e, (h.base hst).2]
    exact ⟨rfl, fun _ => rfl⟩
  · have e : s.updateBase = s.base.update.mapState
        (fun b => { s with base := b, updatedModel := false, updatedLength := false }) := by
      unfold updateBase; rw [if_neg hu]
    rw [e]
    have key := LineLoader.update_rel (s := s.base) (s' := LineLoader.new.setLineCable s.base.lineCable) rfl
    exact key.mapState fun b t t' ht hb => (ht.2 hb).1

/-- Updates of sound objects with the same settings go the same way and end with the same object. -/
theorem update_rel {s s' : LineUnloader} (h : s.Sound) (h' : s'.Sound)
    (hl : s.base.lineCable = s'.base.lineCable) (hc : s.condition = s'.condition) (hp : s.spacing = s'.spacing)
    (ht : s.temperature = s'.temperature) :
    Rel Match s.update s'.update := by
  have r1 := updateBase_rel h
  rw [hl] at r1
  have r := ((r1.join (updateBase_rel h')).and (updateBase_sound h).1 (updateBase_sound h').1).andOk
  refine r.bind fun b t t' hk => ?_
  obtain ⟨⟨⟨u, g1, g2⟩, k, k'⟩, e, e'⟩ := hk
  have settings : t.base.lineCable = t'.base.lineCable ∧ t.condition = t'.condition ∧ t.spacing = t'.spacing ∧
      t.temperature = t'.temperature :=
    ⟨by rw [k.2.1, k'.2.1, hl], by rw [k.2.2.1, k'.2.2.1, hc], by rw [k.2.2.2.1, k'.2.2.2.1, hp],
      by rw [k.2.2.2.2, k'.2.2.2.2, ht]⟩
  by_cases hb : b = false
  · rw [if_pos hb, if_pos hb]; exact ⟨rfl, settings, fun h => by cases h⟩
  · rw [if_neg hb, if_neg hb]
    have hb : b = true := by simpa using hb
    subst hb
    have hbase : t.base = t'.base := (g1 rfl).trans (g2 rfl).symm
    have hu := (updateBase_sound h).2 t e
    have hu' := (updateBase_sound h').2 t' e'
    rw [stage_model k.1 hu, stage_model k'.1 hu']
    have hm : Rel (fun b r r' => (r.base.lineCable = r'.base.lineCable ∧ r.condition = r'.condition ∧
        r.spacing = r'.spacing ∧ r.temperature = r'.temperature) ∧ (b = true → r.base = r'.base ∧ r.model = r'.model)) t.updateModel t'.updateModel := by
      unfold updateModel
      rw [modelValue_congr hbase settings.2.1 settings.2.2.2]
      split
      · exact ⟨rfl, settings, fun _ => ⟨hbase, rfl⟩⟩
      · exact ⟨rfl, settings, fun h => by cases h⟩
      · exact True.intro
      · exact True.intro
    refine (hm.and (updateModel_sound k.1 hu).1 (updateModel_sound k'.1 hu').1).andOk.bind fun b r r' hr => ?_
    obtain ⟨⟨⟨st, hr⟩, q, q'⟩, e, e'⟩ := hr
    by_cases hb : b = false
    · rw [if_pos hb, if_pos hb]
      exact ⟨rfl, st, fun h => by cases h⟩
    · have hb' : b = true := by simpa using hb
      rw [if_neg hb, if_neg hb]
      subst hb'
      obtain ⟨n1, n2⟩ := hr rfl
      have c1 := (updateModel_sound k.1 hu).2 r e
      have c2 := (updateModel_sound k'.1 hu').2 r' e'
      rw [stage_length q.1 (by rw [c1]; exact hu), stage_length q'.1 (by rw [c2]; exact hu')]
      have m1 := updateModel_true e
      have m2 := updateModel_true e'
      unfold updateLength
      rw [lengthValue_congr n1 n2 st.2.2.1]
      split
      · refine ⟨rfl, st, fun _ => ?_⟩
        obtain ⟨a1, a2, a3, a4, a5, a6, a7, a8⟩ := r
        obtain ⟨b1, b2, b3, b4, b5, b6, b7, b8⟩ := r'
        simp only at n1 n2 st m1 m2
        obtain ⟨_, s2, s3, s4⟩ := st
        subst n1 n2 s2 s3 s4 m1 m2
        rfl
      · exact ⟨rfl, st, fun h => by cases h⟩
      · exact True.intro
      · exact True.intro

theorem fresh_sound (s : LineUnloader) : (fresh s).Sound :=
  ⟨(fun h => by cases h), (fun h => by cases h), (fun h => by cases h), (fun h => by cases h)⟩

/-- An updated object is not changed by an update. -/
theorem update_updated {s : LineUnloader} (h : s.isUpdated = true) : s.update = .ok s true := by
  unfold isUpdated at h
  rw [Bool.and_eq_true, Bool.and_eq_true] at h
  obtain ⟨⟨h1, h2⟩, h3⟩ := h
  have e : s.updateBase = .ok s true := by unfold updateBase; rw [if_pos h1]
  unfold update
  rw [e]
  simp [Run.bind, h2, h3]

theorem ask_eq {A : Type} (s : LineUnloader) (d : A) (f : LineUnloader → Res A) :
    s.ask d f = s.update.bind fun s b => if b = true then .ofRes s (f s) else .ok s d := by
  unfold ask
  by_cases h : s.isUpdated = true
  · rw [if_pos h, update_updated h]
  · rw [if_neg h]

theorem ask_rel {A : Type} {s s' : LineUnloader} (h : s.Sound) (h' : s'.Sound)
    (hl : s.base.lineCable = s'.base.lineCable) (hc : s.condition = s'.condition) (hp : s.spacing = s'.spacing)
    (ht : s.temperature = s'.temperature)
    (d : A) (f : LineUnloader → Res A) : Rel (fun _ _ _ => True) (s.ask d f) (s'.ask d f) := by
  rw [ask_eq, ask_eq]
  refine (update_rel h h' hl hc hp ht).bind fun b t t' hk => ?_
  split_ifs with hb
  · rw [hk.2 hb]
    exact Rel.refl (fun _ _ => True.intro) _
  · exact ⟨rfl, True.intro⟩

theorem validate_rel (heap : Heap ℝ) {s s' : LineUnloader} (h : s.Sound) (h' : s'.Sound)
    (hl : s.base.lineCable = s'.base.lineCable) (hc : s.condition = s'.condition) (hp : s.spacing = s'.spacing)
    (ht : s.temperature = s'.temperature) :
    Rel (fun _ _ _ => True) (s.validate heap) (s'.validate heap) := by
  have hv : s.base.validMembers heap = s'.base.validMembers heap := by
    unfold LineLoader.validMembers; rw [hl]
  have hb : Rel (fun _ t t' => t.Sound ∧ t'.Sound ∧ t.base.lineCable = t'.base.lineCable ∧
      t.condition = t'.condition ∧ t.spacing = t'.spacing ∧
      t.temperature = t'.temperature) (s.validateBase heap) (s'.validateBase heap) := by
    unfold validateBase
    rw [hv]
    have : Rel (fun _ t t' => t = s ∧ t' = s') (Run.ofRes s (s'.base.validMembers heap))
        (Run.ofRes s' (s'.base.validMembers heap)) := by
      cases s'.base.validMembers heap with
      | val a => exact ⟨rfl, rfl, rfl⟩
      | throws => exact True.intro
      | ub => exact True.intro
    refine this.bind fun b t t' hk => ?_
    obtain ⟨rfl, rfl⟩ := hk
    split_ifs
    · refine ((update_rel h h' hl hc hp ht).and (update_sound h).1 (update_sound h').1).mono fun b t t' hk => ?_
      exact ⟨hk.2.1.1, hk.2.2.1, hk.1.1⟩
    · exact ⟨rfl, h, h', hl, hc, hp, ht⟩
  unfold validate
  refine hb.bind fun b t t' hk => ?_
  obtain ⟨h, h', hl, hc, hp, ht⟩ := hk
  have hi : t.validInputs = t'.validInputs := by unfold validInputs; rw [hc, hp, ht]
  rw [hi]
  split_ifs
  · exact (update_rel h h' hl hc hp ht).mono fun _ _ _ _ => True.intro
  · exact ⟨rfl, True.intro⟩

theorem ask_sound {A : Type} {s : LineUnloader} (h : s.Sound) (d : A) (f : LineUnloader → Res A) :
    All (Keeps s) (s.ask d f) := by
  rw [ask_eq]
  refine All.bind (update_sound h).1 (fun _ h => h) fun t b _ ht => ?_
  split_ifs
  · intro u hu
    cases hf : f t with
    | val a => rw [hf] at hu; cases hu; exact ht
    | throws => rw [hf] at hu; cases hu; exact ht
    | ub => rw [hf] at hu; cases hu
  · intro u hu; cases hu; exact ht

theorem validate_sound (heap : Heap ℝ) {s : LineUnloader} (h : s.Sound) : All (Keeps s) (s.validate heap) := by
  have hb : All (Keeps s) (s.validateBase heap) := by
    unfold validateBase
    refine All.bind (P := fun t => t = s) ?_ (fun t ht => by subst ht; exact Keeps.rfl h) fun t b _ ht => ?_
    · intro t ht
      cases hf : s.base.validMembers heap with
      | val a => rw [hf] at ht; cases ht; rfl
      | throws => rw [hf] at ht; cases ht; rfl
      | ub => rw [hf] at ht; cases ht
    · subst ht
      split_ifs
      · exact (update_sound h).1
      · intro u hu; cases hu; exact Keeps.rfl h
  unfold validate
  refine All.bind hb (fun _ h => h) fun t b _ ht => ?_
  split_ifs
  · exact fun u hu => ht.trans ((update_sound ht.1).1 u hu)
  · intro u hu; cases hu; exact ht

/-- Every history leaves a sound object. -/
theorem run_sound {s t : LineUnloader} (h : s.Sound) (ks : List Call) (hr : run s ks = some t) : t.Sound := by
  induction ks generalizing s with
  | nil => cases hr; exact h
  | cons k ks ih =>
    unfold run at hr
    rw [Option.bind_eq_some_iff] at hr
    obtain ⟨u, h1, h2⟩ := hr
    refine ih ?_ h2
    cases k with
    | setLineCable c =>
      cases h1
      exact ⟨(fun h => by cases h), h.order, (fun h => by cases h), (fun h => by cases h)⟩
    | setCondition d =>
      cases h1
      exact ⟨h.base, (fun h => by cases h), (fun _ h => by cases h), (fun _ h => by cases h)⟩
    | setSpacing v =>
      cases h1
      exact ⟨h.base, (fun h => by cases h), h.model, (fun _ h => by cases h)⟩
    | setTemperature t =>
      cases h1
      exact ⟨h.base, (fun h => by cases h), (fun _ h => by cases h), (fun _ h => by cases h)⟩
    | query => exact (ask_sound h _ _ u h1).1
    | validate heap => exact (validate_sound heap h u h1).1

end LineUnloader

end Verif
