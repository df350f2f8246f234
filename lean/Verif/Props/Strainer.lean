import Verif.Props.LineUnloader

/-!
# When an accepted strainer or unloader answers

C141: an elongation model, strainer or unloader that Validate accepts gives an answer.
-/

set_option linter.unusedSectionVars false

namespace Verif.Props
open Verif Verif.ElongationModel

/-- A component is enabled and the state has a polynomial type. -/
def Ready (k : Cable) (m : ElongationModel) : Prop := (k.core.Enabled ∨ k.shell.Enabled) ∧ m.state.type ≠ .null

/-- The call returns, unless the model is not ready. -/
def Answers {A : Type} (k : Cable) (m : ElongationModel) (o : Outcome ElongationModel A) : Prop :=
  (∃ m' a, o = .ok m' a ∧ Lives k m' ∧ SameSettings m m') ∨ (o = .ub ∧ ¬ Ready k m)

theorem updated_answers {A : Type} {k : Cable} {m : ElongationModel} (G : Lives k m) (hk : m.cable = some k)
    (hu : ∃ x, m.update = .ok x ()) {f : Cable → ElongationModel → Outcome ElongationModel A}
    (h : ∀ x, Lives k x → LiveBoth k x.state x → (k.core.Enabled ∨ k.shell.Enabled → x.regions ≠ []) →
      x.isUpdatedStretch = true → x.isUpdatedState = true → x.cable = some k → Answers k x (f k x)) :
    Answers k m (m.updated f) := by
  obtain ⟨z, hz⟩ := hu
  unfold ElongationModel.updated
  rcases G.update hk with ⟨x, e, g, l, r⟩ | ⟨e, g⟩
  · rw [e]
    obtain ⟨h1, h2, h3, h4, h5, -⟩ := update_ok e
    have hx := h1.trans hk
    simp only
    rw [hx]
    simp only
    rcases h x g (by rw [h2]; exact l) r h4 h5 hx with ⟨m', a, e1, e2, e3⟩ | ⟨e1, e2⟩
    · exact Or.inl ⟨m', a, e1, e2, e3.1.trans h1, e3.2.1.trans h2, e3.2.2.trans h3⟩
    · exact Or.inr ⟨e1, fun hU => e2 ⟨hU.1, by rw [h2]; exact hU.2⟩⟩
  · rw [e] at hz; cases hz

theorem accepted_ask {k : Cable} {m : ElongationModel} (G : Lives k m) (hk : m.cable = some k) (hu : ∃ x, m.update = .ok x ())
    (body : CableComponent → PolynomialType → Regions → ℝ → ℝ → ℝ) (t : ElongationPart) (x : ℝ) :
    Answers k m (m.askPart body t x) := by
  unfold askPart
  refine updated_answers G hk hu fun y Gy Ly ry f1 f2 hy => ?_
  rcases touchBoth_live Ly with ⟨c, d, e1, e2, e, g1, g2⟩ | ⟨e, g⟩
  · left
    cases t with
    | combined =>
      simp only
      unfold readBoth
      rw [e]
      exact ⟨{ y with core := c, shell := d }, _, rfl, Lives.of_live (by exact ⟨g1, g2⟩) ry f1, rfl, rfl, rfl⟩
    | core =>
      simp only
      unfold readCore
      rw [e1]
      exact ⟨{ y with core := c }, _, rfl, Lives.of_live (by exact ⟨g1, Ly.2⟩) ry f1, rfl, rfl, rfl⟩
    | shell =>
      simp only
      unfold readShell
      rw [e2]
      exact ⟨{ y with shell := d }, _, rfl, Lives.of_live (by exact ⟨Ly.1, g2⟩) ry f1, rfl, rfl, rfl⟩
  · have nU : ¬ Ready k y := fun h => h.2 g
    cases t with
    | combined =>
      simp only
      unfold readBoth
      rw [e]
      exact Or.inr ⟨rfl, nU⟩
    | core =>
      simp only
      unfold readCore
      rcases touch_live Ly.1 with ⟨c, e1, g1⟩ | ⟨e1, g1⟩
      · rw [e1]
        exact Or.inl ⟨{ y with core := c }, _, rfl, Lives.of_live (by exact ⟨g1, Ly.2⟩) ry f1, rfl, rfl, rfl⟩
      · rw [e1]; exact Or.inr ⟨rfl, nU⟩
    | shell =>
      simp only
      unfold readShell
      rcases touch_live Ly.2 with ⟨c, e1, g1⟩ | ⟨e1, g1⟩
      · rw [e1]
        exact Or.inl ⟨{ y with shell := c }, _, rfl, Lives.of_live (by exact ⟨Ly.1, g1⟩) ry f1, rfl, rfl, rfl⟩
      · rw [e1]; exact Or.inr ⟨rfl, nU⟩

theorem accepted_strain {k : Cable} {m : ElongationModel} (G : Lives k m) (hk : m.cable = some k) (hu : ∃ x, m.update = .ok x ())
    (t : ElongationPart) (l : ℝ) : Answers k m (m.strain t l) := by
  unfold ElongationModel.strain
  refine updated_answers G hk hu fun y Gy Ly ry f1 f2 hy => ?_
  cases t with
  | combined =>
    simp only
    unfold askStrain
    cases hh : y.regions.head? with
    | none =>
      refine Or.inr ⟨rfl, fun h => ry h.1 ?_⟩
      simpa using hh
    | some p =>
      simp only
      split_ifs
      · exact Or.inl ⟨y, _, rfl, Gy, rfl, rfl, rfl⟩
      · rcases touchBoth_live Ly with ⟨c, d, e1, e2, e, g1, g2⟩ | ⟨e, g⟩
        · rw [e]
          simp only
          have hne : y.regions ≠ [] := by intro h; rw [h] at hh; cases hh
          obtain ⟨z, hz⟩ := strainCombined_val
            (ElongationModel.both CableComponent.load k { y with core := c, shell := d }) hne l
          rw [hz]
          exact Or.inl ⟨{ y with core := c, shell := d }, _, rfl, Lives.of_live (by exact ⟨g1, g2⟩) ry f1, rfl, rfl, rfl⟩
        · rw [e]
          exact Or.inr ⟨rfl, fun h => h.2 g⟩
  | core =>
    simp only
    unfold readCore
    rcases touch_live Ly.1 with ⟨c, e1, g1⟩ | ⟨e1, g1⟩
    · rw [e1]
      exact Or.inl ⟨{ y with core := c }, _, rfl, Lives.of_live (by exact ⟨g1, Ly.2⟩) ry f1, rfl, rfl, rfl⟩
    · rw [e1]; exact Or.inr ⟨rfl, fun h => h.2 g1⟩
  | shell =>
    simp only
    unfold readShell
    rcases touch_live Ly.2 with ⟨c, e1, g1⟩ | ⟨e1, g1⟩
    · rw [e1]
      exact Or.inl ⟨{ y with shell := c }, _, rfl, Lives.of_live (by exact ⟨Ly.1, g1⟩) ry f1, rfl, rfl, rfl⟩
    · rw [e1]; exact Or.inr ⟨rfl, fun h => h.2 g1⟩


/-- What acceptance of an elongation model means for its settings. -/
theorem accepted_ready {m m' : ElongationModel} {w : Bool} (h : m.validate w = .ok m' true) :
    ∃ k, m.cable = some k ∧ Ready k m ∧ (∃ x, m.update = .ok x ()) ∧ k.validateSagTension.1 = true ∧
      -100 ≤ m.state.temperature ∧ 0 ≤ m.stretch.load := by
  unfold ElongationModel.validate at h
  cases hk : m.cable with
  | none => rw [hk] at h; cases h
  | some k =>
    rw [hk] at h
    simp only at h
    split_ifs at h with hc
    · obtain ⟨c1, c2, c3⟩ := hc
      have t2 : -100 ≤ m.state.temperature ∧ m.state.type ≠ .null := by
        simp [CableState.validate] at c2
        by_contra hn
        grind
      have t3 : 0 ≤ m.stretch.load := by
        simp [CableStretchState.validate] at c3
        by_contra hn
        grind
      unfold ElongationModel.updated at h
      cases hu : m.update with
      | throws x => rw [hu] at h; cases h
      | ub => rw [hu] at h; cases h
      | ok x u =>
        rw [hu] at h
        have hx := (update_ok hu).1.trans hk
        simp only [hx] at h
        refine ⟨k, rfl, ⟨?_, t2.2⟩, ⟨x, rfl⟩, c1, t2.1, t3⟩
        by_contra he
        unfold validateComponents at h
        rw [if_pos he] at h
        cases h
    · cases h

/-- After any history, an elongation model that Validate accepts, with or without warnings, answers every question:
load, slope and strain, of the cable and of its parts, for every argument. -/
theorem C141_model {calls : List ElongationModel.Call} {m m' : ElongationModel} {w : Bool}
    (h : run ElongationModel.new calls = some m) (hv : m.validate w = .ok m' true) (q : CableQuery) :
    ∃ x, q.ask m = .val x := by
  obtain ⟨k, hk, hr, hu, -⟩ := accepted_ready hv
  have G : Lives k m := run_lives (fun k hk => (by cases hk)) h k hk
  have R : ∀ {o : Outcome ElongationModel ℝ}, Answers k m o → ∃ x, valueOf id o = .val x := by
    rintro o (⟨m', a, rfl, -⟩ | ⟨-, e⟩)
    · exact ⟨a, rfl⟩
    · exact absurd hr e
  cases q with
  | load t x => exact R (accepted_ask G hk hu _ t x)
  | slope t x => exact R (accepted_ask G hk hu _ t x)
  | strain t l => exact R (accepted_strain G hk hu t l)

theorem strain_through {calls : List ElongationModel.Call} {m m' : ElongationModel}
    (h : run ElongationModel.new calls = some m) (hv : m.validate false = .ok m' true) (l : ℝ) :
    ∃ x, strainThrough (some m) l = .val x := by
  obtain ⟨x, hx⟩ := C141_model h hv (.strain .combined l)
  refine ⟨x, ?_⟩
  unfold CableQuery.ask at hx
  unfold strainThrough
  simp only at hx ⊢
  generalize m.strain .combined l = o at hx
  match o with
  | .ok _ a => cases hx; rfl
  | .throws _ => cases hx
  | .ub => cases hx

/-- A model reached by some history. -/
def MadeByCalls (o : Option ElongationModel) : Prop :=
  ∀ m, o = some m → ∃ calls, run ElongationModel.new calls = some m

/-- A strainer is accepted exactly when the start length is positive, no load is negative, and both elongation models
have the same cable and are accepted. -/
theorem C141_strainer_accepts (s : CableStrainer) (same : Bool) : s.validate same = .val true ↔
    0 < s.lengthStart ∧ 0 ≤ s.loadStart ∧ 0 ≤ s.loadFinish ∧ same = true ∧
      ∃ a b a' b', s.modelStart = some a ∧ s.modelFinish = some b ∧ a.validate false = .ok a' true ∧
        b.validate false = .ok b' true := by
  unfold CableStrainer.validate
  by_cases h : s.lengthStart ≤ 0 ∨ s.loadFinish < 0 ∨ s.loadStart < 0
  · rw [if_pos h]
    constructor
    · intro h; cases h
    · rintro ⟨h1, h2, h3, -⟩
      rcases h with h | h | h <;> linarith
  · rw [if_neg h]
    push Not at h
    constructor
    · intro hv
      cases ha : s.modelStart with
      | none => rw [ha] at hv; cases hv
      | some a =>
        cases hb : s.modelFinish with
        | none => rw [ha, hb] at hv; cases hv
        | some b =>
          rw [ha, hb] at hv
          simp only at hv
          refine ⟨h.1, h.2.2, h.2.1, ?_⟩
          cases va : a.validate false with
          | throws _ => rw [va] at hv; cases hv
          | ub => rw [va] at hv; cases hv
          | ok a' x =>
            cases x with
            | false => rw [va] at hv; cases hv
            | true =>
              rw [va] at hv
              simp only at hv
              cases vb : b.validate false with
              | throws _ => rw [vb] at hv; cases hv
              | ub => rw [vb] at hv; cases hv
              | ok b' y =>
                rw [vb] at hv
                simp only [Res.val.injEq, Bool.and_eq_true] at hv
                exact ⟨hv.1, a, b, a', b', rfl, rfl, va, by rw [vb, hv.2]⟩
    · rintro ⟨-, -, -, rfl, a, b, a', b', ha, hb, va, vb⟩
      rw [ha, hb]
      simp only
      rw [va]
      simp only
      rw [vb]
      rfl

/-- An accepted strainer, whatever was done with its elongation models before, gives a finish length, and that length
is positive. -/
theorem C141_strainer {s : CableStrainer} {same : Bool} (ha : MadeByCalls s.modelStart)
    (hb : MadeByCalls s.modelFinish) (h : s.validate same = .val true) :
    ∃ x, s.lengthFinish = .val x ∧ 0 < x := by
  obtain ⟨hl, -, -, -, a, b, a', b', ea, eb, va, vb⟩ := (C141_strainer_accepts s same).1 h
  obtain ⟨ca, ra⟩ := ha a ea
  obtain ⟨cb, rb⟩ := hb b eb
  obtain ⟨x, hx⟩ := strain_through ra va s.loadStart
  obtain ⟨y, hy⟩ := strain_through rb vb s.loadFinish
  refine ⟨CableStrainer.elongate s.lengthStart x y, ?_, ?_⟩
  · unfold CableStrainer.lengthFinish
    rw [ea, eb, hx, hy]
  · unfold CableStrainer.elongate
    simp only
    split_ifs with hn
    · exact div_pos hl (by positivity)
    · exact mul_pos hl (by linarith [not_lt.1 hn])

/-- An accepted unloader gives a positive unloaded length. -/
theorem C141_unloader {u : CatenaryUnloader} {same : Bool} (ha : MadeByCalls u.strainer.modelStart)
    (hb : MadeByCalls u.strainer.modelFinish) (h : u.validate same = .val true) :
    (∃ k, u.catenary = some k ∧ k.validate.1 = true) ∧ ∃ x, u.lengthUnloaded = .val x ∧ 0 < x := by
  unfold CatenaryUnloader.validate at h
  cases hs : u.strainer.validate same with
  | throws => rw [hs] at h; cases h
  | ub => rw [hs] at h; cases h
  | val v =>
    rw [hs] at h
    simp only [Res.val.injEq, Bool.and_eq_true] at h
    refine ⟨?_, C141_strainer ha hb (by rw [hs, h.2])⟩
    cases hc : u.catenary with
    | none => rw [hc] at h; cases h.1
    | some k => rw [hc] at h; exact ⟨k, rfl, h.1⟩

/-! ## An accepted strainer -/

/-- The elongation model of the example. -/
noncomputable def exSpring : ElongationModel := modelOf (hookeCable 1000000) ⟨60, .loadStrain⟩ ⟨0, .loadStrain, 0⟩

theorem exSpring_made : MadeByCalls (some exSpring) := by
  intro m h
  cases h
  exact ⟨[.setCable (some (hookeCable 1000000)), .setState ⟨60, .loadStrain⟩, .setStretch ⟨0, .loadStrain, 0⟩], rfl⟩

theorem exSpring_accepted : ∃ m', exSpring.validate false = .ok m' true := by
  have h : CatenaryReloader.validModel (some exSpring) = .val true := hung_valid (by decide) (calm_state (by decide)) rfl
  unfold CatenaryReloader.validModel at h
  simp only at h
  generalize exSpring.validate false = o at h
  match o with
  | .ok m' v => cases h; exact ⟨m', rfl⟩
  | .throws _ => cases h
  | .ub => cases h

theorem exStrainer_accepted : (⟨1000, 0, 50, some exSpring, some exSpring⟩ : CableStrainer).validate true = .val true := by
  obtain ⟨m', h⟩ := exSpring_accepted
  exact (C141_strainer_accepts _ _).2 ⟨by norm_num, by norm_num, by norm_num, rfl, _, _, m', m', rfl, rfl, h, h⟩

example (q : CableQuery) : ∃ x, q.ask exSpring = .val x := by
  obtain ⟨m', h⟩ := exSpring_accepted
  obtain ⟨c, r⟩ := exSpring_made _ rfl
  exact C141_model r h q

example : ∃ x, (⟨1000, 0, 50, some exSpring, some exSpring⟩ : CableStrainer).lengthFinish = .val x ∧ 0 < x :=
  C141_strainer exSpring_made exSpring_made exStrainer_accepted

/-- A negative load is refused. -/
example : (⟨1000, -1, 50, some exSpring, some exSpring⟩ : CableStrainer).validate true ≠ .val true := fun h => by
  have := ((C141_strainer_accepts _ _).1 h).2.2.1
  norm_num at this

example : ∃ x, (⟨some (levelSpan 100 1 70), ⟨1000, 0, 50, some exSpring, some exSpring⟩⟩ :
    CatenaryUnloader).lengthUnloaded = .val x ∧ 0 < x := by
  refine (C141_unloader (same := true) exSpring_made exSpring_made ?_).2
  unfold CatenaryUnloader.validate
  rw [exStrainer_accepted]
  have : CatenaryReloader.validCatenary (some (levelSpan 100 1 70)) = true :=
    level_valid (by norm_num) (by norm_num) (by norm_num)
  simp only [this, Bool.and_self]

end Verif.Props
