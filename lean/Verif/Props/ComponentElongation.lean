import Verif.ComponentElongationLemmas
import Mathlib.Topology.Order.Lattice
import Mathlib.Analysis.Calculus.Deriv.Mul
import Mathlib.Analysis.Calculus.Deriv.Comp
import Mathlib.Analysis.Calculus.Deriv.Add

/-! # Properties of the component elongation model -/

set_option linter.unusedSectionVars false

namespace Verif.Props

open Verif Verif.Poly ComponentModel

/-- The questions a component elongation model answers. -/
inductive ElasticQuery where
  | load (x : ℝ)
  | slope (x : ℝ)
  | strain (l : ℝ)
  | strainThermal
  | points

/-- Result of a call, without the object. -/
def valueOf {S A B : Type} (f : A → B) : Outcome S A → Res B
  | .ok _ a => .val (f a)
  | .throws _ => .throws
  | .ub => .ub

/-- The answer as a list of numbers. -/
noncomputable def ElasticQuery.ask (m : ComponentModel) : ElasticQuery → Res (List ℝ)
  | .load x => valueOf (fun a => [a]) (m.load x)
  | .slope x => valueOf (fun a => [a]) (m.slope x)
  | .strain l => valueOf (fun a => [a]) (m.strain l)
  | .strainThermal => valueOf (fun a => [a]) m.strainThermal
  | .points => valueOf (fun r => [r.unloaded.x, r.unloaded.y, r.start.x, r.start.y, r.stop.x, r.stop.y])
      m.pointsRegions

/-! ## C63 -/

/-- When the state is updated the points are those of a polynomial. -/
def Shaped (m : ComponentModel) : Prop :=
  m.isUpdatedState = true → m.isUpdatedStretch = true ∧ ∃ c s cs limit, m.component = some c ∧ m.state = some s ∧
    c.coefficients s.type = some cs ∧ cs ≠ [] ∧ c.limit s.type = some limit ∧
    m.points = c.regions cs m.thermalState limit m.loadStretch

theorem updateState_shape {m m' : ComponentModel} {c t s b} (h : m.updateState c t s = .ok m' b) :
    b = true ∧ ∃ cs limit, c.coefficients s.type = some cs ∧ cs ≠ [] ∧ c.limit s.type = some limit ∧
      m' = { m with thermalState := c.thermal t s.temperature,
                    points := c.regions cs (c.thermal t s.temperature) limit m.loadStretch } := by
  unfold updateState at h
  cases h1 : c.coefficients s.type <;> cases h2 : c.limit s.type <;> rw [h1, h2] at h <;> simp only at h
  · cases h
  · cases h
  · cases h
  · split_ifs at h with h3
    cases h
    exact ⟨rfl, _, _, rfl, h3, rfl, rfl⟩

theorem finish_shape {m m' : ComponentModel} {c t s b} (hc : m.component = some c) (hs : m.state = some s)
    (h : m.finishUpdate c t s = .ok m' b) : b = true ∧ Shaped m' := by
  unfold finishUpdate at h
  cases hu : m.updateState c t s with
  | ok m1 b1 =>
    rw [hu] at h
    obtain ⟨rfl, cs, limit, e1, e2, e3, e4⟩ := updateState_shape hu
    simp only at h
    cases h
    refine ⟨rfl, fun _ => ⟨rfl, c, s, cs, limit, ?_, ?_, e1, e2, e3, ?_⟩⟩
    · rw [e4]; exact hc
    · rw [e4]; exact hs
    · rw [e4]
  | throws m1 => rw [hu] at h; cases h
  | ub => rw [hu] at h; cases h

theorem update_shape {m : ComponentModel} (H : Shaped m) :
    (∀ m' b, m.update = .ok m' b → Shaped m' ∧ (b = true → m'.isUpdatedState = true) ∧ SamePointers m m') ∧
      ∀ m', m.update = .throws m' → Shaped m' := by
  unfold ComponentModel.update
  split_ifs with hb
  · refine ⟨fun m' b h => ?_, fun m' h => by cases h⟩
    cases h
    exact ⟨H, fun _ => hb.1, SamePointers.refl m⟩
  · split
    · rename_i c t s ss h1 h2 h3 h4
      unfold updateWith
      have key : ∀ m1 : ComponentModel, SamePointers m m1 → (m1.isUpdatedState = true → False) →
          (∀ m' b, m1.finishUpdate c t s = .ok m' b →
            Shaped m' ∧ (b = true → m'.isUpdatedState = true) ∧ SamePointers m m') ∧
          ∀ m', m1.finishUpdate c t s = .throws m' → Shaped m' := by
        intro m1 P hf
        have hc : m1.component = some c := P.1.trans h1
        have hs : m1.state = some s := P.2.1.trans h3
        refine ⟨fun m' b h => ⟨(finish_shape hc hs h).2, fun hbt => ?_, ?_⟩, fun m' h => ?_⟩
        · unfold finishUpdate at h
          rcases updateState_cases m1 c t s with ⟨th, r, a, e⟩ | ⟨a, e⟩ | ⟨a, e⟩ <;> rw [e] at h <;> cases h
          rfl
        · unfold finishUpdate at h
          rcases updateState_cases m1 c t s with ⟨th, r, a, e⟩ | ⟨a, e⟩ | ⟨a, e⟩ <;> rw [e] at h <;> cases h
          exact P
        · unfold finishUpdate at h
          rcases updateState_cases m1 c t s with ⟨th, r, a, e⟩ | ⟨a, e⟩ | ⟨a, e⟩ <;> rw [e] at h <;> cases h
          intro hu
          exact (hf hu).elim
      by_cases hst : m.isUpdatedStretch = false
      · have hss : m.isUpdatedState = true → False := by
          intro h
          have := (H h).1
          rw [hst] at this; cases this
        rw [if_pos hst]
        rcases updateStretch_cases m c t s ss with ⟨l, a, e⟩ | ⟨l, a, e⟩ | ⟨a, e⟩ <;> rw [e]
        · exact key { m with loadStretch := l } (SamePointers.refl m) hss
        · refine ⟨fun m' b h => ?_, fun m' h => (by cases h)⟩
          cases h
          exact ⟨fun hu => (hss hu).elim, fun hbt => (by cases hbt), SamePointers.refl m⟩
        · refine ⟨fun m' b h => (by cases h), fun m' h => ?_⟩
          cases h
          exact H
      · rw [if_neg hst]
        refine key m (SamePointers.refl m) fun hss => hb ⟨hss, by simpa using hst⟩
    · exact ⟨fun _ _ h => (by cases h), fun _ h => (by cases h)⟩

theorem query_shape {A : Type} {fail : A} {body} {m m' : ComponentModel} (H : Shaped m)
    (h : (m.query fail body).state? = some m') : Shaped m' := by
  unfold query at h
  cases hu : m.update with
  | ok m1 b =>
    rw [hu] at h
    have := ((update_shape H).1 m1 b hu).1
    cases b with
    | true =>
      simp only at h
      revert h
      split <;> intro h <;> cases h
      exact this
    | false => cases h; exact this
  | throws m1 =>
    rw [hu] at h
    have := (update_shape H).2 m1 hu
    cases h
    exact this
  | ub => rw [hu] at h; cases h

theorem validate_shape {w : Bool} {m m' : ComponentModel} (H : Shaped m)
    (h : (m.validate w).state? = some m') : Shaped m' := by
  unfold ComponentModel.validate at h
  revert h
  split
  · split_ifs
    · cases hu : m.update with
      | ok m1 b =>
        have := ((update_shape H).1 m1 b hu).1
        cases b <;> intro h <;> cases h <;> exact this
      | throws m1 =>
        have := (update_shape H).2 m1 hu
        intro h; cases h; exact this
      | ub => intro h; cases h
    · intro h; cases h; exact H
  · intro h; cases h; exact H

theorem next_shape {k : ComponentModel.Call} {m m' : ComponentModel} (H : Shaped m) (h : k.next m = some m') :
    Shaped m' := by
  have nf : ∀ a : ComponentModel, a.isUpdatedState = false → Shaped a := by
    intro a ha hu; rw [ha] at hu; cases hu
  cases k with
  | setComponent c => cases h; exact nf _ rfl
  | setState c => cases h; exact nf _ rfl
  | setStretch c => cases h; exact nf _ rfl
  | setReference c => cases h; exact nf _ rfl
  | load x => exact query_shape H h
  | slope x => exact query_shape H h
  | strain x => exact query_shape H h
  | strainThermal => exact query_shape H h
  | pointsRegions => exact query_shape H h
  | validate w => exact validate_shape H h

/-- Objects a user can get. -/
def Obtained (m : ComponentModel) : Prop := ∃ calls, ComponentModel.new.run calls = some m

theorem run_shape {calls : List ComponentModel.Call} : ∀ {m m' : ComponentModel}, Shaped m → m.run calls = some m' →
    Shaped m' := by
  induction calls with
  | nil => intro m m' H h; cases h; exact H
  | cons k ks ih =>
    intro m m' H h
    unfold ComponentModel.run at h
    cases hk : k.next m with
    | none => rw [hk] at h; cases h
    | some m1 => rw [hk] at h; exact ih (next_shape H hk) h

theorem Obtained.shaped {m : ComponentModel} (h : Obtained m) : Shaped m := by
  obtain ⟨calls, h⟩ := h
  exact run_shape (fun hu => by cases hu) h

/-- What a successful `PointsRegions` tells about the object left behind. -/
theorem points_facts {m m' : ComponentModel} {c : CableComponent} {s : CableState} {r : Regions} (O : Obtained m)
    (hc : m.component = some c) (hs : m.state = some s) (hr : m.pointsRegions = .ok m' r) (hne : r ≠ noRegions) :
    m'.isUpdatedState = true ∧ m'.isUpdatedStretch = true ∧ m'.component = some c ∧ m'.state = some s ∧
      m'.points = r ∧ ∃ cs limit, c.coefficients s.type = some cs ∧ cs ≠ [] ∧ c.limit s.type = some limit ∧
      r = c.regions cs m'.thermalState limit m'.loadStretch := by
  unfold pointsRegions query at hr
  cases hu : m.update with
  | ok m1 b =>
    rw [hu] at hr
    obtain ⟨g1, g2, g3⟩ := (update_shape O.shaped).1 m1 b hu
    cases b with
    | false => simp only at hr; cases hr; exact absurd rfl hne
    | true =>
      simp only at hr
      have e1 : m1.component = some c := g3.1.trans hc
      have e2 : m1.state = some s := g3.2.1.trans hs
      rw [e1, e2] at hr
      simp only at hr
      cases hr
      obtain ⟨f1, c', s', cs, limit, f2, f3, f4, f5, f6, f7⟩ := g1 (g2 rfl)
      cases e1.symm.trans f2; cases e2.symm.trans f3
      exact ⟨g2 rfl, f1, e1, e2, rfl, cs, limit, f4, f5, f6, f7⟩
  | throws m1 => rw [hu] at hr; cases hr
  | ub => rw [hu] at hr; cases hr

theorem query_updated {A : Type} {fail : A} {body : CableComponent → CableState → ComponentModel → A}
    {m : ComponentModel} {c : CableComponent} {s : CableState} (h1 : m.isUpdatedState = true)
    (h2 : m.isUpdatedStretch = true) (hc : m.component = some c) (hs : m.state = some s) :
    m.query fail body = .ok m (body c s m) := by
  unfold query ComponentModel.update
  rw [if_pos ⟨h1, h2⟩]
  simp only
  rw [hc, hs]

theorem modulus_pos {c : CableComponent} {t : PolynomialType} {cs : List ℝ} (h : c.coefficients t = some cs)
    (hne : cs ≠ []) : 100000 ≤ c.modulusExtrapolate t ∧ t ≠ .null := by
  have key : ∀ ds limit, ds ≠ [] → 100000 ≤ c.modulusOf ds limit := by
    intro ds limit hd
    unfold CableComponent.modulusOf
    rw [if_neg hd]
    simp only
    split_ifs with h
    · exact le_refl _
    · exact not_lt.1 h
  cases t with
  | null => cases h
  | creep => cases h; exact ⟨key _ _ hne, by decide⟩
  | loadStrain => cases h; exact ⟨key _ _ hne, by decide⟩

/-- C63: outside the polynomial region the load at the strain of a load is that load. -/
theorem C63_load_of_strain {m m' : ComponentModel} {c : CableComponent} {s : CableState} {r : Regions}
    (O : Obtained m) (hc : m.component = some c) (hs : m.state = some s) (hr : m.pointsRegions = .ok m' r)
    (hne : r ≠ noRegions) (hE : 0 < c.modulusTension) (h0 : 0 ≤ r.start.y) (h1 : r.start.x < r.stop.x)
    (h2 : r.start.y < r.stop.y) (l : ℝ)
    (hl : l < 0 ∧ 0 < c.modulusCompression ∨ 0 ≤ l ∧ l ≤ r.start.y ∨ r.stop.y ≤ l) :
    ∃ x, m'.strain l = .ok m' x ∧ m'.load x = .ok m' l := by
  obtain ⟨f1, f2, f3, f4, f5, cs, limit, g1, g2, g3, g4⟩ := points_facts O hc hs hr hne
  obtain ⟨hM, ht⟩ := modulus_pos g1 g2
  refine ⟨_, query_updated f1 f2 f3 f4, ?_⟩
  unfold ComponentModel.load
  rw [query_updated f1 f2 f3 f4, f5]
  congr 1
  have hu : r.unloaded.y = 0 := by rw [g4]; rfl
  have hx : r.unloaded.x = r.start.x + (0 - r.start.y) / c.modulusTension := by rw [g4]; rfl
  have hxs : r.unloaded.x ≤ r.start.x := by
    rw [hx]
    have : (0 - r.start.y) / c.modulusTension ≤ 0 := div_nonpos_of_nonpos_of_nonneg (by linarith) hE.le
    linarith
  rcases hl with ⟨hl, hC⟩ | ⟨hl, hl'⟩ | hl
  · have e : c.strain s.type r m'.thermalState l = r.unloaded.x + (l - 0) / c.modulusCompression := by
      unfold CableComponent.strain
      rw [if_pos (by rw [hu]; exact hl)]
      unfold CableComponent.strainLinear
      rw [hu]
    rw [e]
    have hneg : (l - 0) / c.modulusCompression < 0 := div_neg_of_neg_of_pos (by linarith) hC
    unfold CableComponent.load
    rw [if_pos (by linarith)]
    unfold CableComponent.loadLinear
    rw [hu]
    field_simp
    ring
  · have e : c.strain s.type r m'.thermalState l = r.start.x + (l - r.start.y) / c.modulusTension := by
      unfold CableComponent.strain
      rw [if_neg (by rw [hu]; linarith), if_pos ⟨by rw [hu]; exact hl, hl'⟩]
      rfl
    rw [e]
    have hle : (l - r.start.y) / c.modulusTension ≤ 0 := div_nonpos_of_nonpos_of_nonneg (by linarith) hE.le
    have hge : (0 - r.start.y) / c.modulusTension ≤ (l - r.start.y) / c.modulusTension := by
      gcongr
    unfold CableComponent.load
    rw [if_neg (by rw [hx]; linarith), if_pos ⟨by rw [hx]; linarith, by linarith⟩]
    unfold CableComponent.loadLinear
    field_simp
    ring
  · have hM' : 0 < c.modulusExtrapolate s.type := by linarith
    have e : c.strain s.type r m'.thermalState l = r.stop.x + (l - r.stop.y) / c.modulusExtrapolate s.type := by
      unfold CableComponent.strain
      rw [if_neg (by rw [hu]; linarith), if_neg (by rintro ⟨_, h⟩; linarith),
        if_neg (by rintro ⟨_, h⟩; linarith), if_pos hl, if_neg ht]
      rfl
    rw [e]
    have hge : 0 ≤ (l - r.stop.y) / c.modulusExtrapolate s.type := div_nonneg (by linarith) hM'.le
    unfold CableComponent.load
    rw [if_neg (by linarith), if_neg (by rintro ⟨_, h⟩; linarith),
      if_neg (by rintro ⟨_, h⟩; linarith), if_pos (by linarith), if_neg ht]
    unfold CableComponent.loadLinear
    field_simp
    ring

/-- C63: outside the polynomial region the strain at the load of a strain is that strain. -/
theorem C63_strain_of_load {m m' : ComponentModel} {c : CableComponent} {s : CableState} {r : Regions}
    (O : Obtained m) (hc : m.component = some c) (hs : m.state = some s) (hr : m.pointsRegions = .ok m' r)
    (hne : r ≠ noRegions) (hE : 0 < c.modulusTension) (h0 : 0 ≤ r.start.y) (h1 : r.start.x < r.stop.x)
    (h2 : r.start.y < r.stop.y) (x : ℝ)
    (hl : x < r.unloaded.x ∧ 0 < c.modulusCompression ∨ r.unloaded.x ≤ x ∧ x ≤ r.start.x ∨ r.stop.x ≤ x) :
    ∃ l, m'.load x = .ok m' l ∧ m'.strain l = .ok m' x := by
  obtain ⟨f1, f2, f3, f4, f5, cs, limit, g1, g2, g3, g4⟩ := points_facts O hc hs hr hne
  obtain ⟨hM, ht⟩ := modulus_pos g1 g2
  refine ⟨_, query_updated f1 f2 f3 f4, ?_⟩
  unfold ComponentModel.strain
  rw [query_updated f1 f2 f3 f4, f5]
  congr 1
  have hu : r.unloaded.y = 0 := by rw [g4]; rfl
  have hx : r.unloaded.x = r.start.x + (0 - r.start.y) / c.modulusTension := by rw [g4]; rfl
  have hxs : r.unloaded.x ≤ r.start.x := by
    rw [hx]
    have : (0 - r.start.y) / c.modulusTension ≤ 0 := div_nonpos_of_nonpos_of_nonneg (by linarith) hE.le
    linarith
  rcases hl with ⟨hl, hC⟩ | ⟨hl, hl'⟩ | hl
  · have e : c.load s.type r m'.thermalState x = (x - r.unloaded.x) * c.modulusCompression := by
      unfold CableComponent.load
      rw [if_pos hl]
      unfold CableComponent.loadLinear
      rw [hu, zero_add]
    rw [e]
    have hneg : (x - r.unloaded.x) * c.modulusCompression < 0 := mul_neg_of_neg_of_pos (by linarith) hC
    unfold CableComponent.strain
    rw [if_pos (by rw [hu]; linarith)]
    unfold CableComponent.strainLinear
    rw [hu]
    field_simp
    ring
  · have e : c.load s.type r m'.thermalState x = r.start.y + (x - r.start.x) * c.modulusTension := by
      unfold CableComponent.load
      rw [if_neg (by linarith), if_pos ⟨hl, hl'⟩]
      rfl
    rw [e]
    have hle : (x - r.start.x) * c.modulusTension ≤ 0 := mul_nonpos_of_nonpos_of_nonneg (by linarith) hE.le
    have hge : 0 ≤ r.start.y + (x - r.start.x) * c.modulusTension := by
      have : (0 - r.start.y) / c.modulusTension ≤ x - r.start.x := by rw [hx] at hl; linarith
      rw [div_le_iff₀ hE] at this
      linarith
    unfold CableComponent.strain
    rw [if_neg (by rw [hu]; linarith), if_pos ⟨by rw [hu]; exact hge, by linarith⟩]
    unfold CableComponent.strainLinear
    field_simp
    ring
  · have hM' : 0 < c.modulusExtrapolate s.type := by linarith
    have e : c.load s.type r m'.thermalState x = r.stop.y + (x - r.stop.x) * c.modulusExtrapolate s.type := by
      unfold CableComponent.load
      rw [if_neg (by linarith), if_neg (by rintro ⟨_, h⟩; linarith),
        if_neg (by rintro ⟨_, h⟩; linarith), if_pos hl, if_neg ht]
      rfl
    rw [e]
    have hge : 0 ≤ (x - r.stop.x) * c.modulusExtrapolate s.type := mul_nonneg (by linarith) hM'.le
    unfold CableComponent.strain
    rw [if_neg (by rw [hu]; linarith), if_neg (by rintro ⟨_, h⟩; linarith),
      if_neg (by rintro ⟨_, h⟩; linarith), if_pos (by linarith), if_neg ht]
    unfold CableComponent.strainLinear
    field_simp
    ring

/-- A component with straight lines as polynomials. -/
noncomputable def exComponent (a b : ℝ) : CableComponent :=
  ⟨1, 0, [0, a, 0, 0, 0], [0, b, 0, 0, 0], 100, 100, 1, 3, 1, 1⟩

/-- Setting up a model for it. -/
noncomputable def exSetup (a b : ℝ) (t u : PolynomialType) (l : ℝ) : List ComponentModel.Call :=
  [.setComponent (some (exComponent a b)), .setReference (some 0), .setStretch (some ⟨0, t, l⟩),
    .setState (some ⟨0, u⟩)]

/-- The model after that. -/
noncomputable def exModel (a b : ℝ) (t u : PolynomialType) (l : ℝ) : ComponentModel :=
  { ComponentModel.new with
    component := some (exComponent a b), reference := some 0, stretch := some ⟨0, t, l⟩, state := some ⟨0, u⟩ }

theorem exModel_obtained (a b : ℝ) (t u : PolynomialType) (l : ℝ) : Obtained (exModel a b t u l) :=
  ⟨exSetup a b t u l, rfl⟩

/-- The points of such a component. -/
theorem exRegions {a b d th limit l : ℝ} (hd : d ≠ 0) :
    (exComponent a b).regions [0, d, 0, 0, 0] th limit l =
      ⟨⟨l / d * 1 + th + (0 - l) / 3, 0⟩, ⟨l / d * 1 + th, l⟩, ⟨limit / d * 1 + th, limit⟩⟩ := by
  unfold CableComponent.regions CableComponent.strainPolynomial
  rw [polynomialX_linear hd, polynomialX_linear hd]
  rfl

theorem exModel_clean (a b : ℝ) (t u : PolynomialType) (l : ℝ) : Clean (exModel a b t u l) :=
  clean_flags_false rfl rfl

/-- Its data when the polynomial types agree. -/
theorem exSpec {a b : ℝ} (hb : b ≠ 0) {l : ℝ} :
    spec (exComponent a b) 0 ⟨0, .loadStrain⟩ ⟨0, .loadStrain, l⟩ =
      .val (some (l, 0, ⟨⟨l / b - l / 3, 0⟩, ⟨l / b, l⟩, ⟨100 / b, 100⟩⟩)) := by
  refine spec_eq (stretchOf_same (Or.inl rfl)) ?_
  have h3 : (exComponent a b).thermal 0 0 = 0 := by unfold CableComponent.thermal; ring
  rw [regionsOf_eq (cs := [0, b, 0, 0, 0]) (limit := 100) rfl (by simp) rfl]
  simp only [h3, exRegions hb]
  congr 3
  · congr 1; ring
  · congr 1; ring
  · congr 1; ring

/-- The theorems C63 apply. -/
example : ∃ m' r, (exModel 1 2 .loadStrain .loadStrain 10).pointsRegions = .ok m' r ∧ r ≠ noRegions ∧
    0 ≤ r.start.y ∧ r.start.x < r.stop.x ∧ r.start.y < r.stop.y := by
  obtain ⟨m', h, _, _, _, _, _, _, hp⟩ := (exModel_clean 1 2 .loadStrain .loadStrain 10).query rfl rfl rfl rfl
    (exSpec (by norm_num)) (fail := noRegions) (body := fun _ _ m => m.points)
  refine ⟨m', _, h, ?_, ?_, ?_, ?_⟩ <;> rw [hp]
  · intro h
    have : (0:ℝ) = -999999 := congrArg (fun r => r.unloaded.y) h
    norm_num at this
  all_goals norm_num

/-! ## C64 -/

/-- Calls that make the object forget everything it has computed. -/
def Resets : ComponentModel.Call → Prop
  | .setComponent _ => True
  | .setReference _ => True
  | .setStretch _ => True
  | _ => False

theorem Resets.clean {k : ComponentModel.Call} (h : Resets k) {m m' : ComponentModel} (hn : k.next m = some m') :
    Clean m' ∧ m'.isUpdatedStretch = false := by
  cases k with
  | setComponent c => cases hn; exact ⟨clean_setComponent _ _, rfl⟩
  | setStretch c => cases hn; exact ⟨clean_setStretch _ _, rfl⟩
  | setReference c => cases hn; exact ⟨clean_setReference _ _, rfl⟩
  | _ => exact h.elim

theorem update_clean {m : ComponentModel} (C : Clean m) :
    (∀ m' b, m.update = .ok m' b → Clean m' ∧ SamePointers m m' ∧ ∃ s, m.state = some s) ∧
      ∀ m', m.update = .throws m' → Clean m' ∧ SamePointers m m' ∧ ∃ s, m.state = some s := by
  by_cases hp : ∃ c t s ss, m.component = some c ∧ m.reference = some t ∧ m.state = some s ∧ m.stretch = some ss
  · obtain ⟨c, t, s, ss, h1, h2, h3, h4⟩ := hp
    rcases C.update h1 h2 h3 h4 with ⟨l, th, r, m1, a, b1, P, C1, f1⟩ | ⟨m1, a, b1, P, C1, f1⟩ |
      ⟨m1, a, b1, P, C1⟩ | ⟨a, b1⟩ <;> rw [b1] <;>
      refine ⟨fun m' b h => ?_, fun m' h => ?_⟩ <;> cases h <;> exact ⟨C1, P, s, h3⟩
  · have : m.update = .ub := by
      unfold ComponentModel.update
      rw [if_neg]
      · split
        · rename_i c t s ss h1 h2 h3 h4
          exact absurd ⟨c, t, s, ss, h1, h2, h3, h4⟩ hp
        · rfl
      · rintro ⟨hb, hb'⟩
        obtain ⟨⟨c, h1⟩, ⟨t, h2⟩, ⟨ss, h4⟩⟩ := C.set hb'
        obtain ⟨s, h3⟩ := C.stateSet hb
        exact hp ⟨c, t, s, ss, h1, h2, h3, h4⟩
    rw [this]
    exact ⟨fun _ _ h => (by cases h), fun _ h => (by cases h)⟩

theorem query_clean {A : Type} {fail : A} {body} {m m' : ComponentModel} (C : Clean m)
    (h : (m.query fail body).state? = some m') : Clean m' ∧ SamePointers m m' ∧ (m' = m ∨ ∃ s, m.state = some s) := by
  have fin : Clean m' ∧ SamePointers m m' ∧ (∃ s, m.state = some s) →
    Clean m' ∧ SamePointers m m' ∧ (m' = m ∨ ∃ s, m.state = some s) := fun ⟨a, b, c⟩ => ⟨a, b, Or.inr c⟩
  unfold query at h
  cases hu : m.update with
  | ok m1 b =>
    have := (update_clean C).1 m1 b hu
    rw [hu] at h
    cases b with
    | true =>
      simp only at h
      revert h
      split <;> intro h <;> cases h
      exact fin this
    | false => cases h; exact fin this
  | throws m1 =>
    have := (update_clean C).2 m1 hu
    rw [hu] at h
    cases h
    exact fin this
  | ub => rw [hu] at h; cases h

theorem validate_clean {w : Bool} {m m' : ComponentModel} (C : Clean m)
    (h : (m.validate w).state? = some m') :
    Clean m' ∧ SamePointers m m' ∧ (m' = m ∨ ∃ s, m.state = some s) := by
  have fin : Clean m' ∧ SamePointers m m' ∧ (∃ s, m.state = some s) →
    Clean m' ∧ SamePointers m m' ∧ (m' = m ∨ ∃ s, m.state = some s) := fun ⟨a, b, c⟩ => ⟨a, b, Or.inr c⟩
  unfold ComponentModel.validate at h
  revert h
  split
  · split_ifs
    · cases hu : m.update with
      | ok m1 b =>
        have := (update_clean C).1 m1 b hu
        cases b <;> intro h <;> cases h <;> exact fin this
      | throws m1 =>
        have := (update_clean C).2 m1 hu
        intro h; cases h; exact fin this
      | ub => intro h; cases h
    · intro h; cases h; exact ⟨C, SamePointers.refl m, Or.inl rfl⟩
  · intro h; cases h; exact ⟨C, SamePointers.refl m, Or.inl rfl⟩

/-- The state, if set, has the polynomial type `τ`. -/
def HasType (τ : PolynomialType) (m : ComponentModel) : Prop := ∀ s, m.state = some s → s.type = τ

theorem next_clean {τ : PolynomialType} {k : ComponentModel.Call} {m m' : ComponentModel} (C : Clean m)
    (T : HasType τ m) (S : m.isUpdatedStretch = true → ∃ s, m.state = some s)
    (hk : ∀ s, k = .setState s → ∃ s', s = some s' ∧ s'.type = τ) (h : k.next m = some m') :
    Clean m' ∧ HasType τ m' ∧ (m'.isUpdatedStretch = true → ∃ s, m'.state = some s) := by
  have q : Clean m' ∧ SamePointers m m' ∧ (m' = m ∨ ∃ s, m.state = some s) → Clean m' ∧ HasType τ m' ∧
      (m'.isUpdatedStretch = true → ∃ s, m'.state = some s) := by
    rintro ⟨a, P, b⟩
    refine ⟨a, fun s e => T s (P.2.1.symm.trans e), fun e => ?_⟩
    rcases b with rfl | ⟨s, b⟩
    · exact S e
    · exact ⟨s, P.2.1.trans b⟩
  cases k with
  | setComponent c => cases h; exact ⟨clean_setComponent _ _, T, fun h => (by cases h)⟩
  | setStretch c => cases h; exact ⟨clean_setStretch _ _, T, fun h => (by cases h)⟩
  | setReference c => cases h; exact ⟨clean_setReference _ _, T, fun h => (by cases h)⟩
  | setState s =>
    obtain ⟨s', rfl, ht⟩ := hk s rfl
    cases h
    refine ⟨C.setState fun hf => ?_, ?_, fun _ => ⟨s', rfl⟩⟩
    · obtain ⟨s, hs⟩ := S hf
      exact ⟨s, hs, (T s hs).trans ht.symm⟩
    · intro s e; cases e; exact ht
  | load x => exact q (query_clean C h)
  | slope x => exact q (query_clean C h)
  | strain x => exact q (query_clean C h)
  | strainThermal => exact q (query_clean C h)
  | pointsRegions => exact q (query_clean C h)
  | validate w => exact q (validate_clean C h)

theorem run_clean {τ : PolynomialType} {ks : List ComponentModel.Call} {m m' : ComponentModel} (C : Clean m)
    (T : HasType τ m) (S : m.isUpdatedStretch = true → ∃ s, m.state = some s)
    (hk : ∀ s, .setState s ∈ ks → ∃ s', s = some s' ∧ s'.type = τ) (h : run m ks = some m') : Clean m' := by
  induction ks generalizing m with
  | nil => cases h; exact C
  | cons k ks ih =>
    unfold run at h
    cases hn : k.next m with
    | none => rw [hn] at h; cases h
    | some m1 =>
      rw [hn] at h
      obtain ⟨C1, T1, S1⟩ := next_clean C T S (fun s e => hk s (e ▸ List.mem_cons_self)) hn
      exact ih C1 T1 S1 (fun s e => hk s (List.mem_cons_of_mem _ e)) h

/-- Two clean objects with the same pointers give the same answers. -/
theorem clean_ask {m m1 : ComponentModel} (C : Clean m) (C1 : Clean m1) (P : SamePointers m m1)
    (q : ElasticQuery) : q.ask m = q.ask m1 := by
  have key : ∀ {A : Type} (fail : A) (body : CableComponent → CableState → ComponentModel → A) (f : A → List ℝ),
      (∀ c s a b, a.thermalState = b.thermalState → a.points = b.points → body c s a = body c s b) →
      valueOf f (m.query fail body) = valueOf f (m1.query fail body) := by
    intro A fail body f hb
    by_cases hp : ∃ c t s ss, m.component = some c ∧ m.reference = some t ∧ m.state = some s ∧ m.stretch = some ss
    · obtain ⟨c, t, s, ss, h1, h2, h3, h4⟩ := hp
      have g1 := P.1.trans h1
      have g2 := P.2.2.2.trans h2
      have g3 := P.2.1.trans h3
      have g4 := P.2.2.1.trans h4
      unfold ComponentModel.query
      rcases C.update h1 h2 h3 h4 with ⟨l, th, r, a, e, b, Q, _, _, _, _, f1, f2⟩ | ⟨a, e, b, Q, _⟩ |
          ⟨a, e, b, Q, _⟩ | ⟨e, b⟩ <;>
        rcases C1.update g1 g2 g3 g4 with ⟨l', th', r', a', e', b', Q', _, _, _, _, f1', f2'⟩ |
          ⟨a', e', b', Q', _⟩ | ⟨a', e', b', Q', _⟩ | ⟨e', b'⟩ <;>
        rw [e] at e' <;> first | (cases e'; done) | skip
      · cases e'
        rw [b, b']
        simp only
        rw [Q.1, Q.2.1, Q'.1, Q'.2.1, h1, h3, g1, g3]
        simp only [valueOf]
        rw [hb c s a a' (f1.trans f1'.symm) (f2.trans f2'.symm)]
      all_goals first | (rw [b, b']; rfl) | rw [b, b']
    · have ub : ∀ {x : ComponentModel}, Clean x → SamePointers m x → x.update = .ub := by
        intro x Cx Px
        unfold ComponentModel.update
        rw [if_neg]
        · split
          · rename_i c t s ss h1 h2 h3 h4
            exact absurd ⟨c, t, s, ss, Px.1.symm.trans h1, Px.2.2.2.symm.trans h2, Px.2.1.symm.trans h3,
              Px.2.2.1.symm.trans h4⟩ hp
          · rfl
        · rintro ⟨hb, hb'⟩
          obtain ⟨⟨c, h1⟩, ⟨t, h2⟩, ⟨ss, h4⟩⟩ := Cx.set hb'
          obtain ⟨s, h3⟩ := Cx.stateSet hb
          exact hp ⟨c, t, s, ss, Px.1.symm.trans h1, Px.2.2.2.symm.trans h2, Px.2.1.symm.trans h3,
            Px.2.2.1.symm.trans h4⟩
      unfold ComponentModel.query
      rw [ub C (SamePointers.refl m), ub C1 P]
  cases q with
  | load x => exact key _ _ _ fun c s a b h h' => by simp only [h, h']
  | slope x => exact key _ _ _ fun c s a b h h' => by simp only [h, h']
  | strain l => exact key _ _ _ fun c s a b h h' => by simp only [h, h']
  | strainThermal => exact key _ _ _ fun c s a b h h' => by simp only [h]
  | points => exact key _ _ _ fun c s a b h h' => by simp only [h']

/-- A new object given the pointers of `m`. -/
noncomputable def freshComponent (m : ComponentModel) : ComponentModel :=
  ((((ComponentModel.new).setComponent m.component).setReference m.reference).setStretch m.stretch).setState m.state

theorem freshComponent_clean (m : ComponentModel) : Clean (freshComponent m) := clean_flags_false rfl rfl

/-- **C64** (partial). As long as, since the last change of the component, the reference temperature or the stretch
state, all states had the same polynomial type, a component elongation model answers every question exactly as a
new object with the same component, reference temperature, stretch state and state would.

What is missing: a state of another polynomial type, for which the claim is false (`C64_stale_stretch`). -/
theorem C64_component_partial {τ : PolynomialType} {before after : List ComponentModel.Call}
    {k : ComponentModel.Call} {m0 m : ComponentModel} (hr : Resets k)
    (h0 : run ComponentModel.new (before ++ [k]) = some m0) (h : run m0 after = some m)
    (ht : ∀ s, m0.state = some s → s.type = τ)
    (hk : ∀ s, .setState s ∈ after → ∃ s', s = some s' ∧ s'.type = τ) (q : ElasticQuery) :
    q.ask m = q.ask (freshComponent m) := by
  have C0 : Clean m0 ∧ m0.isUpdatedStretch = false := by
    revert h0
    generalize ComponentModel.new = x
    induction before generalizing x with
    | nil =>
      intro h0
      simp only [List.nil_append, run] at h0
      cases hn : k.next x with
      | none => rw [hn] at h0; cases h0
      | some y => rw [hn] at h0; cases h0; exact hr.clean hn
    | cons a l ih =>
      intro h0
      rw [List.cons_append, run] at h0
      cases hn : a.next x with
      | none => rw [hn] at h0; cases h0
      | some y => rw [hn] at h0; exact ih y h0
  have C : Clean m := run_clean C0.1 ht (fun e => absurd (C0.2.symm.trans e) (by decide)) hk h
  exact clean_ask C (freshComponent_clean m) ⟨rfl, rfl, rfl, rfl⟩ q

/-- The load of the example component on its polynomial. -/
theorem exPolynomial {a b d th x : ℝ} :
    (exComponent a b).loadPolynomial [0, d, 0, 0, 0] th x = d * (x - th) := by
  unfold CableComponent.loadPolynomial
  simp only [evalY, yLoop, exComponent]
  ring

/-- The example component's stretch load after the creep stretch is transferred to the load-strain polynomial. -/
theorem exTransfer : stretchOf (exComponent 1 2) 0 ⟨0, .loadStrain⟩ ⟨0, .creep, 1⟩ = .val (some 4) := by
  have ht : (exComponent 1 2).thermal 0 0 = 0 := by unfold CableComponent.thermal; ring
  refine stretchOf_transfer (by norm_num) (by simp [exComponent]) (by simp [exComponent]) rfl rfl ?_
  simp only [ht]
  have r1 : (exComponent 1 2).regions (exComponent 1 2).creep 0 (exComponent 1 2).limitCreep 0 =
      ⟨⟨0, 0⟩, ⟨0, 0⟩, ⟨100, 100⟩⟩ := by
    have : (exComponent 1 2).creep = [0, 1, 0, 0, 0] := rfl
    rw [this, exRegions one_ne_zero]
    simp [exComponent]
  have r2 : (exComponent 1 2).regions (exComponent 1 2).loadStrain 0 (exComponent 1 2).limitLoadStrain 0 =
      ⟨⟨0, 0⟩, ⟨0, 0⟩, ⟨50, 100⟩⟩ := by
    have : (exComponent 1 2).loadStrain = [0, 2, 0, 0, 0] := rfl
    rw [this, exRegions two_ne_zero]
    norm_num [exComponent]
  rw [r1, r2]
  have e1 : (exComponent 1 2).strain .creep ⟨⟨0, 0⟩, ⟨0, 0⟩, ⟨100, 100⟩⟩ 0 1 = 1 := by
    unfold CableComponent.strain
    rw [if_neg (by norm_num), if_neg (by norm_num), if_pos (by norm_num)]
    show (exComponent 1 2).strainPolynomial [0, 1, 0, 0, 0] 0 1 = 1
    unfold CableComponent.strainPolynomial
    rw [polynomialX_linear one_ne_zero]
    norm_num [exComponent]
  have e2 : ∀ x, 0 < x → x < 50 →
      (exComponent 1 2).load .loadStrain ⟨⟨0, 0⟩, ⟨0, 0⟩, ⟨50, 100⟩⟩ 0 x = 2 * x := by
    intro x h1 h2
    unfold CableComponent.load
    simp only
    rw [if_neg (by linarith), if_neg (by rintro ⟨_, h⟩; linarith), if_pos ⟨h1, h2⟩]
    show (exComponent 1 2).loadPolynomial [0, 2, 0, 0, 0] 0 x = 2 * x
    rw [exPolynomial]; ring
  have e3 : ∀ x, CableComponent.loadLinear ⟨1, 1⟩ (exComponent 1 2).modulusTension x = 1 + (x - 1) * 3 := fun _ => rfl
  unfold CableComponent.transferStretch
  simp only [e1]
  have hx : (1:ℝ) + (0 - (2 * 1 - (1 + (1 - 1) * 3))) /
      ((2 * (1 + 0.001) - (1 + (1 + 0.001 - 1) * 3) - (2 * 1 - (1 + (1 - 1) * 3))) / (1 + 0.001 - 1)) = 2 := by
    norm_num
  have hs : CableComponent.StretchSearch.step (CableComponent.loadLinear ⟨1, 1⟩ (exComponent 1 2).modulusTension)
      ((exComponent 1 2).load .loadStrain ⟨⟨0, 0⟩, ⟨0, 0⟩, ⟨50, 100⟩⟩ 0)
      ⟨⟨1, 2 * 1 - (1 + (1 - 1) * 3)⟩, ⟨1 + 0.001, 2 * (1 + 0.001) - (1 + (1 + 0.001 - 1) * 3)⟩,
        ⟨-999999, -999999⟩, 2 * (1 + 0.001), 0⟩ =
      ⟨⟨1 + 0.001, 2 * (1 + 0.001) - (1 + (1 + 0.001 - 1) * 3)⟩, ⟨2, 0⟩, ⟨2, 0⟩, 4, 1⟩ := by
    unfold CableComponent.StretchSearch.step
    simp only
    rw [hx, e2 2 (by norm_num) (by norm_num), e3]
    rw [if_neg (by norm_num), if_neg (by norm_num), if_pos (by norm_num)]
    norm_num
  have hl : CableComponent.stretchLoop (CableComponent.loadLinear ⟨1, 1⟩ (exComponent 1 2).modulusTension)
      ((exComponent 1 2).load .loadStrain ⟨⟨0, 0⟩, ⟨0, 0⟩, ⟨50, 100⟩⟩ 0) 101
      ⟨⟨1, 2 * 1 - (1 + (1 - 1) * 3)⟩, ⟨1 + 0.001, 2 * (1 + 0.001) - (1 + (1 + 0.001 - 1) * 3)⟩,
        ⟨-999999, -999999⟩, 2 * (1 + 0.001), 0⟩ =
      ⟨⟨1 + 0.001, 2 * (1 + 0.001) - (1 + (1 + 0.001 - 1) * 3)⟩, ⟨2, 0⟩, ⟨2, 0⟩, 4, 1⟩ := by
    rw [CableComponent.stretchLoop, if_pos (by norm_num [abs_of_neg]), hs, CableComponent.stretchLoop,
      if_neg (by norm_num)]
  rw [e2 1 (by norm_num) (by norm_num), e2 (1 + 0.001) (by norm_num) (by norm_num), e3, e3, hl,
    if_pos (by norm_num)]

/-- **C64** fails for a component elongation model: if the stretch state is given on the creep polynomial, a
question about a state on the creep polynomial changes the answers about a later state on the load-strain
polynomial. -/
theorem C64_stale_stretch : ∃ (ks : List ComponentModel.Call) (m : ComponentModel),
    run ComponentModel.new ks = some m ∧ (ElasticQuery.load 1.5).ask m = .val [3] ∧
      (ElasticQuery.load 1.5).ask (freshComponent m) = .val [5 / 2] := by
  have ht : (exComponent 1 2).thermal 0 0 = 0 := by unfold CableComponent.thermal; ring
  -- the question about the creep state
  have s1 : spec (exComponent 1 2) 0 ⟨0, .creep⟩ ⟨0, .creep, 1⟩ =
      .val (some (1, 0, (exComponent 1 2).regions [0, 1, 0, 0, 0] 0 100 1)) := by
    refine spec_eq (stretchOf_same (Or.inl rfl)) ?_
    rw [regionsOf_eq (cs := [0, 1, 0, 0, 0]) (limit := 100) rfl (by simp) rfl, ht]
  obtain ⟨m1, q1, P1, C1, -, f2, f3, -, -⟩ := (exModel_clean 1 2 .creep .creep 1).query rfl rfl rfl rfl s1
    (fail := (-999999 : ℝ)) (body := fun c s m => c.load s.type m.points m.thermalState 1.5)
  refine ⟨exSetup 1 2 .creep .creep 1 ++ [.load 1.5, .setState (some ⟨0, .loadStrain⟩)],
    m1.setState (some ⟨0, .loadStrain⟩), ?_, ?_, ?_⟩
  · show run (exModel 1 2 .creep .creep 1) [.load 1.5, .setState (some ⟨0, .loadStrain⟩)] = _
    have : (ComponentModel.Call.load 1.5).next (exModel 1 2 .creep .creep 1) = some m1 := by
      show ((exModel 1 2 .creep .creep 1).load 1.5).state? = some m1
      unfold ComponentModel.load
      rw [q1]; rfl
    rw [run, this]
    rfl
  · -- the stretch load is still that of the creep state
    have h1 : (m1.setState (some ⟨0, .loadStrain⟩)).update =
        .ok { m1 with state := some ⟨0, .loadStrain⟩, thermalState := 0, loadStretch := 1,
                      points := (exComponent 1 2).regions [0, 2, 0, 0, 0] 0 100 1,
                      isUpdatedStretch := true, isUpdatedState := true } true := by
      unfold ComponentModel.update
      rw [if_neg (by rintro ⟨h, _⟩; cases h)]
      have g1 : (m1.setState (some ⟨0, .loadStrain⟩)).component = some (exComponent 1 2) := P1.1
      have g2 : (m1.setState (some ⟨0, .loadStrain⟩)).reference = some 0 := P1.2.2.2
      have g3 : (m1.setState (some ⟨0, .loadStrain⟩)).stretch = some ⟨0, .creep, 1⟩ := P1.2.2.1
      have g4 : (m1.setState (some ⟨0, .loadStrain⟩)).state = some ⟨0, .loadStrain⟩ := rfl
      rw [g1, g2, g3, g4]
      simp only
      unfold updateWith
      rw [if_neg (by rw [show (m1.setState (some ⟨0, .loadStrain⟩)).isUpdatedStretch = true from f2]; decide)]
      simp only
      unfold finishUpdate updateState
      rw [show (exComponent 1 2).coefficients (⟨0, .loadStrain⟩ : CableState).type = some [0, 2, 0, 0, 0] from rfl,
        show (exComponent 1 2).limit (⟨0, .loadStrain⟩ : CableState).type = some 100 from rfl]
      simp only [if_neg (show ([0, 2, 0, 0, 0] : List ℝ) ≠ [] by simp), ht]
      rw [show (m1.setState (some ⟨0, .loadStrain⟩)).loadStretch = 1 from f3]
      rfl
    show valueOf _ (ComponentModel.load 1.5 _) = _
    unfold ComponentModel.load ComponentModel.query
    rw [h1]
    simp only
    rw [P1.1]
    simp only [exModel, valueOf]
    rw [exRegions two_ne_zero]
    unfold CableComponent.load
    simp only
    rw [if_neg (by norm_num), if_neg (by norm_num), if_pos (by norm_num)]
    show Res.val [(exComponent 1 2).loadPolynomial [0, 2, 0, 0, 0] 0 1.5] = _
    rw [exPolynomial]
    norm_num
  · have s2 : spec (exComponent 1 2) 0 ⟨0, .loadStrain⟩ ⟨0, .creep, 1⟩ =
        .val (some (4, 0, (exComponent 1 2).regions [0, 2, 0, 0, 0] 0 100 4)) := by
      refine spec_eq exTransfer ?_
      rw [regionsOf_eq (cs := [0, 2, 0, 0, 0]) (limit := 100) rfl (by simp) rfl, ht]
    obtain ⟨m2, q2, -, -, -, -, -, f4, f5⟩ :=
      (freshComponent_clean (m1.setState (some ⟨0, .loadStrain⟩))).query P1.1 P1.2.2.2 rfl P1.2.2.1 s2
      (fail := (-999999 : ℝ)) (body := fun c s m => c.load s.type m.points m.thermalState 1.5)
    show valueOf _ (ComponentModel.load 1.5 _) = _
    unfold ComponentModel.load
    rw [q2]
    simp only [valueOf]
    rw [f4, f5, exRegions two_ne_zero]
    unfold CableComponent.load
    simp only
    rw [if_neg (by norm_num), if_pos (by norm_num)]
    unfold CableComponent.loadLinear
    norm_num [exComponent]

/-- The partial theorem applies to histories with questions, validations and new states. -/
example : ∃ m, run (exModel 1 2 .loadStrain .loadStrain 10)
    [.load 1, .setState (some ⟨20, .loadStrain⟩), .slope 2] = some m := by
  obtain ⟨m1, q1, P1, C1, -⟩ := (exModel_clean 1 2 .loadStrain .loadStrain 10).query rfl rfl rfl rfl
    (exSpec (by norm_num)) (fail := (-999999 : ℝ)) (body := fun c s m => c.load s.type m.points m.thermalState 1)
  have C2 : Clean (m1.setState (some ⟨20, .loadStrain⟩)) := C1.setState fun _ => ⟨_, P1.2.1, rfl⟩
  have s2 : spec (exComponent 1 2) 0 ⟨20, .loadStrain⟩ ⟨0, .loadStrain, 10⟩ =
      .val (some (10, (exComponent 1 2).thermal 0 20,
        (exComponent 1 2).regions [0, 2, 0, 0, 0] ((exComponent 1 2).thermal 0 20) 100 10)) :=
    spec_eq (stretchOf_same (Or.inl rfl))
      (regionsOf_eq (cs := [0, 2, 0, 0, 0]) (limit := 100) rfl (by simp) rfl)
  obtain ⟨m2, q2, -⟩ := C2.query P1.1 P1.2.2.2 rfl P1.2.2.1 s2
    (fail := (-999999 : ℝ)) (body := fun c s m => c.slope s.type m.points m.thermalState 2)
  refine ⟨m2, ?_⟩
  have n1 : (ComponentModel.Call.load 1).next (exModel 1 2 .loadStrain .loadStrain 10) = some m1 := by
    show ((exModel 1 2 .loadStrain .loadStrain 10).load 1).state? = some m1
    unfold ComponentModel.load
    rw [q1]; rfl
  have n2 : (ComponentModel.Call.slope 2).next (m1.setState (some ⟨20, .loadStrain⟩)) = some m2 := by
    show (ComponentModel.slope 2 (m1.setState (some ⟨20, .loadStrain⟩))).state? = some m2
    unfold ComponentModel.slope
    rw [q2]; rfl
  rw [run, n1]
  show run (m1.setState (some ⟨20, .loadStrain⟩)) [.slope 2] = _
  rw [run, n2]
  rfl

/-! ## C65 -/

/-- The polynomial `50 x + 1050 x² - 6000 x³ + 5000 x⁴`. -/
noncomputable def dipping : List ℝ := [0, 50, 1050, -6000, 5000]

/-- A component with that polynomial. -/
noncomputable def exDipping : CableComponent := ⟨1, 0, dipping, dipping, 100, 100, 50, 50, 1, 1⟩

theorem dipping_deriv (x : ℝ) : evalY (derivCoefficients dipping) x = 50 + 2100 * x - 18000 * x ^ 2 + 20000 * x ^ 3 := by
  norm_num [derivCoefficients, derivLoop, dipping, evalY, yLoop]
  ring

theorem dipping_x {y x : ℝ} (h1 : (0.1 : ℝ) - (10 - y) / 100 = x) (h2 : x * 50 + x ^ 2 * 1050 + x ^ 3 * (-6000) +
    x ^ 4 * 5000 = y) : CableComponent.polynomialX dipping y = x := by
  have e : ∀ z, evalY ((0 - y) :: [50, 1050, -6000, 5000]) z =
      z * 50 + z ^ 2 * 1050 + z ^ 3 * (-6000) + z ^ 4 * 5000 - y := by
    intro z; simp only [evalY, yLoop]; ring
  have hn : Obj.newton ((0 - y) :: [50, 1050, -6000, 5000]) (derivCoefficients dipping) (1 / 10 ^ (2 : ℤ)) 100 0.1
      (-999999) = x := by
    rw [Obj.newton, if_pos (by norm_num [abs_of_pos])]
    simp only [e, dipping_deriv]
    rw [if_pos (by norm_num)]
    have : (0.1:ℝ) - (0.1 * 50 + 0.1 ^ 2 * 1050 + 0.1 ^ 3 * (-6000) + 0.1 ^ 4 * 5000 - y) /
        (50 + 2100 * 0.1 - 18000 * 0.1 ^ 2 + 20000 * 0.1 ^ 3) = x := by
      rw [← h1]; norm_num
    rw [this, Obj.newton]
    split_ifs with h
    · simp only [e, dipping_deriv, h2, sub_self, zero_div, sub_zero, ite_self]
      rw [Obj.newton, if_neg (by norm_num)]
    · rfl
  unfold CableComponent.polynomialX
  simp only [Obj.solveX, Obj.update, Obj.new, if_true]
  exact hn

/-- **C65** fails: component validation, with warnings included, accepts polynomials whose slope is negative at one
of the fifty strains that divide the strain range evenly (strain 0.4 of the range from 0 to 1, slope -710). -/
theorem C65_dip_accepted : ∃ (m m' : ComponentModel) (r : Regions), Obtained m ∧ m.validate true = .ok m' true ∧
    m'.pointsRegions = .ok m' r ∧ r.start.x = 0 ∧ r.stop.x = 1 ∧
    m'.slope (r.start.x + 20 / 50 * (r.stop.x - r.start.x)) = .ok m' (-710) := by
  have x0 : CableComponent.polynomialX dipping 0 = 0 := dipping_x (by norm_num) (by norm_num)
  have x1 : CableComponent.polynomialX dipping 100 = 1 := dipping_x (by norm_num) (by norm_num)
  have sp0 : exDipping.strainPolynomial dipping 0 0 = 0 := by
    unfold CableComponent.strainPolynomial; rw [x0]; norm_num [exDipping]
  have sp1 : exDipping.strainPolynomial dipping 0 100 = 1 := by
    unfold CableComponent.strainPolynomial; rw [x1]; norm_num [exDipping]
  have hr : exDipping.regions dipping 0 100 0 = ⟨⟨0, 0⟩, ⟨0, 0⟩, ⟨1, 100⟩⟩ := by
    unfold CableComponent.regions CableComponent.strainLinear
    rw [sp0, sp1]; norm_num
  have sl : ∀ x, exDipping.slopePolynomial dipping 0 x = 50 + 2100 * x - 18000 * x ^ 2 + 20000 * x ^ 3 := by
    intro x
    unfold CableComponent.slopePolynomial
    rw [dipping_deriv]
    norm_num [exDipping]
  let m : ComponentModel := { ComponentModel.new with
    component := some exDipping, reference := some 0, stretch := some ⟨0, .creep, 0⟩, state := some ⟨0, .creep⟩ }
  have O : Obtained m := ⟨[.setComponent (some exDipping), .setReference (some 0),
    .setStretch (some ⟨0, .creep, 0⟩), .setState (some ⟨0, .creep⟩)], rfl⟩
  have C : Clean m := clean_flags_false rfl rfl
  have ht : exDipping.thermal 0 0 = 0 := by unfold CableComponent.thermal; ring
  have s1 : spec exDipping 0 ⟨0, .creep⟩ ⟨0, .creep, 0⟩ = .val (some (0, 0, ⟨⟨0, 0⟩, ⟨0, 0⟩, ⟨1, 100⟩⟩)) := by
    refine spec_eq (stretchOf_same (Or.inl rfl)) ?_
    rw [regionsOf_eq (cs := dipping) (limit := 100) rfl (by simp [dipping]) rfl]
    simp only
    rw [ht, hr]
  rcases C.update (c := exDipping) (t := 0) (s := ⟨0, .creep⟩) (ss := ⟨0, .creep, 0⟩) rfl rfl rfl rfl with
    ⟨l, th, r, m', a, b, P, C', f1, f2, f3, f4, f5⟩ | ⟨m', a, b, _⟩ | ⟨m', a, b, _⟩ | ⟨a, b⟩
  · rw [s1] at a
    cases a
    have q1 : m'.pointsRegions = .ok m' m'.points := query_updated f1 f2 P.1 P.2.1
    refine ⟨m, m', ⟨⟨0, 0⟩, ⟨0, 0⟩, ⟨1, 100⟩⟩, O, ?_, ?_, rfl, rfl, ?_⟩
    · show ComponentModel.validate true m = _
      unfold ComponentModel.validate
      have v : exDipping.validate.1 = true ∧ (⟨0, .creep⟩ : CableState).validate.1 = true ∧
          (⟨0, .creep, 0⟩ : CableStretchState).validate.1 = true ∧ ¬ (0:ℝ) < -100 := by
        refine ⟨?_, ?_, ?_, by norm_num⟩
        · norm_num [CableComponent.validate, exDipping, dipping]
        · simp [CableState.validate]
        · norm_num [CableStretchState.validate]
      simp only [show m.component = some exDipping from rfl, show m.state = some ⟨0, .creep⟩ from rfl,
        show m.stretch = some ⟨0, .creep, 0⟩ from rfl, show m.reference = some 0 from rfl]
      rw [if_pos v, b]
      have o : originOk exDipping dipping = true := by
        unfold originOk
        simp only [sp0]
        norm_num
      have sh : shapeOk exDipping dipping 100 = true := by
        unfold shapeOk
        rw [List.all_eq_true]
        intro i hi
        have hi : i / 50 = 0 := Nat.div_eq_of_lt (List.mem_range.1 hi)
        simp only [sp0, hi, sl]
        norm_num [exDipping]
      have e : exDipping.creep = dipping ∧ exDipping.loadStrain = dipping ∧ exDipping.limitCreep = 100 ∧
        exDipping.limitLoadStrain = 100 := ⟨rfl, rfl, rfl, rfl⟩
      simp only [e.1, e.2.1, e.2.2.1, e.2.2.2, o, sh]
      norm_num [dipping]
    · rw [q1, f5]
    · have q2 : ∀ x, m'.slope x = .ok m' (exDipping.slope .creep m'.points m'.thermalState x) := fun x =>
        query_updated f1 f2 P.1 P.2.1
      rw [q2, f4, f5]
      congr 1
      unfold CableComponent.slope
      simp only
      rw [if_neg (by norm_num), if_neg (by norm_num), if_pos (by norm_num)]
      show exDipping.slopePolynomial dipping 0 _ = _
      rw [sl]
      norm_num
  all_goals rw [s1] at a; cases a

/-- **C65** (partial). If component validation with warnings accepts, the slope of both polynomials at the strain of
zero load, as `Polynomial::X` reports it, is between zero and the tension modulus.

What is missing: every other strain of the range, for which the claim is false (`C65_dip_accepted`). -/
theorem C65_zero_load_partial {m m' : ComponentModel} {c : CableComponent} (hc : m.component = some c)
    (h : m.validate true = .ok m' true) (hx : 0 < c.scaleX) {cs : List ℝ} (hcs : cs = c.creep ∨ cs = c.loadStrain)
    {x : ℝ} (hX : ((Obj.new cs).solveX 0 2 0.1).1 = .val x) :
    0 ≤ ((Obj.new cs).slope x).1 * (c.scaleY / c.scaleX) ∧
      ((Obj.new cs).slope x).1 * (c.scaleY / c.scaleX) ≤ c.modulusTension := by
  have sh : shapeOk c c.creep c.limitCreep = true ∧ shapeOk c c.loadStrain c.limitLoadStrain = true := by
    unfold ComponentModel.validate at h
    revert h
    split
    · rename_i c' s ss t e1 e2 e3 e4
      cases hc.symm.trans e1
      split_ifs
      · split
        · intro h
          injection h with h1 h2
          simp only [Bool.and_eq_true, Bool.not_true, Bool.false_or] at h2
          exact h2.2
        all_goals intro h; cases h
      · intro h; cases h
    · intro h; cases h
  have : ∃ limit, shapeOk c cs limit = true := by
    rcases hcs with rfl | rfl
    · exact ⟨_, sh.1⟩
    · exact ⟨_, sh.2⟩
  obtain ⟨limit, hs⟩ := this
  unfold shapeOk at hs
  rw [List.all_eq_true] at hs
  have h0 := hs 0 (by simp)
  have hp : CableComponent.polynomialX cs 0 = x := by unfold CableComponent.polynomialX; rw [hX]
  have hq : (c.strainPolynomial cs 0 0 - 0) / c.scaleX = x := by
    unfold CableComponent.strainPolynomial
    rw [hp]; field_simp; ring
  have he : ((Obj.new cs).slope x).1 = evalY (derivCoefficients cs) x := by
    simp only [Obj.slope, Obj.update, Obj.new, if_true]
  simp only [Nat.zero_div, Nat.cast_zero, zero_mul, add_zero, CableComponent.slopePolynomial, hq,
    Bool.and_eq_true, Bool.not_eq_true', decide_eq_false_iff_not, not_lt] at h0
  rw [he]
  exact h0

/-- The theorem applies to the component of the counterexample. -/
example : ∃ (m m' : ComponentModel) (c : CableComponent), m.component = some c ∧ m.validate true = .ok m' true := by
  obtain ⟨m, m', r, O, h, -⟩ := C65_dip_accepted
  refine ⟨m, m', ?_⟩
  cases hc : m.component with
  | none => unfold ComponentModel.validate at h; rw [hc] at h; cases h
  | some c => exact ⟨c, rfl, h⟩

/-! ## C88 -/

/-- A component whose polynomials are scaled in the direction of the loads. -/
noncomputable def exScaled : CableComponent := ⟨1, 0, [0, 2, 0, 0, 0], [0, 2, 0, 0, 0], 100, 100, 1, 3, 1, 2⟩

/-- **C88** fails for scaled polynomials: where the polynomial region starts, at strain 5, the load is 10, but it
is more than 20 for every greater strain of that region; where it ends the load drops from 196 to 100. -/
theorem C88_jump : ∃ (m m' : ComponentModel) (c : CableComponent) (r : Regions), Obtained m ∧
    m.component = some c ∧ c.validate.1 = true ∧ m.pointsRegions = .ok m' r ∧
    r.start.x = 5 ∧ r.stop.x = 50 ∧ m'.load 5 = .ok m' 10 ∧
    (∀ x, 5 < x → x < 50 → ∃ l, m'.load x = .ok m' l ∧ 20 < l) ∧
    m'.load 49 = .ok m' 196 ∧ m'.load 50 = .ok m' 100 := by
  let m : ComponentModel := { ComponentModel.new with
    component := some exScaled, reference := some 0, stretch := some ⟨0, .creep, 10⟩, state := some ⟨0, .creep⟩ }
  have O : Obtained m := ⟨[.setComponent (some exScaled), .setReference (some 0),
    .setStretch (some ⟨0, .creep, 10⟩), .setState (some ⟨0, .creep⟩)], rfl⟩
  have C : Clean m := clean_flags_false rfl rfl
  have ht : exScaled.thermal 0 0 = 0 := by unfold CableComponent.thermal; ring
  have hr : exScaled.regions [0, 2, 0, 0, 0] 0 100 10 = ⟨⟨5 / 3, 0⟩, ⟨5, 10⟩, ⟨50, 100⟩⟩ := by
    unfold CableComponent.regions CableComponent.strainPolynomial CableComponent.strainLinear
    rw [polynomialX_linear two_ne_zero, polynomialX_linear two_ne_zero]
    norm_num [exScaled]
  have s1 : spec exScaled 0 ⟨0, .creep⟩ ⟨0, .creep, 10⟩ =
      .val (some (10, 0, ⟨⟨5 / 3, 0⟩, ⟨5, 10⟩, ⟨50, 100⟩⟩)) := by
    refine spec_eq (stretchOf_same (Or.inl rfl)) ?_
    rw [regionsOf_eq (cs := [0, 2, 0, 0, 0]) (limit := 100) rfl (by simp) rfl]
    simp only
    rw [ht, hr]
  obtain ⟨m', q1, P, C', f1, f2, f3, f4, f5⟩ := C.query rfl rfl rfl rfl s1
    (fail := noRegions) (body := fun _ _ m => m.points)
  have hl : ∀ x, m'.load x = .ok m' (exScaled.load .creep ⟨⟨5 / 3, 0⟩, ⟨5, 10⟩, ⟨50, 100⟩⟩ 0 x) := by
    intro x
    have : m'.load x = .ok m' (exScaled.load .creep m'.points m'.thermalState x) := query_updated f1 f2 P.1 P.2.1
    rw [this, f4, f5]
  have mid : ∀ x, 5 < x → x < 50 → exScaled.load .creep ⟨⟨5 / 3, 0⟩, ⟨5, 10⟩, ⟨50, 100⟩⟩ 0 x = 4 * x := by
    intro x h1 h2
    unfold CableComponent.load
    simp only
    rw [if_neg (by linarith), if_neg (by rintro ⟨_, h⟩; linarith), if_pos ⟨h1, h2⟩]
    show exScaled.loadPolynomial [0, 2, 0, 0, 0] 0 x = _
    unfold CableComponent.loadPolynomial
    simp only [evalY, yLoop, exScaled]
    ring
  refine ⟨m, m', exScaled, _, O, rfl, ?_, q1, ?_, ?_, ?_, ?_, ?_, ?_⟩
  · norm_num [CableComponent.validate, exScaled]
  · rw [f5]
  · rw [f5]
  · rw [hl]
    congr 1
    unfold CableComponent.load
    simp only
    rw [if_neg (by norm_num), if_pos (by norm_num)]
    unfold CableComponent.loadLinear
    norm_num
  · intro x h1 h2
    exact ⟨_, hl x, by rw [mid x h1 h2]; linarith⟩
  · rw [hl, mid 49 (by norm_num) (by norm_num)]
    norm_num
  · rw [hl]
    congr 1
    unfold CableComponent.load
    simp only
    rw [if_neg (by norm_num), if_neg (by norm_num), if_neg (by norm_num), if_pos (by norm_num), if_neg (by decide)]
    unfold CableComponent.loadLinear
    norm_num

theorem continuous_evalY (cs : List ℝ) : Continuous (evalY cs) := by
  refine continuous_iff_continuousAt.2 fun x => ?_
  have := hasDerivAt_sumFrom 0 cs x
  have e : evalY cs = fun x => sumFrom x 0 cs := funext fun x => evalY_eq cs x
  rw [e]
  exact this.continuousAt

/-- **C88** (partial). If the polynomials are not scaled in the direction of the loads, and `Polynomial::X` keeps
its promise of two decimals for the two loads at which the polynomial region starts and ends, then the load is
within 0.01 of a continuous function of the strain.

What is missing: a load scale other than one, for which the claim is false (`C88_jump`), and inaccurate solutions
(see C35). -/
theorem C88_continuous_partial {m m' : ComponentModel} {c : CableComponent} {s : CableState} {r : Regions}
    {cs : List ℝ} (O : Obtained m) (hc : m.component = some c) (hs : m.state = some s)
    (hr : m.pointsRegions = .ok m' r) (hne : r ≠ noRegions) (hE : 0 < c.modulusTension) (h0 : 0 ≤ r.start.y)
    (h1 : r.start.x < r.stop.x) (hX : 0 < c.scaleX) (hY : c.scaleY = 1) (hcs : c.coefficients s.type = some cs)
    (ha : ∀ l, l = r.start.y ∨ l = r.stop.y → ∃ x, ((Obj.new cs).solveX l 2 0.1).1 = .val x ∧
      |(Obj.new cs).y x - l| ≤ 0.01) :
    ∃ f : ℝ → ℝ, Continuous f ∧ ∀ x, ∃ l, m'.load x = .ok m' l ∧ |l - f x| ≤ 0.01 := by
  obtain ⟨f1, f2, f3, f4, f5, cs', limit, g1, g2, g3, g4⟩ := points_facts O hc hs hr hne
  cases hcs.symm.trans g1
  obtain ⟨hM, ht⟩ := modulus_pos g1 g2
  have hu : r.unloaded.y = 0 := by rw [g4]; rfl
  have hx : r.unloaded.x = r.start.x + (0 - r.start.y) / c.modulusTension := by rw [g4]; rfl
  have hxs : r.unloaded.x ≤ r.start.x := by
    rw [hx]
    have : (0 - r.start.y) / c.modulusTension ≤ 0 := div_nonpos_of_nonpos_of_nonneg (by linarith) hE.le
    linarith
  set th := m'.thermalState
  let p : ℝ → ℝ := fun x => c.loadPolynomial cs th x
  have hp : Continuous p := by
    show Continuous fun x => evalY cs ((x - th) / c.scaleX) * c.scaleY
    exact ((continuous_evalY cs).comp (by fun_prop)).mul continuous_const
  have acc : ∀ l, l = r.start.y ∨ l = r.stop.y → |p (c.strainPolynomial cs th l) - l| ≤ 0.01 := by
    intro l hl
    obtain ⟨x, e, b⟩ := ha l hl
    have hpx : CableComponent.polynomialX cs l = x := by unfold CableComponent.polynomialX; rw [e]
    have hq : (c.strainPolynomial cs th l - th) / c.scaleX = x := by
      unfold CableComponent.strainPolynomial
      rw [hpx]; field_simp; ring
    show |evalY cs ((c.strainPolynomial cs th l - th) / c.scaleX) * c.scaleY - l| ≤ 0.01
    rw [hq, hY, mul_one]
    exact b
  have as := acc r.start.y (Or.inl rfl)
  have ae := acc r.stop.y (Or.inr rfl)
  rw [show c.strainPolynomial cs th r.start.y = r.start.x by rw [g4]; rfl] at as
  rw [show c.strainPolynomial cs th r.stop.y = r.stop.x by rw [g4]; rfl] at ae
  refine ⟨fun x => (min x r.unloaded.x - r.unloaded.x) * c.modulusCompression +
    (max (min x r.start.x) r.unloaded.x - r.start.x) * c.modulusTension + p (max (min x r.stop.x) r.start.x) +
    (max x r.stop.x - r.stop.x) * c.modulusExtrapolate s.type, ?_, fun x => ⟨_, query_updated f1 f2 f3 f4, ?_⟩⟩
  · refine Continuous.add (Continuous.add (Continuous.add ?_ ?_) ?_) ?_
    · fun_prop
    · fun_prop
    · exact hp.comp (by fun_prop)
    · fun_prop
  rw [f5]
  beta_reduce
  unfold CableComponent.load
  have hE' : (r.unloaded.x - r.start.x) * c.modulusTension = - r.start.y := by rw [hx]; field_simp; ring
  split_ifs with c1 c2 c3 c4
  · rw [min_eq_left c1.le, min_eq_left (by linarith : x ≤ r.start.x), max_eq_right c1.le,
      min_eq_left (by linarith : x ≤ r.stop.x), max_eq_right (by linarith : x ≤ r.start.x),
      max_eq_right (by linarith : x ≤ r.stop.x)]
    unfold CableComponent.loadLinear
    rw [hu, hE']
    rw [abs_sub_comm] at as
    refine le_of_eq_of_le (congrArg abs ?_) as
    ring
  · obtain ⟨c2, c2'⟩ := c2
    rw [min_eq_right c2, min_eq_left c2', max_eq_left c2,
      min_eq_left (by linarith : x ≤ r.stop.x), max_eq_right c2',
      max_eq_right (by linarith : x ≤ r.stop.x)]
    unfold CableComponent.loadLinear
    rw [abs_sub_comm] at as
    refine le_of_eq_of_le (congrArg abs ?_) as
    ring
  · obtain ⟨c3, c3'⟩ := c3
    rw [min_eq_right (by linarith : r.unloaded.x ≤ x), min_eq_right c3.le, max_eq_left hxs,
      min_eq_left c3'.le, max_eq_left c3.le, max_eq_right c3'.le, g1]
    simp only [sub_self, zero_mul, zero_add, add_zero]
    show |c.loadPolynomial cs th x - c.loadPolynomial cs th x| ≤ 0.01
    rw [sub_self]; norm_num
  · rw [min_eq_right (by linarith : r.unloaded.x ≤ x), min_eq_right (by linarith : r.start.x ≤ x), max_eq_left hxs,
      min_eq_right c4, max_eq_left h1.le, max_eq_left c4]
    unfold CableComponent.loadLinear
    rw [abs_sub_comm] at ae
    refine le_of_eq_of_le (congrArg abs ?_) ae
    ring
  · exfalso
    rcases lt_or_ge x r.start.x with a | a
    · exact c2 ⟨not_lt.1 c1, a.le⟩
    · rcases eq_or_lt_of_le a with b | b
      · exact c2 ⟨not_lt.1 c1, b.ge⟩
      · exact c3 ⟨b, not_le.1 c4⟩

/-! ## C90 -/

/-- **C90**. Away from the three points where the regions meet, the slope is the derivative of the load. -/
theorem C90_slope_is_derivative {m m' : ComponentModel} {c : CableComponent} {s : CableState} {r : Regions}
    (O : Obtained m) (hc : m.component = some c) (hs : m.state = some s)
    (hr : m.pointsRegions = .ok m' r) (hne : r ≠ noRegions) (_hX : c.scaleX ≠ 0) :
    ∃ f g : ℝ → ℝ, (∀ x, m'.load x = .ok m' (f x)) ∧ (∀ x, m'.slope x = .ok m' (g x)) ∧
      ∀ x, x ≠ r.unloaded.x → x ≠ r.start.x → x ≠ r.stop.x → HasDerivAt f (g x) x := by
  obtain ⟨f1, f2, f3, f4, f5, cs, limit, g1, g2, g3, g4⟩ := points_facts O hc hs hr hne
  obtain ⟨hM, ht⟩ := modulus_pos g1 g2
  refine ⟨_, _, fun x => query_updated f1 f2 f3 f4, fun x => query_updated f1 f2 f3 f4, ?_⟩
  intro x n1 n2 n3
  rw [f5]
  have lin : ∀ (p : V2) (k : ℝ), HasDerivAt (CableComponent.loadLinear p k) k x := by
    intro p k
    have := (((hasDerivAt_id x).sub_const p.x).mul_const k).const_add p.y
    rw [one_mul] at this
    exact this
  have pol : HasDerivAt (c.loadPolynomial cs m'.thermalState) (c.slopePolynomial cs m'.thermalState x) x := by
    have h1 : HasDerivAt (fun z => (z - m'.thermalState) / c.scaleX) (1 / c.scaleX) x :=
      ((hasDerivAt_id x).sub_const _).div_const _
    have h2 : HasDerivAt (evalY cs) (evalY (derivCoefficients cs) ((x - m'.thermalState) / c.scaleX))
        ((x - m'.thermalState) / c.scaleX) := by
      have e : evalY cs = fun x => sumFrom x 0 cs := funext fun x => evalY_eq cs x
      rw [e, evalY_deriv]
      exact hasDerivAt_sumFrom 0 cs _
    have h3 := (h2.comp x h1).mul_const c.scaleY
    have e : evalY (derivCoefficients cs) ((x - m'.thermalState) / c.scaleX) * (1 / c.scaleX) * c.scaleY =
        c.slopePolynomial cs m'.thermalState x := by
      unfold CableComponent.slopePolynomial; ring
    rw [e] at h3
    exact h3
  rcases lt_or_gt_of_ne n1 with a | a
  · have e : c.slope s.type r m'.thermalState x = c.modulusCompression := by
      unfold CableComponent.slope; rw [if_pos a]
    rw [e]
    refine (lin r.unloaded c.modulusCompression).congr_of_eventuallyEq ?_
    filter_upwards [Iio_mem_nhds a] with z hz
    unfold CableComponent.load
    rw [if_pos (show z < r.unloaded.x from hz)]
  · rcases lt_or_gt_of_ne n2 with b | b
    · have e : c.slope s.type r m'.thermalState x = c.modulusTension := by
        unfold CableComponent.slope; rw [if_neg (by linarith), if_pos ⟨a.le, b.le⟩]
      rw [e]
      refine (lin r.start c.modulusTension).congr_of_eventuallyEq ?_
      filter_upwards [Iio_mem_nhds b, Ioi_mem_nhds a] with z hz hz'
      unfold CableComponent.load
      rw [if_neg (not_lt.2 (le_of_lt hz')), if_pos ⟨le_of_lt hz', le_of_lt hz⟩]
    · rcases lt_or_gt_of_ne n3 with d | d
      · have e : c.slope s.type r m'.thermalState x = c.slopePolynomial cs m'.thermalState x := by
          unfold CableComponent.slope
          rw [if_neg (by linarith), if_neg (by rintro ⟨_, h⟩; linarith), if_pos ⟨b, d⟩, g1]
        rw [e]
        refine pol.congr_of_eventuallyEq ?_
        filter_upwards [Iio_mem_nhds d, Ioi_mem_nhds b, Ioi_mem_nhds a] with z hz hz' hz''
        unfold CableComponent.load
        rw [if_neg (not_lt.2 (le_of_lt hz'')), if_neg (fun h => not_lt.2 h.2 hz'), if_pos ⟨hz', hz⟩, g1]
      · have e : c.slope s.type r m'.thermalState x = c.modulusExtrapolate s.type := by
          unfold CableComponent.slope
          rw [if_neg (by linarith), if_neg (by rintro ⟨_, h⟩; linarith), if_neg (by rintro ⟨_, h⟩; linarith),
            if_pos (by linarith), if_neg ht]
        rw [e]
        refine (lin r.stop (c.modulusExtrapolate s.type)).congr_of_eventuallyEq ?_
        filter_upwards [Ioi_mem_nhds d, Ioi_mem_nhds b, Ioi_mem_nhds a] with z hz hz' hz''
        unfold CableComponent.load
        rw [if_neg (not_lt.2 (le_of_lt hz'')), if_neg (fun h => not_lt.2 h.2 hz'),
          if_neg (fun h => not_lt.2 (le_of_lt hz) h.2), if_pos (le_of_lt hz), if_neg ht]

/-- C88 (partial) and C90 apply to the example component: the solver is exact for it. -/
example : ∃ m' r, (exModel 1 2 .loadStrain .loadStrain 10).pointsRegions = .ok m' r ∧ r ≠ noRegions ∧
    0 ≤ r.start.y ∧ r.start.x < r.stop.x ∧ (exComponent 1 2).scaleY = 1 ∧
    ∀ l, ∃ x, ((Obj.new [0, 2, 0, 0, 0]).solveX l 2 0.1).1 = .val x ∧
      |(Obj.new [0, 2, 0, 0, 0]).y x - l| ≤ 0.01 := by
  obtain ⟨m', h, _, _, _, _, _, _, hp⟩ := (exModel_clean 1 2 .loadStrain .loadStrain 10).query rfl rfl rfl rfl
    (exSpec (by norm_num)) (fail := noRegions) (body := fun _ _ m => m.points)
  refine ⟨m', _, h, ?_, ?_, ?_, rfl, fun l => ?_⟩
  · rw [hp]
    intro h
    have : (0:ℝ) = -999999 := congrArg (fun r => r.unloaded.y) h
    norm_num at this
  · rw [hp]; norm_num
  · rw [hp]; norm_num
  · have h2 := polynomialX_linear two_ne_zero l
    unfold CableComponent.polynomialX at h2
    cases hx : ((Obj.new [0, 2, 0, 0, 0]).solveX l 2 0.1).1 with
    | val x =>
      rw [hx] at h2
      simp only at h2
      refine ⟨x, rfl, ?_⟩
      show |evalY [0, 2, 0, 0, 0] x - l| ≤ 0.01
      rw [h2]
      have : evalY [0, 2, 0, 0, 0] (l / 2) - l = 0 := by simp only [evalY, yLoop]; ring
      rw [this]; norm_num
    | throws => simp [Obj.solveX, Obj.update, Obj.new] at hx
    | ub => simp [Obj.solveX, Obj.update, Obj.new] at hx

end Verif.Props
