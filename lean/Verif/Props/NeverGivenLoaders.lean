import Verif.Props.NeverGiven
import Verif.Props.CableReloader
import Verif.Props.LineUnloader
import Verif.Props.LineSagger
import Verif.Props.SagCorrector
import Verif.Props.LocatorExample
import Verif.Props.LineSaggerExample
import Verif.Props.Validators

/-!
# Inputs that were never given, continued

C142 for the elongation models, the reloaders, the unloader, the sagger, the sag corrector and the locator.
-/

set_option linter.unusedSectionVars false

namespace Verif.Props
open Verif

/-- A member that only some calls change has its first value unless one of them is made; with an invariant. -/
theorem member_kept {S C V : Type} (next : C → S → Option S) (f : S → V) (P : C → Prop) (I : S → Prop)
    (h : ∀ s c s', I s → next c s = some s' → I s' ∧ (¬ P c → f s' = f s)) (run : S → List C → Option S)
    (r0 : ∀ s, run s [] = some s) (r1 : ∀ s c cs, run s (c :: cs) = (next c s).bind fun s' => run s' cs)
    {s s' : S} (hI : I s) {calls : List C} (hr : run s calls = some s') (hf : f s' ≠ f s) : ∃ c ∈ calls, P c := by
  by_contra hn
  push Not at hn
  apply hf
  clear hf
  induction calls generalizing s with
  | nil => rw [r0] at hr; cases hr; rfl
  | cons c cs ih =>
    rw [r1] at hr
    obtain ⟨s1, e1, e2⟩ := Option.bind_eq_some_iff.1 hr
    obtain ⟨i1, k1⟩ := h s c s1 hI e1
    rw [ih i1 e2 fun d hd => hn d (List.mem_cons_of_mem _ hd)]
    exact k1 (hn c (List.mem_cons_self ..))

/-! ## Elongation models -/

theorem component_query_pointers {A : Type} {fail : A} {body : CableComponent → CableState → ComponentModel → A}
    {m m' : ComponentModel} (h : (ComponentModel.query fail body m).state? = some m') :
    ComponentModel.SamePointers m m' := by
  unfold ComponentModel.query at h
  cases hu : m.update with
  | ok x b =>
    have P := ComponentModel.update_pointers hu
    rw [hu] at h
    cases b with
    | false => cases h; exact P
    | true =>
      simp only at h
      split at h
      · cases h; exact P
      · cases h
  | throws x =>
    have P := ComponentModel.update_pointers_throws hu
    rw [hu] at h; cases h; exact P
  | ub => rw [hu] at h; cases h

theorem component_validate_pointers {w : Bool} {m m' : ComponentModel} (h : (m.validate w).state? = some m') :
    ComponentModel.SamePointers m m' := by
  unfold ComponentModel.validate at h
  revert h
  split
  · split_ifs
    · cases hu : m.update with
      | ok m1 b =>
        have := ComponentModel.update_pointers hu
        cases b <;> intro h <;> cases h <;> exact this
      | throws m1 =>
        have := ComponentModel.update_pointers_throws hu
        intro h; cases h; exact this
      | ub => intro h; cases h
    · intro h; cases h; exact ComponentModel.SamePointers.refl m
  · intro h; cases h; exact ComponentModel.SamePointers.refl m

theorem component_frame {c : ComponentModel.Call} {m m' : ComponentModel} (h : c.next m = some m') :
    ((∀ x, c ≠ .setComponent x) → m'.component = m.component) ∧ ((∀ x, c ≠ .setState x) → m'.state = m.state) ∧
    ((∀ x, c ≠ .setStretch x) → m'.stretch = m.stretch) ∧ ((∀ x, c ≠ .setReference x) → m'.reference = m.reference) := by
  have q : ComponentModel.SamePointers m m' → ((∀ x, c ≠ .setComponent x) → m'.component = m.component) ∧
      ((∀ x, c ≠ .setState x) → m'.state = m.state) ∧
      ((∀ x, c ≠ .setStretch x) → m'.stretch = m.stretch) ∧
      ((∀ x, c ≠ .setReference x) → m'.reference = m.reference) :=
    fun P => ⟨fun _ => P.1, fun _ => P.2.1, fun _ => P.2.2.1, fun _ => P.2.2.2⟩
  cases c with
  | setComponent x => cases h; exact ⟨fun h => absurd rfl (h x), fun _ => rfl, fun _ => rfl, fun _ => rfl⟩
  | setState x => cases h; exact ⟨fun _ => rfl, fun h => absurd rfl (h x), fun _ => rfl, fun _ => rfl⟩
  | setStretch x => cases h; exact ⟨fun _ => rfl, fun _ => rfl, fun h => absurd rfl (h x), fun _ => rfl⟩
  | setReference x => cases h; exact ⟨fun _ => rfl, fun _ => rfl, fun _ => rfl, fun h => absurd rfl (h x)⟩
  | load x => exact q (component_query_pointers h)
  | slope x => exact q (component_query_pointers h)
  | strain x => exact q (component_query_pointers h)
  | strainThermal => exact q (component_query_pointers h)
  | pointsRegions => exact q (component_query_pointers h)
  | validate w => exact q (component_validate_pointers h)

/-- An elongation model of a component that Validate accepts, after any calls on a new one, has been given the
component, the state, the stretch state and the reference temperature. -/
theorem C142_component {calls : List ComponentModel.Call} {m m' : ComponentModel} {w : Bool}
    (hr : ComponentModel.run .new calls = some m) (h : m.validate w = .ok m' true) :
    (∃ x, .setComponent x ∈ calls) ∧ (∃ x, .setState x ∈ calls) ∧ (∃ x, .setStretch x ∈ calls) ∧
      ∃ x, .setReference x ∈ calls := by
  have hs : m.component ≠ none ∧ m.state ≠ none ∧ m.stretch ≠ none ∧ m.reference ≠ none := by
    unfold ComponentModel.validate at h
    split at h
    · rename_i h1 h2 h3 h4
      rw [h1, h2, h3, h4]
      simp
    · simp at h
  refine ⟨?_, ?_, ?_, ?_⟩
  · obtain ⟨c, hc, x, rfl⟩ := member_changed' ComponentModel.Call.next ComponentModel.component
      (fun c => ∃ x, c = .setComponent x) (fun s c s' hn e => (component_frame e).1 (by push Not at hn; exact hn))
      ComponentModel.run (fun _ => rfl) (fun _ _ _ => rfl) .new m calls hr hs.1
    exact ⟨x, hc⟩
  · obtain ⟨c, hc, x, rfl⟩ := member_changed' ComponentModel.Call.next ComponentModel.state
      (fun c => ∃ x, c = .setState x) (fun s c s' hn e => (component_frame e).2.1 (by push Not at hn; exact hn))
      ComponentModel.run (fun _ => rfl) (fun _ _ _ => rfl) .new m calls hr hs.2.1
    exact ⟨x, hc⟩
  · obtain ⟨c, hc, x, rfl⟩ := member_changed' ComponentModel.Call.next ComponentModel.stretch
      (fun c => ∃ x, c = .setStretch x) (fun s c s' hn e => (component_frame e).2.2.1 (by push Not at hn; exact hn))
      ComponentModel.run (fun _ => rfl) (fun _ _ _ => rfl) .new m calls hr hs.2.2.1
    exact ⟨x, hc⟩
  · obtain ⟨c, hc, x, rfl⟩ := member_changed' ComponentModel.Call.next ComponentModel.reference
      (fun c => ∃ x, c = .setReference x) (fun s c s' hn e => (component_frame e).2.2.2 (by push Not at hn; exact hn))
      ComponentModel.run (fun _ => rfl) (fun _ _ _ => rfl) .new m calls hr hs.2.2.2
    exact ⟨x, hc⟩

theorem elongation_frame {c : ElongationModel.Call} {m m' : ElongationModel} (h : c.next m = some m') :
    ((∀ x, c ≠ .setCable x) → m'.cable = m.cable) ∧ ((∀ x, c ≠ .setState x) → m'.state = m.state) ∧
    ((∀ x, c ≠ .setStretch x) → m'.stretch = m.stretch) := by
  have q : ElongationModel.SameAtt m m' → ((∀ x, c ≠ .setCable x) → m'.cable = m.cable) ∧
      ((∀ x, c ≠ .setState x) → m'.state = m.state) ∧ ((∀ x, c ≠ .setStretch x) → m'.stretch = m.stretch) :=
    fun P => ⟨fun _ => P.cable, fun _ => P.state, fun _ => P.stretch⟩
  cases c with
  | setCable x =>
    cases h
    refine ⟨fun h => absurd rfl (h x), fun _ => ?_, fun _ => ?_⟩ <;> cases x <;> rfl
  | setState x => cases h; exact ⟨fun _ => rfl, fun h => absurd rfl (h x), fun _ => rfl⟩
  | setStretch x => cases h; exact ⟨fun _ => rfl, fun _ => rfl, fun h => absurd rfl (h x)⟩
  | load t x => exact q (ElongationModel.askPart_keeps _ _ _ _ _ h)
  | slope t x => exact q (ElongationModel.askPart_keeps _ _ _ _ _ h)
  | strain t x => exact q (ElongationModel.strain_keeps _ _ _ _ h)
  | validate w => exact q (ElongationModel.validate_keeps _ _ _ h)

/-- An elongation model of a cable that Validate accepts has been given the cable, the state and the stretch state. -/
theorem C142_elongation {calls : List ElongationModel.Call} {m m' : ElongationModel} {w : Bool}
    (hr : ElongationModel.run .new calls = some m) (h : m.validate w = .ok m' true) :
    (∃ x, .setCable x ∈ calls) ∧ (∃ x, .setState x ∈ calls) ∧ ∃ x, .setStretch x ∈ calls := by
  have hs : m.cable ≠ none ∧ m.state ≠ .new ∧ m.stretch ≠ .new := by
    unfold ElongationModel.validate at h
    split at h
    · simp at h
    · rename_i k hk
      split_ifs at h with hv
      · refine ⟨by rw [hk]; simp, fun e => ?_, fun e => ?_⟩
        · have := hv.2.1
          rw [e] at this
          simp [CableState.validate, CableState.new] at this
        · have := hv.2.2
          rw [e] at this
          norm_num [CableStretchState.validate, CableStretchState.new] at this
      · simp at h
  refine ⟨?_, ?_, ?_⟩
  · obtain ⟨c, hc, x, rfl⟩ := member_changed' ElongationModel.Call.next ElongationModel.cable
      (fun c => ∃ x, c = .setCable x) (fun s c s' hn e => (elongation_frame e).1 (by push Not at hn; exact hn))
      ElongationModel.run (fun _ => rfl) (fun _ _ _ => rfl) .new m calls hr hs.1
    exact ⟨x, hc⟩
  · obtain ⟨c, hc, x, rfl⟩ := member_changed' ElongationModel.Call.next ElongationModel.state
      (fun c => ∃ x, c = .setState x) (fun s c s' hn e => (elongation_frame e).2.1 (by push Not at hn; exact hn))
      ElongationModel.run (fun _ => rfl) (fun _ _ _ => rfl) .new m calls hr hs.2.1
    exact ⟨x, hc⟩
  · obtain ⟨c, hc, x, rfl⟩ := member_changed' ElongationModel.Call.next ElongationModel.stretch
      (fun c => ∃ x, c = .setStretch x) (fun s c s' hn e => (elongation_frame e).2.2 (by push Not at hn; exact hn))
      ElongationModel.run (fun _ => rfl) (fun _ _ _ => rfl) .new m calls hr hs.2.2
    exact ⟨x, hc⟩

/-! ## Catenary reloader -/

/-- The settings of a catenary reloader. -/
def SameReload (r r' : CatenaryReloader) : Prop :=
  r'.catenary = r.catenary ∧ r'.modelReference = r.modelReference ∧ r'.modelReloaded = r.modelReloaded ∧
    r'.weight = r.weight

theorem reloader_update_settings {r r' : CatenaryReloader} (h : r.update.state? = some r') : SameReload r r' := by
  unfold CatenaryReloader.update at h
  split_ifs at h
  · cases h; exact ⟨rfl, rfl, rfl, rfl⟩
  · cases hk : r.catenary with
    | none => unfold CatenaryReloader.solve at h; rw [hk] at h; cases h
    | some k =>
      cases hw : r.weight with
      | none => unfold CatenaryReloader.solve at h; rw [hk, hw] at h; cases h
      | some w =>
        rw [CatenaryReloader.solve_eq hk hw] at h
        cases hf : r.found k w <;> rw [hf] at h <;> cases h <;> exact ⟨rfl, rfl, rfl, rfl⟩

theorem reloader_frame {c : CatenaryReloader.Call} {m m' : CatenaryReloader} (h : c.next m = some m') :
    ((∀ x, c ≠ .setCatenary x) → m'.catenary = m.catenary) ∧
    ((∀ x, c ≠ .setModelReference x) → m'.modelReference = m.modelReference) ∧
    ((∀ x, c ≠ .setModelReloaded x) → m'.modelReloaded = m.modelReloaded) ∧
    ((∀ x, c ≠ .setWeight x) → m'.weight = m.weight) := by
  have q : SameReload m m' → ((∀ x, c ≠ .setCatenary x) → m'.catenary = m.catenary) ∧
      ((∀ x, c ≠ .setModelReference x) → m'.modelReference = m.modelReference) ∧
      ((∀ x, c ≠ .setModelReloaded x) → m'.modelReloaded = m.modelReloaded) ∧
      ((∀ x, c ≠ .setWeight x) → m'.weight = m.weight) :=
    fun P => ⟨fun _ => P.1, fun _ => P.2.1, fun _ => P.2.2.1, fun _ => P.2.2.2⟩
  have U : ∀ {r'}, m.update.state? = some r' → SameReload m r' := fun e => reloader_update_settings e
  cases c with
  | setCatenary x => cases h; exact ⟨fun h => absurd rfl (h x), fun _ => rfl, fun _ => rfl, fun _ => rfl⟩
  | setModelReference x => cases h; exact ⟨fun _ => rfl, fun h => absurd rfl (h x), fun _ => rfl, fun _ => rfl⟩
  | setModelReloaded x => cases h; exact ⟨fun _ => rfl, fun _ => rfl, fun h => absurd rfl (h x), fun _ => rfl⟩
  | setWeight x => cases h; exact ⟨fun _ => rfl, fun _ => rfl, fun _ => rfl, fun h => absurd rfl (h x)⟩
  | catenary =>
    apply q
    change m.catenaryQ.state? = some m' at h
    unfold CatenaryReloader.catenaryQ at h
    cases hu : m.update with
    | ok x b => rw [hu] at h; cases b <;> cases h <;> exact U (by rw [hu]; rfl)
    | throws x => rw [hu] at h; cases h; exact U (by rw [hu]; rfl)
    | ub => rw [hu] at h; cases h
  | tensionHorizontal =>
    apply q
    change m.tensionHorizontal.state? = some m' at h
    unfold CatenaryReloader.tensionHorizontal at h
    cases hu : m.update with
    | ok x b => rw [hu] at h; cases b <;> cases h <;> exact U (by rw [hu]; rfl)
    | throws x => rw [hu] at h; cases h; exact U (by rw [hu]; rfl)
    | ub => rw [hu] at h; cases h
  | lengthUnloaded =>
    apply q
    change m.lengthUnloaded.state? = some m' at h
    unfold CatenaryReloader.lengthUnloaded at h
    cases hu : m.update with
    | ok x b =>
      have V := U (r' := x) (by rw [hu]; rfl)
      rw [hu] at h
      cases b with
      | false => cases h; exact V
      | true =>
        simp only at h
        cases hs : CatenaryUnloader.new.setCatenary x.catenary with
        | val u =>
          rw [hs] at h
          simp only at h
          cases hl : ((u.setModelReference x.modelReference).setModelUnloaded x.modelReference).lengthUnloaded <;>
            rw [hl] at h <;> cases h <;> exact V
        | throws => rw [hs] at h; cases h; exact V
        | ub => rw [hs] at h; cases h
    | throws x => rw [hu] at h; cases h; exact U (by rw [hu]; rfl)
    | ub => rw [hu] at h; cases h

/-- A catenary reloader that Validate accepts has been given the catenary, both elongation models and the unit
weight. -/
theorem C142_reloader {calls : List CatenaryReloader.Call} {m m' : CatenaryReloader}
    (hr : CatenaryReloader.run .new calls = some m) (h : m.validate = .ok m' true) :
    (∃ x, .setCatenary x ∈ calls) ∧ (∃ x, .setModelReference x ∈ calls) ∧ (∃ x, .setModelReloaded x ∈ calls) ∧
      ∃ x, .setWeight x ∈ calls := by
  have hs : m.catenary ≠ none ∧ m.modelReference ≠ none ∧ m.modelReloaded ≠ none ∧ m.weight ≠ none := by
    unfold CatenaryReloader.validate at h
    cases h1 : CatenaryReloader.validModel m.modelReference with
    | throws => rw [h1] at h; cases h
    | ub => rw [h1] at h; cases h
    | val a =>
      rw [h1] at h
      cases h2 : CatenaryReloader.validModel m.modelReloaded with
      | throws => rw [h2] at h; cases h
      | ub => rw [h2] at h; cases h
      | val b =>
        rw [h2] at h
        simp only at h
        split_ifs at h with hv
        · simp only [Bool.and_eq_true] at hv
          obtain ⟨⟨⟨v1, v2⟩, v3⟩, v4⟩ := hv
          refine ⟨fun e => ?_, fun e => ?_, fun e => ?_, fun e => ?_⟩
          · rw [e] at v1; cases v1
          · rw [e] at h1; cases h1; cases v2
          · rw [e] at h2; cases h2; cases v3
          · rw [e] at v4; cases v4
        · simp at h
  refine ⟨?_, ?_, ?_, ?_⟩
  · obtain ⟨c, hc, x, rfl⟩ := member_changed' CatenaryReloader.Call.next CatenaryReloader.catenary
      (fun c => ∃ x, c = .setCatenary x) (fun s c s' hn e => (reloader_frame e).1 (by push Not at hn; exact hn))
      CatenaryReloader.run (fun _ => rfl) (fun _ _ _ => rfl) .new m calls hr hs.1
    exact ⟨x, hc⟩
  · obtain ⟨c, hc, x, rfl⟩ := member_changed' CatenaryReloader.Call.next CatenaryReloader.modelReference
      (fun c => ∃ x, c = .setModelReference x) (fun s c s' hn e => (reloader_frame e).2.1 (by push Not at hn; exact hn))
      CatenaryReloader.run (fun _ => rfl) (fun _ _ _ => rfl) .new m calls hr hs.2.1
    exact ⟨x, hc⟩
  · obtain ⟨c, hc, x, rfl⟩ := member_changed' CatenaryReloader.Call.next CatenaryReloader.modelReloaded
      (fun c => ∃ x, c = .setModelReloaded x) (fun s c s' hn e => (reloader_frame e).2.2.1 (by push Not at hn; exact hn))
      CatenaryReloader.run (fun _ => rfl) (fun _ _ _ => rfl) .new m calls hr hs.2.2.1
    exact ⟨x, hc⟩
  · obtain ⟨c, hc, x, rfl⟩ := member_changed' CatenaryReloader.Call.next CatenaryReloader.weight
      (fun c => ∃ x, c = .setWeight x) (fun s c s' hn e => (reloader_frame e).2.2.2 (by push Not at hn; exact hn))
      CatenaryReloader.run (fun _ => rfl) (fun _ _ _ => rfl) .new m calls hr hs.2.2.2
    exact ⟨x, hc⟩

/-! ## Line cable reloader and unloader -/

theorem lineReloader_frame {c : LineReloader.Call} {m m' : LineReloader} (S : m.Sound) (h : c.next m = some m') :
    m'.Sound ∧ ((∀ x, c ≠ .setLineCable x) → m'.base.lineCable = m.base.lineCable) ∧
    ((∀ x, c ≠ .setCondition x) → m'.condition = m.condition) ∧
    ((∀ x, c ≠ .setWeather x) → m'.weather = m.weather) := by
  refine ⟨LineReloader.run_sound S [c] (by unfold LineReloader.run; rw [h]; rfl), ?_⟩
  cases c with
  | setLineCable x => cases h; exact ⟨fun h => absurd rfl (h x), fun _ => rfl, fun _ => rfl⟩
  | setCondition x => cases h; exact ⟨fun _ => rfl, fun h => absurd rfl (h x), fun _ => rfl⟩
  | setWeather x => cases h; exact ⟨fun _ => rfl, fun _ => rfl, fun h => absurd rfl (h x)⟩
  | query =>
    have K := LineReloader.ask_sound S _ _ _ h
    exact ⟨fun _ => K.2.1, fun _ => K.2.2.1, fun _ => K.2.2.2⟩
  | validate heap =>
    have K := LineReloader.validate_sound heap S _ h
    exact ⟨fun _ => K.2.1, fun _ => K.2.2.1, fun _ => K.2.2.2⟩

theorem lineReloader_new_sound : LineReloader.new.Sound := LineReloader.fresh_sound LineReloader.new

theorem lineUnloader_new_sound : LineUnloader.new.Sound := LineUnloader.fresh_sound LineUnloader.new

theorem validMembers_some {heap : Heap ℝ} {s : LineLoader} (h : s.validMembers heap = .val true) : s.lineCable ≠ none := by
  intro e
  unfold LineLoader.validMembers at h
  rw [e] at h
  cases h

/-- A line cable reloader that Validate accepts has been given the line cable, the condition and the weather case. -/
theorem C142_line_reloader {calls : List LineReloader.Call} {m m' : LineReloader} {heap : Heap ℝ}
    (hr : LineReloader.run .new calls = some m) (h : m.validate heap = .ok m' true) :
    (∃ x, .setLineCable x ∈ calls) ∧ (∃ x, .setCondition x ∈ calls) ∧ ∃ x, .setWeather x ∈ calls := by
  have S := LineReloader.run_sound lineReloader_new_sound calls hr
  have hs : m.base.lineCable ≠ none ∧ m.condition ≠ .null ∧ m.weather ≠ none := by
    unfold LineReloader.validate at h
    obtain ⟨t, b, h1, h2⟩ := Run.bind_ok h
    unfold LineReloader.validateBase at h1
    obtain ⟨u, v, h3, h4⟩ := Run.bind_ok h1
    have hu : u = m ∧ m.base.validMembers heap = .val v := by
      cases hf : m.base.validMembers heap with
      | val a => rw [hf] at h3; cases h3; exact ⟨rfl, rfl⟩
      | throws => rw [hf] at h3; cases h3
      | ub => rw [hf] at h3; cases h3
    obtain ⟨rfl, hv⟩ := hu
    split_ifs at h2 with hb
    · simp only [Bool.and_eq_true] at hb
      split_ifs at h4 with hv'
      · subst hv'
        have K := (LineReloader.update_sound S).1 t (by rw [h4]; rfl)
        have hi := hb.2
        unfold LineReloader.validInputs at hi
        simp only [Bool.and_eq_true] at hi
        refine ⟨validMembers_some hv, fun e => ?_, fun e => ?_⟩
        · rw [K.2.2.1, e] at hi; simp at hi
        · rw [K.2.2.2, e] at hi; simp at hi
      · cases h4; cases hb.1
    · simp at h2
  have F := fun (s : LineReloader) (c : LineReloader.Call) (s' : LineReloader) (I : s.Sound) (e : c.next s = some s') =>
    lineReloader_frame I e
  refine ⟨?_, ?_, ?_⟩
  · obtain ⟨c, hc, x, rfl⟩ := member_kept LineReloader.Call.next (fun s => s.base.lineCable)
      (fun c => ∃ x, c = .setLineCable x) LineReloader.Sound
      (fun s c s' I e => ⟨(F s c s' I e).1, fun hn => (F s c s' I e).2.1 (by push Not at hn; exact hn)⟩)
      LineReloader.run (fun _ => rfl) (fun _ _ _ => rfl) lineReloader_new_sound hr hs.1
    exact ⟨x, hc⟩
  · obtain ⟨c, hc, x, rfl⟩ := member_kept LineReloader.Call.next (fun s => s.condition)
      (fun c => ∃ x, c = .setCondition x) LineReloader.Sound
      (fun s c s' I e => ⟨(F s c s' I e).1, fun hn => (F s c s' I e).2.2.1 (by push Not at hn; exact hn)⟩)
      LineReloader.run (fun _ => rfl) (fun _ _ _ => rfl) lineReloader_new_sound hr hs.2.1
    exact ⟨x, hc⟩
  · obtain ⟨c, hc, x, rfl⟩ := member_kept LineReloader.Call.next (fun s => s.weather)
      (fun c => ∃ x, c = .setWeather x) LineReloader.Sound
      (fun s c s' I e => ⟨(F s c s' I e).1, fun hn => (F s c s' I e).2.2.2 (by push Not at hn; exact hn)⟩)
      LineReloader.run (fun _ => rfl) (fun _ _ _ => rfl) lineReloader_new_sound hr hs.2.2
    exact ⟨x, hc⟩

theorem lineUnloader_frame {c : LineUnloader.Call} {m m' : LineUnloader} (S : m.Sound) (h : c.next m = some m') :
    m'.Sound ∧ ((∀ x, c ≠ .setLineCable x) → m'.base.lineCable = m.base.lineCable) ∧
    ((∀ x, c ≠ .setCondition x) → m'.condition = m.condition) ∧
    ((∀ x, c ≠ .setSpacing x) → m'.spacing = m.spacing) ∧
    ((∀ x, c ≠ .setTemperature x) → m'.temperature = m.temperature) := by
  refine ⟨LineUnloader.run_sound S [c] (by unfold LineUnloader.run; rw [h]; rfl), ?_⟩
  cases c with
  | setLineCable x => cases h; exact ⟨fun h => absurd rfl (h x), fun _ => rfl, fun _ => rfl, fun _ => rfl⟩
  | setCondition x => cases h; exact ⟨fun _ => rfl, fun h => absurd rfl (h x), fun _ => rfl, fun _ => rfl⟩
  | setSpacing x => cases h; exact ⟨fun _ => rfl, fun _ => rfl, fun h => absurd rfl (h x), fun _ => rfl⟩
  | setTemperature x => cases h; exact ⟨fun _ => rfl, fun _ => rfl, fun _ => rfl, fun h => absurd rfl (h x)⟩
  | query =>
    have K := LineUnloader.ask_sound S _ _ _ h
    exact ⟨fun _ => K.2.1, fun _ => K.2.2.1, fun _ => K.2.2.2.1, fun _ => K.2.2.2.2⟩
  | validate heap =>
    have K := LineUnloader.validate_sound heap S _ h
    exact ⟨fun _ => K.2.1, fun _ => K.2.2.1, fun _ => K.2.2.2.1, fun _ => K.2.2.2.2⟩

/-- A line cable unloader that Validate accepts has been given the line cable, the condition, the spacing and the
temperature. -/
theorem C142_line_unloader {calls : List LineUnloader.Call} {m m' : LineUnloader} {heap : Heap ℝ}
    (hr : LineUnloader.run .new calls = some m) (h : m.validate heap = .ok m' true) :
    (∃ x, .setLineCable x ∈ calls) ∧ (∃ x, .setCondition x ∈ calls) ∧ (∃ x, .setSpacing x ∈ calls) ∧
      ∃ x, .setTemperature x ∈ calls := by
  have S := LineUnloader.run_sound lineUnloader_new_sound calls hr
  have hs : m.base.lineCable ≠ none ∧ m.condition ≠ .null ∧ m.spacing ≠ ⟨-999999, -999999, -999999⟩ ∧
      m.temperature ≠ -999999 := by
    unfold LineUnloader.validate at h
    obtain ⟨t, b, h1, h2⟩ := Run.bind_ok h
    unfold LineUnloader.validateBase at h1
    obtain ⟨u, v, h3, h4⟩ := Run.bind_ok h1
    have hu : u = m ∧ m.base.validMembers heap = .val v := by
      cases hf : m.base.validMembers heap with
      | val a => rw [hf] at h3; cases h3; exact ⟨rfl, rfl⟩
      | throws => rw [hf] at h3; cases h3
      | ub => rw [hf] at h3; cases h3
    obtain ⟨rfl, hv⟩ := hu
    split_ifs at h2 with hb
    · simp only [Bool.and_eq_true] at hb
      split_ifs at h4 with hv'
      · subst hv'
        have K := (LineUnloader.update_sound S).1 t (by rw [h4]; rfl)
        have hi := hb.2
        unfold LineUnloader.validInputs at hi
        simp only [decide_eq_true_eq] at hi
        rw [K.2.2.1, K.2.2.2.1, K.2.2.2.2] at hi
        refine ⟨validMembers_some hv, hi.1, fun e => ?_, fun e => ?_⟩
        · have := hi.2.1
          rw [e] at this; norm_num at this
        · have := hi.2.2.2.2
          rw [e] at this; norm_num at this
      · cases h4; cases hb.1
    · simp at h2
  have F := fun (s : LineUnloader) (c : LineUnloader.Call) (s' : LineUnloader) (I : s.Sound) (e : c.next s = some s') =>
    lineUnloader_frame I e
  refine ⟨?_, ?_, ?_, ?_⟩
  · obtain ⟨c, hc, x, rfl⟩ := member_kept LineUnloader.Call.next (fun s => s.base.lineCable)
      (fun c => ∃ x, c = .setLineCable x) LineUnloader.Sound
      (fun s c s' I e => ⟨(F s c s' I e).1, fun hn => (F s c s' I e).2.1 (by push Not at hn; exact hn)⟩)
      LineUnloader.run (fun _ => rfl) (fun _ _ _ => rfl) lineUnloader_new_sound hr hs.1
    exact ⟨x, hc⟩
  · obtain ⟨c, hc, x, rfl⟩ := member_kept LineUnloader.Call.next (fun s => s.condition)
      (fun c => ∃ x, c = .setCondition x) LineUnloader.Sound
      (fun s c s' I e => ⟨(F s c s' I e).1, fun hn => (F s c s' I e).2.2.1 (by push Not at hn; exact hn)⟩)
      LineUnloader.run (fun _ => rfl) (fun _ _ _ => rfl) lineUnloader_new_sound hr hs.2.1
    exact ⟨x, hc⟩
  · obtain ⟨c, hc, x, rfl⟩ := member_kept LineUnloader.Call.next (fun s => s.spacing)
      (fun c => ∃ x, c = .setSpacing x) LineUnloader.Sound
      (fun s c s' I e => ⟨(F s c s' I e).1, fun hn => (F s c s' I e).2.2.2.1 (by push Not at hn; exact hn)⟩)
      LineUnloader.run (fun _ => rfl) (fun _ _ _ => rfl) lineUnloader_new_sound hr hs.2.2.1
    exact ⟨x, hc⟩
  · obtain ⟨c, hc, x, rfl⟩ := member_kept LineUnloader.Call.next (fun s => s.temperature)
      (fun c => ∃ x, c = .setTemperature x) LineUnloader.Sound
      (fun s c s' I e => ⟨(F s c s' I e).1, fun hn => (F s c s' I e).2.2.2.2 (by push Not at hn; exact hn)⟩)
      LineUnloader.run (fun _ => rfl) (fun _ _ _ => rfl) lineUnloader_new_sound hr hs.2.2.2
    exact ⟨x, hc⟩

/-! ## Sagger -/

theorem sagger_keeps {s t : Sagger} (h : Sagger.Keeps s t) :
    t.constraints = s.constraints ∧ t.lineCable.isSome = s.lineCable.isSome := by
  refine ⟨h.1, ?_⟩
  rcases h.2 with ⟨a, b⟩ | ⟨c, c', a, b, -⟩ <;> rw [a, b] <;> rfl

theorem sagger_frame {c : Sagger.Call} {m m' : Sagger} (S : m.Sound) (h : c.next m = some m') :
    m'.Sound ∧ ((∀ x, c ≠ .setConstraints x) → m'.constraints = m.constraints) ∧
    ((∀ x, c ≠ .setLineCable x) → m'.lineCable.isSome = m.lineCable.isSome) := by
  refine ⟨Sagger.run_sound S [c] (by unfold Sagger.run; rw [h]; rfl), ?_⟩
  cases c with
  | setConstraints x => cases h; exact ⟨fun h => absurd rfl (h x), fun _ => rfl⟩
  | setLineCable x => cases h; exact ⟨fun _ => rfl, fun h => absurd rfl (h x)⟩
  | query heap =>
    have K := sagger_keeps (Sagger.update_sound S _ h).2
    exact ⟨fun _ => K.1, fun _ => K.2⟩
  | validate heap =>
    have K := sagger_keeps (Sagger.validate_sound S _ h).2
    exact ⟨fun _ => K.1, fun _ => K.2⟩

/-- A line cable sagger that Validate accepts has been given the design constraints and the line cable. -/
theorem C142_sagger {calls : List Sagger.Call} {m m' : Sagger} {heap : Heap ℝ}
    (hr : Sagger.run .new calls = some m) (h : m.validate heap = .ok m' true) :
    (∃ x, .setConstraints x ∈ calls) ∧ ∃ x, .setLineCable x ∈ calls := by
  have hs : m.constraints ≠ none ∧ m.lineCable.isSome ≠ false := by
    unfold Sagger.validate at h
    obtain ⟨u, v, h3, h4⟩ := Run.bind_ok h
    have hv : m.validMembers heap = .val v := by
      cases hf : m.validMembers heap with
      | val a => rw [hf] at h3; cases h3; rfl
      | throws => rw [hf] at h3; cases h3
      | ub => rw [hf] at h3; cases h3
    split_ifs at h4 with hb
    · subst hb
      unfold Sagger.validMembers at hv
      constructor
      · intro e; rw [e] at hv; cases hv
      · intro e
        have e' : m.lineCable = none := by cases hl : m.lineCable with
          | none => rfl
          | some c => rw [hl] at e; cases e
        rw [e'] at hv
        cases hc : m.constraints <;> rw [hc] at hv <;> cases hv
    · simp at h4
  refine ⟨?_, ?_⟩
  · obtain ⟨c, hc, x, rfl⟩ := member_kept Sagger.Call.next (fun s => s.constraints)
      (fun c => ∃ x, c = .setConstraints x) Sagger.Sound
      (fun s c s' I e => ⟨(sagger_frame I e).1, fun hn => (sagger_frame I e).2.1 (by push Not at hn; exact hn)⟩)
      Sagger.run (fun _ => rfl) (fun _ _ _ => rfl) Sagger.new_sound hr hs.1
    exact ⟨x, hc⟩
  · obtain ⟨c, hc, x, rfl⟩ := member_kept Sagger.Call.next (fun s => s.lineCable.isSome)
      (fun c => ∃ x, c = .setLineCable x) Sagger.Sound
      (fun s c s' I e => ⟨(sagger_frame I e).1, fun hn => (sagger_frame I e).2.2 (by push Not at hn; exact hn)⟩)
      Sagger.run (fun _ => rfl) (fun _ _ _ => rfl) Sagger.new_sound hr hs.2
    exact ⟨x, hc⟩

/-! ## Sag corrector -/

/-- A corrector after a list of calls. -/
noncomputable def correctorAfter : SagCorrector → List SagCorrector.Event → Option SagCorrector
  | s, [] => some s
  | s, e :: es => (e.next s).bind fun s' => correctorAfter s' es

theorem corrector_ask_keeps {A : Type} {s s' : SagCorrector} {failed : A} {f : SagCorrector → SagCorrector × A}
    (hf : ∀ s, (f s).1.lineCable = s.lineCable ∧ (f s).1.points = s.points)
    (h : (s.ask failed f).state? = some s') : s'.lineCable = s.lineCable ∧ s'.points = s.points := by
  have U : ∀ t b, s.ensure = .ok t b → t.lineCable = s.lineCable ∧ t.points = s.points := by
    intro t b e
    unfold SagCorrector.ensure at e
    split_ifs at e
    · cases e; exact ⟨rfl, rfl⟩
    · obtain ⟨h1, h2, -⟩ := update_keeps (s := s) (s' := t) (by rw [e]; rfl)
      exact ⟨h1, h2⟩
  have V : ∀ t, s.ensure = .throws t → t.lineCable = s.lineCable ∧ t.points = s.points := by
    intro t e
    unfold SagCorrector.ensure at e
    split_ifs at e
    obtain ⟨h1, h2, -⟩ := update_keeps (s := s) (s' := t) (by rw [e]; rfl)
    exact ⟨h1, h2⟩
  unfold SagCorrector.ask at h
  cases he : s.ensure with
  | ub => rw [he] at h; cases h
  | throws t => rw [he] at h; cases h; exact V _ he
  | ok t b =>
    rw [he] at h
    cases b with
    | false => cases h; exact U _ _ he
    | true => cases h; exact ⟨(hf t).1.trans (U _ _ he).1, (hf t).2.trans (U _ _ he).2⟩

theorem corrector_frame {c : SagCorrector.Event} {m m' : SagCorrector} (h : c.next m = some m') :
    ((∀ x, c ≠ .setLineCable x) → m'.lineCable = m.lineCable) ∧ ((∀ x, c ≠ .setPoints x) → m'.points = m.points) := by
  cases c with
  | setLineCable x => cases h; exact ⟨fun h => absurd rfl (h x), fun _ => rfl⟩
  | setPoints x => cases h; exact ⟨fun _ => rfl, fun h => absurd rfl (h x)⟩
  | clipped => have := corrector_ask_keeps (fun _ => ⟨rfl, rfl⟩) h; exact ⟨fun _ => this.1, fun _ => this.2⟩
  | pulleyed => have := corrector_ask_keeps (fun _ => ⟨rfl, rfl⟩) h; exact ⟨fun _ => this.1, fun _ => this.2⟩
  | offsets => have := corrector_ask_keeps (fun _ => ⟨rfl, rfl⟩) h; exact ⟨fun _ => this.1, fun _ => this.2⟩
  | corrections => have := corrector_ask_keeps (fun _ => ⟨rfl, rfl⟩) h; exact ⟨fun _ => this.1, fun _ => this.2⟩
  | validate heap =>
    change (m.validate heap).state? = some m' at h
    unfold SagCorrector.validate at h
    have U := fun t (e : m.update.state? = some t) => update_keeps (s := m) (s' := t) e
    cases hv : SagCorrector.validateLineCable heap m.lineCable with
    | ub => rw [hv] at h; cases h
    | throws => rw [hv] at h; cases h; exact ⟨fun _ => rfl, fun _ => rfl⟩
    | val a =>
      rw [hv] at h
      simp only at h
      cases hu : m.update with
      | ub => rw [hu] at h; cases h
      | throws t =>
        have := U t (by rw [hu]; rfl)
        rw [hu] at h; cases h; exact ⟨fun _ => this.1, fun _ => this.2.1⟩
      | ok t b =>
        have := U t (by rw [hu]; rfl)
        rw [hu] at h
        cases b <;> cases h <;> exact ⟨fun _ => this.1, fun _ => this.2.1⟩

/-- A sag corrector that Validate accepts has been given the line cable and the attachment points. -/
theorem C142_corrector {calls : List SagCorrector.Event} {m m' : SagCorrector} {heap : Heap ℝ} {ms : List String}
    (hr : correctorAfter .new calls = some m) (h : m.validate heap = .ok m' (true, ms)) :
    (∃ x, .setLineCable x ∈ calls) ∧ ∃ x, .setPoints x ∈ calls := by
  have hs : m.lineCable ≠ none ∧ m.points ≠ none := by
    unfold SagCorrector.validate at h
    cases hv : SagCorrector.validateLineCable heap m.lineCable with
    | ub => rw [hv] at h; cases h
    | throws => rw [hv] at h; cases h
    | val a =>
      rw [hv] at h
      simp only at h
      cases hu : m.update with
      | ub => rw [hu] at h; cases h
      | throws t => rw [hu] at h; cases h
      | ok t b =>
        rw [hu] at h
        cases b with
        | false => simp at h
        | true =>
          simp only [Outcome.ok.injEq, Prod.mk.injEq, Bool.and_eq_true] at h
          obtain ⟨-, ⟨ha, hb⟩, -⟩ := h
          constructor
          · intro e; rw [e] at hv; cases hv; cases ha
          · intro e; rw [e] at hb; cases hb
  refine ⟨?_, ?_⟩
  · obtain ⟨c, hc, x, rfl⟩ := member_changed' (fun c s => SagCorrector.Event.next s c) SagCorrector.lineCable
      (fun c => ∃ x, c = .setLineCable x) (fun s c s' hn e => (corrector_frame e).1 (by push Not at hn; exact hn))
      correctorAfter (fun _ => rfl) (fun _ _ _ => rfl) .new m calls hr hs.1
    exact ⟨x, hc⟩
  · obtain ⟨c, hc, x, rfl⟩ := member_changed' (fun c s => SagCorrector.Event.next s c) SagCorrector.points
      (fun c => ∃ x, c = .setPoints x) (fun s c s' hn e => (corrector_frame e).2 (by push Not at hn; exact hn))
      correctorAfter (fun _ => rfl) (fun _ _ _ => rfl) .new m calls hr hs.2
    exact ⟨x, hc⟩

/-! ## Equilibrium solver -/

/-- The calls on an equilibrium solver. -/
inductive EquilibriumCall where
  | setAngleCatenaries (a : ℝ)
  | setAngleHardware (a : ℝ)
  | setAhead (k : Option Catenary3d)
  | setBack (k : Option Catenary3d)
  | setDirection (d : Direction)
  | angleEquilibrium
  | tensionImbalance
  | validate

/-- The solver after a call. -/
noncomputable def EquilibriumCall.next : EquilibriumCall → EquilibriumSolver → Option EquilibriumSolver
  | .setAngleCatenaries a, s => some (s.setAngleCatenaries a)
  | .setAngleHardware a, s => some (s.setAngleHardware a)
  | .setAhead k, s => some (s.setAhead k)
  | .setBack k, s => some (s.setBack k)
  | .setDirection d, s => some (s.setDirection d)
  | .angleEquilibrium, s => s.angleEquilibriumQ.state?
  | .tensionImbalance, s => s.tensionImbalance.state?
  | .validate, s => s.validate.state?

/-- The solver after a list of calls. -/
noncomputable def equilibriumAfter : EquilibriumSolver → List EquilibriumCall → Option EquilibriumSolver
  | s, [] => some s
  | s, c :: cs => (c.next s).bind fun s' => equilibriumAfter s' cs

/-- The inputs of an equilibrium solver. -/
def equilibriumInputs (s : EquilibriumSolver) : ℝ × ℝ × Option Catenary3d × Option Catenary3d × Direction :=
  (s.angleCatenaries, s.angleHardware, s.ahead, s.back, s.direction)

theorem equilibrium_update_keeps {s s' : EquilibriumSolver} (h : s.update.state? = some s') :
    equilibriumInputs s' = equilibriumInputs s := by
  unfold EquilibriumSolver.update at h
  split at h
  · rename_i b a h1 h2
    cases h
    rfl
  · cases h

theorem equilibrium_ask_keeps {s s' : EquilibriumSolver} {f : EquilibriumSolver → ℝ} (h : (s.ask f).state? = some s') :
    equilibriumInputs s' = equilibriumInputs s := by
  unfold EquilibriumSolver.ask at h
  split_ifs at h
  · cases h; rfl
  · cases hu : s.update with
    | ok t b =>
      have := equilibrium_update_keeps (s := s) (s' := t) (by rw [hu]; rfl)
      rw [hu] at h
      cases b <;> cases h <;> exact this
    | throws t =>
      have := equilibrium_update_keeps (s := s) (s' := t) (by rw [hu]; rfl)
      rw [hu] at h; cases h; exact this
    | ub => rw [hu] at h; cases h

theorem equilibrium_frame {c : EquilibriumCall} {s s' : EquilibriumSolver} (h : c.next s = some s') :
    ((∀ x, c ≠ .setAngleCatenaries x) → s'.angleCatenaries = s.angleCatenaries) ∧
    ((∀ x, c ≠ .setAngleHardware x) → s'.angleHardware = s.angleHardware) ∧
    ((∀ x, c ≠ .setAhead x) → s'.ahead = s.ahead) ∧ ((∀ x, c ≠ .setBack x) → s'.back = s.back) ∧
    ((∀ x, c ≠ .setDirection x) → s'.direction = s.direction) := by
  have q : equilibriumInputs s' = equilibriumInputs s →
      ((∀ x, c ≠ .setAngleCatenaries x) → s'.angleCatenaries = s.angleCatenaries) ∧
      ((∀ x, c ≠ .setAngleHardware x) → s'.angleHardware = s.angleHardware) ∧
      ((∀ x, c ≠ .setAhead x) → s'.ahead = s.ahead) ∧ ((∀ x, c ≠ .setBack x) → s'.back = s.back) ∧
      ((∀ x, c ≠ .setDirection x) → s'.direction = s.direction) := by
    intro e
    simp only [equilibriumInputs, Prod.mk.injEq] at e
    exact ⟨fun _ => e.1, fun _ => e.2.1, fun _ => e.2.2.1, fun _ => e.2.2.2.1, fun _ => e.2.2.2.2⟩
  cases c with
  | setAngleCatenaries x =>
    cases h; exact ⟨fun h => absurd rfl (h x), fun _ => rfl, fun _ => rfl, fun _ => rfl, fun _ => rfl⟩
  | setAngleHardware x =>
    cases h; exact ⟨fun _ => rfl, fun h => absurd rfl (h x), fun _ => rfl, fun _ => rfl, fun _ => rfl⟩
  | setAhead x => cases h; exact ⟨fun _ => rfl, fun _ => rfl, fun h => absurd rfl (h x), fun _ => rfl, fun _ => rfl⟩
  | setBack x => cases h; exact ⟨fun _ => rfl, fun _ => rfl, fun _ => rfl, fun h => absurd rfl (h x), fun _ => rfl⟩
  | setDirection x => cases h; exact ⟨fun _ => rfl, fun _ => rfl, fun _ => rfl, fun _ => rfl, fun h => absurd rfl (h x)⟩
  | angleEquilibrium => exact q (equilibrium_ask_keeps h)
  | tensionImbalance => exact q (equilibrium_ask_keeps h)
  | validate =>
    change s.validate.state? = some s' at h
    unfold EquilibriumSolver.validate at h
    cases hu : s.update with
    | ok t b =>
      have := equilibrium_update_keeps (s := s) (s' := t) (by rw [hu]; rfl)
      rw [hu] at h; cases h; exact q this
    | throws t =>
      have := equilibrium_update_keeps (s := s) (s' := t) (by rw [hu]; rfl)
      rw [hu] at h; cases h; exact q this
    | ub => rw [hu] at h; cases h

/-- An equilibrium solver that Validate accepts has been given both angles, both catenaries and the direction; the
angles are between 0 and 180, and Validate accepts the catenaries. -/
theorem C142_equilibrium {calls : List EquilibriumCall} {s s' : EquilibriumSolver} {ms : List String}
    (hr : equilibriumAfter .new calls = some s) (h : s.validate = .ok s' (true, ms)) :
    ((∃ x, .setAngleCatenaries x ∈ calls) ∧ (∃ x, .setAngleHardware x ∈ calls) ∧ (∃ x, .setAhead x ∈ calls) ∧
      (∃ x, .setBack x ∈ calls) ∧ ∃ x, .setDirection x ∈ calls) ∧
    (0 ≤ s.angleCatenaries ∧ s.angleCatenaries ≤ 180) ∧ (0 ≤ s.angleHardware ∧ s.angleHardware ≤ 180) ∧
    ∃ a b, s.ahead = some a ∧ s.back = some b ∧ a.validate.1 = true ∧ b.validate.1 = true := by
  have hs : (0 ≤ s.angleCatenaries ∧ s.angleCatenaries ≤ 180) ∧ (0 ≤ s.angleHardware ∧ s.angleHardware ≤ 180) ∧
      (∃ a b, s.ahead = some a ∧ s.back = some b ∧ a.validate.1 = true ∧ b.validate.1 = true) ∧
      s.direction ≠ .null := by
    unfold EquilibriumSolver.validate at h
    cases hu : s.update with
    | throws t => rw [hu] at h; cases h
    | ub => rw [hu] at h; cases h
    | ok t u =>
      rw [hu] at h
      simp only [Outcome.ok.injEq, Prod.mk.injEq, Bool.and_eq_true, List.isEmpty_iff, List.append_eq_nil_iff] at h
      obtain ⟨-, ⟨⟨⟨⟨⟨h1, h2⟩, h3⟩, h4⟩, h5⟩, -⟩, -⟩ := h
      refine ⟨?_, ?_, ?_, ?_⟩
      · split_ifs at h1 with hc
        push Not at hc
        exact hc
      · split_ifs at h2 with hc
        push Not at hc
        exact hc
      · cases ha : s.ahead with
        | none => rw [ha] at h4; cases h4
        | some a =>
          cases hb : s.back with
          | none => rw [hb] at h5; cases h5
          | some b => rw [ha] at h4; rw [hb] at h5; exact ⟨a, b, rfl, rfl, h4, h5⟩
      · split_ifs at h3 with hc
        exact hc
  refine ⟨⟨?_, ?_, ?_, ?_, ?_⟩, hs.1, hs.2.1, hs.2.2.1⟩
  · obtain ⟨c, hc, x, rfl⟩ := member_changed' EquilibriumCall.next EquilibriumSolver.angleCatenaries
      (fun c => ∃ x, c = .setAngleCatenaries x) (fun s c s' hn e => (equilibrium_frame e).1 (by push Not at hn; exact hn))
      equilibriumAfter (fun _ => rfl) (fun _ _ _ => rfl) .new s calls hr
      (fun e => by have := hs.1.1; rw [e] at this; norm_num [EquilibriumSolver.new] at this)
    exact ⟨x, hc⟩
  · obtain ⟨c, hc, x, rfl⟩ := member_changed' EquilibriumCall.next EquilibriumSolver.angleHardware
      (fun c => ∃ x, c = .setAngleHardware x) (fun s c s' hn e => (equilibrium_frame e).2.1 (by push Not at hn; exact hn))
      equilibriumAfter (fun _ => rfl) (fun _ _ _ => rfl) .new s calls hr
      (fun e => by have := hs.2.1.1; rw [e] at this; norm_num [EquilibriumSolver.new] at this)
    exact ⟨x, hc⟩
  · obtain ⟨c, hc, x, rfl⟩ := member_changed' EquilibriumCall.next EquilibriumSolver.ahead
      (fun c => ∃ x, c = .setAhead x) (fun s c s' hn e => (equilibrium_frame e).2.2.1 (by push Not at hn; exact hn))
      equilibriumAfter (fun _ => rfl) (fun _ _ _ => rfl) .new s calls hr
      (fun e => by obtain ⟨a, b, ha, -⟩ := hs.2.2.1; rw [e] at ha; cases ha)
    exact ⟨x, hc⟩
  · obtain ⟨c, hc, x, rfl⟩ := member_changed' EquilibriumCall.next EquilibriumSolver.back
      (fun c => ∃ x, c = .setBack x) (fun s c s' hn e => (equilibrium_frame e).2.2.2.1 (by push Not at hn; exact hn))
      equilibriumAfter (fun _ => rfl) (fun _ _ _ => rfl) .new s calls hr
      (fun e => by obtain ⟨a, b, -, hb, -⟩ := hs.2.2.1; rw [e] at hb; cases hb)
    exact ⟨x, hc⟩
  · obtain ⟨c, hc, x, rfl⟩ := member_changed' EquilibriumCall.next EquilibriumSolver.direction
      (fun c => ∃ x, c = .setDirection x) (fun s c s' hn e => (equilibrium_frame e).2.2.2.2 (by push Not at hn; exact hn))
      equilibriumAfter (fun _ => rfl) (fun _ _ _ => rfl) .new s calls hr hs.2.2.2
    exact ⟨x, hc⟩

/-! ## Locator -/

/-- The inputs of a locator that a query keeps. -/
def LocatorKeeps (s s' : Locator) : Prop := Locator.SameSettings s' s ∧ s'.line.isSome = s.line.isSome

theorem locator_update_keeps {as : Assemblies} {s s' : Locator} (h : (s.update as).returned = some s') :
    LocatorKeeps s s' := by
  cases hu : s.update as with
  | ok t b =>
    obtain ⟨-, e, ⟨g, g', e1, e2, -⟩, -⟩ := Locator.update_ok hu
    rw [hu] at h; cases h
    exact ⟨e, by rw [e1, e2]; rfl⟩
  | throws t => rw [hu] at h; cases h
  | ub => rw [hu] at h; cases h
  | nan => rw [hu] at h; cases h

theorem locator_ask_keeps {A : Type} {as : Assemblies} {s s' : Locator} {failed : A} {f : Locator → Run Locator A}
    (hf : Locator.Const f) (h : (s.ask as failed f).returned = some s') : LocatorKeeps s s' := by
  have F : ∀ t : Locator, (f t).returned = some s' → s' = t := by
    intro t e
    cases hu : f t with
    | ok x a => rw [hu] at e; cases e; exact hf _ _ _ hu
    | throws x => rw [hu] at e; cases e
    | ub => rw [hu] at e; cases e
    | nan => rw [hu] at e; cases e
  unfold Locator.ask at h
  split_ifs at h
  · rw [F _ h]; exact ⟨⟨rfl, rfl, rfl, rfl⟩, rfl⟩
  · cases hu : s.update as with
    | ok t b =>
      have K := locator_update_keeps (s := s) (s' := t) (by rw [hu]; rfl)
      rw [hu] at h
      cases b with
      | true => rw [F t h]; exact K
      | false => cases h; exact K
    | throws t => rw [hu] at h; cases h
    | ub => rw [hu] at h; cases h
    | nan => rw [hu] at h; cases h

theorem locator_validate_keeps {as : Assemblies} {s s' : Locator} {v : GLine → Bool}
    (h : (s.validate as v).returned = some s') : LocatorKeeps s s' := by
  unfold Locator.validate at h
  cases hl : s.line with
  | none => rw [hl] at h; exact locator_update_keeps h
  | some g =>
    rw [hl] at h
    simp only at h
    cases hv : g.validateUpdate with
    | ub => rw [hv] at h; cases h
    | throws g' => rw [hv] at h; cases h
    | ok g' b =>
      rw [hv] at h
      simp only at h
      cases hu : ({ s with line := some g' } : Locator).update as with
      | ok t c =>
        have K := locator_update_keeps (s := { s with line := some g' }) (s' := t) (as := as) (by rw [hu]; rfl)
        rw [hu] at h; cases h
        exact ⟨K.1, by rw [hl]; exact K.2⟩
      | throws t => rw [hu] at h; cases h
      | ub => rw [hu] at h; cases h
      | nan => rw [hu] at h; cases h

theorem locator_frame {as : Assemblies} {c : Locator.Call} {s s' : Locator} (h : c.next as s = some s') :
    ((∀ x, c ≠ .setDirection x) → s'.direction = s.direction) ∧ ((∀ x, c ≠ .setIndex x) → s'.index = s.index) ∧
    ((∀ x, c ≠ .setTension x) → s'.tension = s.tension) ∧ ((∀ x, c ≠ .setWeight x) → s'.weight = s.weight) ∧
    (((∀ x, c ≠ .setLine x) ∧ ∀ x, c ≠ .edited x) → s'.line.isSome = s.line.isSome) := by
  have q : LocatorKeeps s s' → ((∀ x, c ≠ .setDirection x) → s'.direction = s.direction) ∧
      ((∀ x, c ≠ .setIndex x) → s'.index = s.index) ∧
      ((∀ x, c ≠ .setTension x) → s'.tension = s.tension) ∧ ((∀ x, c ≠ .setWeight x) → s'.weight = s.weight) ∧
      (((∀ x, c ≠ .setLine x) ∧ ∀ x, c ≠ .edited x) → s'.line.isSome = s.line.isSome) :=
    fun e => ⟨fun _ => e.1.1, fun _ => e.1.2.1, fun _ => e.1.2.2.1, fun _ => e.1.2.2.2, fun _ => e.2⟩
  cases c with
  | setDirection x => cases h; exact ⟨fun h => absurd rfl (h x), fun _ => rfl, fun _ => rfl, fun _ => rfl, fun _ => rfl⟩
  | setIndex x => cases h; exact ⟨fun _ => rfl, fun h => absurd rfl (h x), fun _ => rfl, fun _ => rfl, fun _ => rfl⟩
  | setTension x => cases h; exact ⟨fun _ => rfl, fun _ => rfl, fun h => absurd rfl (h x), fun _ => rfl, fun _ => rfl⟩
  | setWeight x => cases h; exact ⟨fun _ => rfl, fun _ => rfl, fun _ => rfl, fun h => absurd rfl (h x), fun _ => rfl⟩
  | setLine x => cases h; exact ⟨fun _ => rfl, fun _ => rfl, fun _ => rfl, fun _ => rfl, fun h => absurd rfl (h.1 x)⟩
  | edited x => cases h; exact ⟨fun _ => rfl, fun _ => rfl, fun _ => rfl, fun _ => rfl, fun h => absurd rfl (h.2 x)⟩
  | attachment => exact q (locator_ask_keeps Locator.attachment_const h)
  | points i num => exact q (locator_ask_keeps (Locator.points_const i num) h)
  | validate v => exact q (locator_validate_keeps h)

/-- A locator that Validate accepts has been given the direction of the wind, the index of the line cable, the
tension, the transmission line and the unit weight. -/
theorem C142_locator {as : Assemblies} {calls : List Locator.Call} {s s' : Locator} {v : GLine → Bool}
    (hr : Locator.run as .new calls = some s) (ht : ∀ c ∈ calls, c.Told) (h : s.validate as v = .ok s' true) :
    (∃ x, .setDirection x ∈ calls) ∧ (∃ x, .setIndex x ∈ calls) ∧ (∃ x, .setTension x ∈ calls) ∧
      (∃ x, .setLine x ∈ calls) ∧ ∃ x, .setWeight x ∈ calls := by
  have hs : s.direction ≠ .null ∧ 0 ≤ s.index ∧ 0 < s.tension ∧ s.line.isSome ≠ false ∧ s.weight ≠ none := by
    unfold Locator.validate at h
    cases hl : s.line with
    | none =>
      rw [hl] at h
      simp only at h
      unfold Locator.update at h
      rw [hl] at h
      cases h
    | some g =>
      rw [hl] at h
      simp only at h
      cases hv : g.validateUpdate with
      | ub => rw [hv] at h; cases h
      | throws g' => rw [hv] at h; cases h
      | ok g' b =>
        rw [hv] at h
        simp only at h
        obtain ⟨t, u, -, h2⟩ := Run.bind_ok h
        simp only [Run.ok.injEq, Bool.and_eq_true, decide_eq_true_eq] at h2
        obtain ⟨-, ⟨⟨⟨⟨e1, e2, e3⟩, e4⟩, -⟩, -⟩, -⟩ := h2
        refine ⟨e1, e2, e3, by simp, fun e => ?_⟩
        rw [e] at e4; cases e4
  have M := fun {V : Type} (f : Locator → V) (P : Locator.Call → Prop)
      (hk : ∀ s c s', ¬ P c → Locator.Call.next as c s = some s' → f s' = f s) (hf : f s ≠ f .new) =>
    member_changed' (Locator.Call.next as) f P hk (Locator.run as) (fun _ => rfl) (fun _ _ _ => rfl) .new s calls hr hf
  refine ⟨?_, ?_, ?_, ?_, ?_⟩
  · obtain ⟨c, hc, x, rfl⟩ := M Locator.direction (fun c => ∃ x, c = .setDirection x)
      (fun s c s' hn e => (locator_frame e).1 (by push Not at hn; exact hn)) hs.1
    exact ⟨x, hc⟩
  · obtain ⟨c, hc, x, rfl⟩ := M Locator.index (fun c => ∃ x, c = .setIndex x)
      (fun s c s' hn e => (locator_frame e).2.1 (by push Not at hn; exact hn))
      (fun e => by have := hs.2.1; rw [e] at this; norm_num [Locator.new] at this)
    exact ⟨x, hc⟩
  · obtain ⟨c, hc, x, rfl⟩ := M Locator.tension (fun c => ∃ x, c = .setTension x)
      (fun s c s' hn e => (locator_frame e).2.2.1 (by push Not at hn; exact hn))
      (fun e => by have := hs.2.2.1; rw [e] at this; norm_num [Locator.new] at this)
    exact ⟨x, hc⟩
  · obtain ⟨c, hc, hx⟩ := M (fun s => s.line.isSome) (fun c => (∃ x, c = .setLine x) ∨ ∃ x, c = .edited x)
      (fun s c s' hn e => (locator_frame e).2.2.2.2 (by push Not at hn; exact hn)) hs.2.2.2.1
    rcases hx with ⟨x, rfl⟩ | ⟨x, rfl⟩
    · exact ⟨x, hc⟩
    · exact (ht _ hc).elim
  · obtain ⟨c, hc, x, rfl⟩ := M Locator.weight (fun c => ∃ x, c = .setWeight x)
      (fun s c s' hn e => (locator_frame e).2.2.2.1 (by push Not at hn; exact hn)) hs.2.2.2.2
    exact ⟨x, hc⟩

/-! ## The objects of earlier examples meet the hypotheses -/

example : ∃ (calls : List ComponentModel.Call) (m m' : ComponentModel), ComponentModel.run .new calls = some m ∧
    m.validate true = .ok m' true := by
  obtain ⟨m, m', r, ⟨calls, O⟩, h, -⟩ := C65_dip_accepted
  exact ⟨calls, m, m', O, h⟩

example : ∃ (calls : List ElongationModel.Call) (m m' : ElongationModel), ElongationModel.run .new calls = some m ∧
    m.validate false = .ok m' true := by
  have hval : CatenaryReloader.validModel (some (modelOf (hookeCable 1000000) ⟨60, .loadStrain⟩ ⟨0, .loadStrain, 0⟩)) =
    .val true := hung_valid (by decide) (calm_state (by decide)) rfl
  refine ⟨[.setCable (some (hookeCable 1000000)), .setState ⟨60, .loadStrain⟩, .setStretch ⟨0, .loadStrain, 0⟩],
    modelOf (hookeCable 1000000) ⟨60, .loadStrain⟩ ⟨0, .loadStrain, 0⟩, ?_⟩
  unfold CatenaryReloader.validModel at hval
  simp only at hval
  generalize (modelOf (hookeCable 1000000) ⟨60, .loadStrain⟩ ⟨0, .loadStrain, 0⟩).validate false = o at hval ⊢
  match o with
  | .ok m' v => cases hval; exact ⟨m', rfl, rfl⟩
  | .throws _ => cases hval
  | .ub => cases hval

example : ∃ (calls : List CatenaryReloader.Call) (m m' : CatenaryReloader), CatenaryReloader.run .new calls = some m ∧
    m.validate = .ok m' true := by
  obtain ⟨r, h, -⟩ := hung_reload (t := .loadStrain) (t' := .creep) (by decide) (by decide) ⟨0, .loadStrain, 0⟩
    ⟨60, .creep, 0⟩ rfl rfl
  exact ⟨[.setCatenary (some (levelSpan 100 1 70)),
    .setModelReference (some (modelOf (hookeCable 1000000) ⟨60, .loadStrain⟩ ⟨0, .loadStrain, 0⟩)),
    .setModelReloaded (some (modelOf (hookeCable 1000000) ⟨60, .creep⟩ ⟨60, .creep, 0⟩)),
    .setWeight (some ⟨0, 0, 1⟩)], _, r, rfl, h⟩

example (heap : Heap ℝ) : ∃ (calls : List LineReloader.Call) (m m' : LineReloader), LineReloader.run .new calls = some m ∧
    m.validate heap = .ok m' true := by
  obtain ⟨s, h1, -⟩ := hung_reloads
  have hr : LineReloader.run .new [.setLineCable (some exHung), .setCondition .initial, .setWeather (some exCalm)] =
    some exReloader := rfl
  refine ⟨_, exReloader, s, hr, ?_⟩
  obtain ⟨k1, k2⟩ := LineReloader.update_sound (LineReloader.run_sound lineReloader_new_sound _ hr)
  have K := k1 s (by rw [h1]; rfl)
  have hb : exReloader.base.validMembers heap = .val true := by
    have e1 : exReloader.base.lineCable = some exHung := rfl
    have e2 : exHung.cable = some (hookeCable 1000000) := rfl
    unfold LineLoader.validMembers
    simp only [e1, e2, hung_accepted heap, (hooke_valid (e := 1000000)).1, Bool.and_self]
  have hi : s.validInputs = true := by
    have e1 : s.weather = some exCalm := K.2.2.2
    have e2 : s.condition = .initial := K.2.2.1
    unfold LineReloader.validInputs
    rw [e1, e2]
    simp [exCalm, WeatherLoadCase.validate]
    norm_num
  unfold LineReloader.validate LineReloader.validateBase
  rw [hb]
  simp only [Run.ofRes, Run.bind, if_true, h1, hi, Bool.and_self, LineReloader.update_updated (k2 s h1)]

example (heap : Heap ℝ) : ∃ (calls : List LineUnloader.Call) (m m' : LineUnloader), LineUnloader.run .new calls = some m ∧
    m.validate heap = .ok m' true := by
  obtain ⟨s, l, h1, h2, -⟩ := hung_unloads
  refine ⟨_, exUnloader, s, exUnloader_run, ?_⟩
  have K := (LineUnloader.update_sound (LineUnloader.run_sound lineUnloader_new_sound _ exUnloader_run)).1 s (by rw [h1]; rfl)
  have hb : exUnloader.base.validMembers heap = .val true := by
    have e1 : exUnloader.base.lineCable = some exHung := rfl
    have e2 : exHung.cable = some (hookeCable 1000000) := rfl
    unfold LineLoader.validMembers
    simp only [e1, e2, hung_accepted heap, (hooke_valid (e := 1000000)).1, Bool.and_self]
  have hi : s.validInputs = true := by
    have e1 : s.condition = .initial := K.2.2.1
    have e2 : s.spacing = ⟨80, 0, 0⟩ := K.2.2.2.1
    have e3 : s.temperature = 60 := K.2.2.2.2
    unfold LineUnloader.validInputs
    rw [e1, e2, e3]
    norm_num
    decide
  unfold LineUnloader.validate LineUnloader.validateBase
  rw [hb]
  simp only [Run.ofRes, Run.bind, if_true, h1, hi, Bool.and_self, LineUnloader.update_updated h2]

example (heap : Heap ℝ) : ∃ (calls : List Sagger.Call) (m m' : Sagger), Sagger.run .new calls = some m ∧
    m.validate heap = .ok m' true := by
  obtain ⟨v, h, h', x, k, v1, v2, h1, -, h3, -, -, -, hu⟩ := icy_sags heap
  refine ⟨[.setConstraints (some [icyLimit v h, icyLimit v h']), .setLineCable (some (icyLine v 1 70))],
    icySagger v h h', ⟨some [icyLimit v h, icyLimit v h'], some (icyLine v 1 x), [k, k], 1, true⟩, rfl, ?_⟩
  unfold Sagger.validate
  have hm : (icySagger v h h').validMembers heap = .val true := by
    obtain ⟨m, hm⟩ := icy_valid (v := v) (w := 1) (h := 70) v1.le (le_refl 1) (by norm_num) heap
    have e1 : (icySagger v h h').constraints = some [icyLimit v h, icyLimit v h'] := rfl
    have e2 : (icySagger v h h').lineCable = some (icyLine v 1 70) := rfl
    have q : ∀ y, 0 ≤ y → (icyLimit v y).validate.1 = true := by
      intro y hy
      simp [icyLimit, CableConstraint.validate, validateWeather, icy_weather v1.le]
      exact if_neg (show ¬ (icyLimit v y).limit < 0 from not_lt.2 hy)
    unfold Sagger.validMembers
    simp only [e1, e2, hm, List.all_cons, List.all_nil, q h (by linarith), q h' (by linarith), Bool.and_self]
  rw [hm]
  simp only [Run.ofRes, Run.bind, if_true]
  exact hu

theorem corrector_calls {s : SagCorrector} (h : s.Reachable) : ∃ calls, correctorAfter .new calls = some s := by
  induction h with
  | new => exact ⟨[], rfl⟩
  | step e _ he ih =>
    obtain ⟨calls, hc⟩ := ih
    refine ⟨calls ++ [e], ?_⟩
    have : ∀ (cs : List SagCorrector.Event) (t : SagCorrector), correctorAfter t (cs ++ [e]) =
        (correctorAfter t cs).bind fun s => (SagCorrector.Event.next s e).bind some := by
      intro cs
      induction cs with
      | nil => intro t; rfl
      | cons c cs ih =>
        intro t
        rw [List.cons_append]
        unfold correctorAfter
        cases SagCorrector.Event.next t c with
        | none => rfl
        | some u => exact ih u
    rw [this, hc]
    exact congrArg (Option.bind · some) he

example (heap : Heap ℝ) : ∃ (calls : List SagCorrector.Event) (m m' : SagCorrector) (ms : List String),
    correctorAfter .new calls = some m ∧ m.validate heap = .ok m' (true, ms) := by
  obtain ⟨s, R, h, -⟩ := C113_single_fails
  obtain ⟨calls, hc⟩ := corrector_calls R
  have := h heap
  cases hv : s.validate heap with
  | ok m' a => rw [hv] at this; cases this; exact ⟨calls, s, m', _, hc, hv⟩
  | throws m' => rw [hv] at this; cases this
  | ub => rw [hv] at this; cases this

example : ∃ (calls : List EquilibriumCall) (s s' : EquilibriumSolver) (ms : List String),
    equilibriumAfter .new calls = some s ∧ s.validate = .ok s' (true, ms) := by
  have hv : (levelSpan 100 1 70).validate.1 = true := level_valid (by norm_num) (by norm_num) (by norm_num)
  have key : ∀ s : EquilibriumSolver, s.angleCatenaries = 170 → s.angleHardware = 10 → s.ahead = some (levelSpan 100 1 70) →
      s.back = some (levelSpan 100 1 70) → s.direction = .positive → ∃ s' ms, s.validate = .ok s' (true, ms) := by
    intro s h1 h2 h3 h4 h5
    have hu : ∃ t, s.update = .ok t true := by
      unfold EquilibriumSolver.update
      rw [h3, h4]
      exact ⟨_, rfl⟩
    obtain ⟨t, hu⟩ := hu
    unfold EquilibriumSolver.validate
    rw [hu, h1, h2, h3, h4, h5]
    simp only [EquilibriumSolver.validateCatenary, hv]
    norm_num
    decide
  obtain ⟨s', ms, h⟩ := key (((((EquilibriumSolver.new.setAngleCatenaries 170).setAngleHardware 10).setAhead
    (some (levelSpan 100 1 70))).setBack (some (levelSpan 100 1 70))).setDirection .positive) rfl rfl rfl rfl rfl
  exact ⟨[.setAngleCatenaries 170, .setAngleHardware 10, .setAhead (some (levelSpan 100 1 70)),
    .setBack (some (levelSpan 100 1 70)), .setDirection .positive], _, s', ms, rfl, h⟩

example : ∃ (calls : List Locator.Call) (s s' : Locator), Locator.run exOnes .new calls = some s ∧ (∀ c ∈ calls, c.Told) ∧
    s.validate exOnes (fun _ => true) = .ok s' true := by
  obtain ⟨t, q, h, -⟩ := exLocator_located 20 0 (by norm_num)
  obtain ⟨calls, told, hr⟩ := exLocator_reached 20 0
  have hu : (exRoute 20 0).update = .ok (exRoute' 20 0) true := exRoute_refresh 20 0
  have hl := exLocator_refresh (g := exRoute' 20 0) (u := 20) (e := 0) (by rw [exRoute_refresh]; rfl) rfl
  rw [h] at hl
  have : ∃ t', ((exLocator 20 0).setLine (some (exRoute' 20 0))).update exOnes = .ok t' true := by
    unfold Locator.pointsAttachment Locator.ask at hl
    rw [if_neg (by simp [Locator.setLine])] at hl
    obtain ⟨t', b, e1, e2⟩ := Run.bind_ok hl
    cases b with
    | true => exact ⟨t', e1⟩
    | false => simp at e2
  obtain ⟨t', ht⟩ := this
  refine ⟨calls, exLocator 20 0, t', hr, told, ?_⟩
  have e1 : (exLocator 20 0).line = some (exRoute 20 0) := rfl
  have e2 : (exRoute 20 0).validateUpdate = .ok (exRoute' 20 0) true := hu
  have e3 : ({ exLocator 20 0 with line := some (exRoute' 20 0) } : Locator) =
    (exLocator 20 0).setLine (some (exRoute' 20 0)) := rfl
  unfold Locator.validate
  simp only [e1, e2, e3, ht, Run.bind]
  have v : Locator.validWeight (exLocator 20 0).weight = true := by
    show Locator.validWeight (some exLight) = true
    norm_num [Locator.validWeight, exLight]
  have d : (exLocator 20 0).direction ≠ .null ∧ 0 ≤ (exLocator 20 0).index ∧ 0 < (exLocator 20 0).tension := by
    refine ⟨by decide, by decide, ?_⟩
    norm_num [exLocator, Locator.setWeight, Locator.setTension]
  rw [v, decide_eq_true d]
  rfl

end Verif.Props
