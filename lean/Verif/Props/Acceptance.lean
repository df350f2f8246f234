import Verif.Props.Validators
import Verif.ThermalLemmas

/-!
# C163: what is in range is accepted
-/

set_option linter.unusedSectionVars false

namespace Verif.Props
open Verif

theorem range_weather {w : Option WeatherLoadCase} {m : String} (h : WeatherInRange w) :
    (validateWeather w m).1 = true := by
  obtain ⟨c, rfl, h1, h2, h3, h4⟩ := h
  unfold validateWeather WeatherLoadCase.validate
  simp only [List.isEmpty_iff, List.append_eq_nil_iff, empty_if, not_lt]
  exact ⟨⟨⟨h1, h2⟩, h3⟩, h4⟩

theorem range_structure {n : ℕ → HardwareNumbers} {s : LineStructure ℝ} (h : StructureInRange n s) :
    (s.validate n).1 = true := by
  obtain ⟨h1, h2, h3, h4, t, hb, t1, t2, t3⟩ := h
  unfold LineStructure.validate
  simp only [Bool.and_eq_true, List.isEmpty_iff, List.append_eq_nil_iff, empty_if, not_lt]
  refine ⟨⟨?_, ⟨h1, h2⟩, h3⟩, ?_⟩
  · have gen : ∀ (hs : List (Option Hardware)) (j : ℕ), (∀ i h, hs[i]? = some (some h) →
        h.type ≠ .null ∧ 0 ≤ (n (j + i)).area ∧ 0 ≤ (n (j + i)).length ∧ 0 ≤ (n (j + i)).weight) →
        (LineStructure.validateHardware n j hs).1 = true := by
      intro hs
      induction hs with
      | nil => intro j _; rfl
      | cons x hs ih =>
        intro j hv
        unfold LineStructure.validateHardware
        simp only [Bool.and_eq_true]
        refine ⟨?_, ih (j + 1) fun i h hi => ?_⟩
        · cases x with
          | none => rfl
          | some x =>
            obtain ⟨a1, a2, a3, a4⟩ := hv 0 x rfl
            unfold Hardware.validateSlot Hardware.validate
            simp only [List.isEmpty_iff, List.append_eq_nil_iff, empty_if, not_lt]
            exact ⟨⟨⟨a2, a3⟩, a1⟩, a4⟩
        · have := hv (i + 1) h (by simpa using hi)
          rwa [show j + 1 + i = j + (i + 1) by omega]
    exact gen s.hardwares 0 fun i h hi => by simpa using h4 i h hi
  · rw [hb]
    show t.validate.1 = true
    unfold Structure.validate
    simp only [Bool.and_eq_true, decide_eq_true_eq, List.isEmpty_iff, not_le]
    refine ⟨⟨fun h => t2 (List.length_eq_zero_iff.1 h), t1⟩, ?_⟩
    unfold Structure.exceeding
    rw [List.flatMap_eq_nil_iff]
    intro a ha
    rw [empty_if, not_lt]
    exact t3 a ha

theorem range_cable {heap : Heap ℝ} {c : SectionCable} {r : Bool × List String} (h : c.validate heap = .val r)
    (hr : CableInRange c) : r.1 = true := by
  obtain ⟨⟨k, hk, k1, k2, k3⟩, ⟨w1, w2, w3⟩, ⟨c1, c2, c3⟩, ⟨s1, s2, s3⟩, K, hK, hv⟩ := hr
  have hm : c.validateMembers.1 = true := by
    unfold SectionCable.validateMembers CableConstraint.validate
    simp only [Bool.and_eq_true, List.isEmpty_iff, List.append_eq_nil_iff, empty_if, not_lt, not_le, ne_eq, not_not]
    refine ⟨⟨⟨⟨?_, range_weather w1, ⟨c1, c2⟩, c3⟩, ⟨s1, s2⟩, s3⟩, range_weather w2⟩, range_weather w3⟩
    rw [hk]
    unfold SectionCable.validateCable Cable.validate
    simp only [List.isEmpty_iff, List.append_eq_nil_iff, empty_if, not_lt, not_le]
    exact ⟨⟨k1, k2⟩, k3⟩
  unfold SectionCable.validate at h
  simp only [hm, Bool.true_eq_false, if_false, hK] at h
  split at h
  · cases h; exact hv
  · cases h
  · cases h

theorem range_cables {heap : Heap ℝ} : ∀ {cs : List SectionCable} {r : Bool × List String},
    GLine.validateCables heap cs = .val r → (∀ c ∈ cs, CableInRange c) → r.1 = true := by
  intro cs
  induction cs with
  | nil => intro r h _; cases h; rfl
  | cons c cs ih =>
    intro r h hr
    unfold GLine.validateCables at h
    split at h
    · rename_i a hc
      split at h
      · rename_i b hb
        cases h
        rw [Bool.and_eq_true]
        exact ⟨range_cable hc (hr c (by simp)), ih hb fun x hx => hr x (by simp [hx])⟩
      · cases h
      · cases h
    · cases h
    · cases h

theorem line_update_true {g g' : GLine} {u : Bool} (h : g.update = .ok g' u) : u = true := by
  unfold GLine.update at h
  simp only at h
  split_ifs at h
  · split at h
    · cases h; rfl
    · cases h
    · cases h
  · cases h; rfl

/-- **C163**: when validating a line returns, it accepts exactly the lines whose alignment points, structures,
hardware and cables are all in range. -/
theorem C163_line {ext : Heap ℝ} {m : LineMembers} {g g' : GLine} {b : Bool} {msgs : List String}
    (h : g.validate ext m = .ok g' (b, msgs)) : b = true ↔
    (∀ p ∈ g.line.alignment, 0 ≤ p.elevation ∧ |p.rotation| ≤ 360 ∧ 0 ≤ p.station) ∧
    (∀ e ∈ g.line.structures, StructureInRange (m.hardware e.1) e.2) ∧
    ∀ k ∈ g.line.cables, CableInRange (m.whole k) := by
  constructor
  · rintro rfl
    exact C127_in_range h
  · rintro ⟨h1, h2, h3⟩
    unfold GLine.validate at h
    simp only at h
    split at h
    · cases h
    · cases h
    · rename_i c hc
      split at h
      · rename_i g1 u hu
        simp only [Outcome.ok.injEq, Prod.mk.injEq] at h
        rw [← h.2.1]
        simp only [Bool.and_eq_true]
        refine ⟨⟨⟨?_, ?_⟩, ?_⟩, line_update_true hu⟩
        · unfold Alignment.validate
          simp only [List.all_eq_true]
          intro p hp
          obtain ⟨a1, a2, a3⟩ := h1 p hp
          unfold AlignmentPoint.validate
          simp only [List.isEmpty_iff, List.append_eq_nil_iff, empty_if, not_lt]
          exact ⟨⟨a1, a2⟩, a3⟩
        · unfold GLine.validateStructures
          simp only [List.all_eq_true]
          exact fun e he => range_structure (h2 e he)
        · refine range_cables hc fun x hx => ?_
          obtain ⟨k, hk, rfl⟩ := List.mem_map.1 hx
          exact h3 k hk
      · cases h
      · cases h

/-- C163: a line cable is accepted exactly if it is in range, whenever its validation returns. -/
theorem C163_line_cable {heap : Heap ℝ} {c : SectionCable} {r : Bool × List String} (h : c.validate heap = .val r) :
    r.1 = true ↔ CableInRange c := ⟨cable_range h, range_cable h⟩

/-- What sag-tension calculations need of a component of the cable. -/
structure ComponentInRange (c : CableComponent) : Prop where
  expansion : -0.005 < c.expansion ∧ c.expansion ≤ 0.005
  creep : c.creep.length = 5
  loadStrain : c.loadStrain.length = 5
  limits : 0 ≤ c.limitCreep ∧ 0 ≤ c.limitLoadStrain
  moduli : 0 ≤ c.modulusCompression ∧ 0 ≤ c.modulusTension
  scales : 0 ≤ c.scaleX ∧ 0 ≤ c.scaleY

/-- C163: what a sag-tension cable must satisfy to be accepted.  Components with a polynomial that is zero throughout
take no part in elongation; they are not looked at. -/
theorem C163_sag_tension (k : Cable) : k.validateSagTension.1 = true ↔
    0 ≤ k.areaPhysical ∧ 0 < k.diameter ∧ 0 < k.weightUnit ∧ 0 ≤ k.strengthRated ∧ 0 ≤ k.temperatureProperties ∧
    ((∃ a ∈ k.core.creep, a ≠ 0) → (∃ a ∈ k.core.loadStrain, a ≠ 0) → ComponentInRange k.core) ∧
    ((∃ a ∈ k.shell.creep, a ≠ 0) → (∃ a ∈ k.shell.loadStrain, a ≠ 0) → ComponentInRange k.shell) := by
  have comp : ∀ c : CableComponent, c.validate.2 = [] ↔ ComponentInRange c := by
    intro c
    unfold CableComponent.validate
    simp only [List.append_eq_nil_iff, empty_if, not_lt, not_or, not_le, ne_eq, not_not]
    constructor
    · rintro ⟨⟨⟨⟨⟨⟨⟨⟨⟨h1, h1'⟩, h2⟩, h3⟩, h4⟩, h5⟩, h6⟩, h7⟩, h8⟩, h9⟩
      exact ⟨⟨h1, h1'⟩, h2, h3, ⟨h4, h5⟩, ⟨h6, h7⟩, h8, h9⟩
    · rintro ⟨⟨h1, h1'⟩, h2, h3, ⟨h4, h5⟩, ⟨h6, h7⟩, h8, h9⟩
      exact ⟨⟨⟨⟨⟨⟨⟨⟨⟨h1, h1'⟩, h2⟩, h3⟩, h4⟩, h5⟩, h6⟩, h7⟩, h8⟩, h9⟩
  have opt : ∀ c : CableComponent, (open Classical in if c.Enabled then c.validate.2 else []) = [] ↔
      ((∃ a ∈ c.creep, a ≠ 0) → (∃ a ∈ c.loadStrain, a ≠ 0) → ComponentInRange c) := by
    intro c
    by_cases h : c.Enabled
    · rw [if_pos h, comp]
      exact ⟨fun a _ _ => a, fun a => a h.1 h.2⟩
    · rw [if_neg h]
      exact ⟨fun _ h1 h2 => absurd ⟨h1, h2⟩ h, fun _ => rfl⟩
  unfold Cable.validateSagTension Cable.validate
  simp only [List.isEmpty_iff, List.append_eq_nil_iff, empty_if, not_lt, not_le, opt]
  tauto

/-- C163: cable states; of a stretch state the load alone decides (see C78). -/
theorem C163_states (s : CableState) (t : CableStretchState) :
    (s.validate.1 = true ↔ -100 ≤ s.temperature ∧ s.type ≠ .null) ∧ (t.validate.1 = true ↔ 0 ≤ t.load) := by
  unfold CableState.validate CableStretchState.validate
  simp only [List.isEmpty_iff, List.append_eq_nil_iff, empty_if, not_lt]
  simp

/-- C163: thermal rating weather and cables. -/
theorem C163_thermal (w : ThermalWeather) (k : Cable) :
    (w.validate.1 = true ↔ 0 ≤ w.angleWind ∧ w.angleWind ≤ 90 ∧ 0 ≤ w.elevation ∧ 0 ≤ w.radiationSolar ∧
      0 ≤ w.speedWind ∧ -100 ≤ w.temperatureAir ∧ w.temperatureAir ≤ 100) ∧
    (k.validateThermal.1 = true ↔ 0 ≤ k.areaPhysical ∧ 0 < k.diameter ∧ 0 < k.weightUnit ∧
      0 ≤ k.absorptivity ∧ k.absorptivity ≤ 1 ∧ 0 ≤ k.emissivity ∧ k.emissivity ≤ 1 ∧ 2 ≤ k.resistances.length ∧
      (∀ (i j : ℕ) (p q : ResistancePoint), i < j → k.resistances[i]? = some p → k.resistances[j]? = some q →
        p.temperature < q.temperature) ∧ 0 ≤ k.core.capacityHeat ∧ 0 ≤ k.shell.capacityHeat) := by
  have hp : k.resistances.Pairwise (fun p q => p.temperature < q.temperature) ↔
      ∀ (i j : ℕ) (p q : ResistancePoint), i < j → k.resistances[i]? = some p → k.resistances[j]? = some q →
        p.temperature < q.temperature := by
    rw [List.pairwise_iff_getElem]
    constructor
    · intro h i j p q hij hi hj
      obtain ⟨a, rfl⟩ := List.getElem?_eq_some_iff.1 hi
      obtain ⟨b, rfl⟩ := List.getElem?_eq_some_iff.1 hj
      exact h i j a b hij
    · intro h i j hi hj hij
      exact h i j _ _ hij (List.getElem?_eq_getElem hi) (List.getElem?_eq_getElem hj)
  rw [w.validate_iff, k.validateThermal_iff, hp]
  constructor <;> tauto

/-- C163: cylinders, and the unit load solver with a diameter and a weight. -/
theorem C163_cylinder (c : Cylinder) (d w : ℝ) :
    (c.validate.1 = true ↔ 0 < c.diameter ∧ 0 < c.length) ∧
    ((⟨some d, some w⟩ : UnitLoadSolver).validate = true ↔ 0 < d ∧ 0 < w) := by
  unfold Cylinder.validate UnitLoadSolver.validate
  simp

/-- A cable of which only the shell takes part in elongation is accepted whatever its core says. -/
example : (⟨1, 1, ⟨1, 7, [], [], -1, -1, -1, -1, -1, -1⟩, exComponent 1 1, 1, 1, [], 100, 0, 1⟩ : Cable).validateSagTension.1 =
    true := by
  rw [C163_sag_tension]
  refine ⟨by norm_num, by norm_num, by norm_num, by norm_num, le_rfl, fun h => ?_, fun _ _ => ?_⟩
  · obtain ⟨a, ha, -⟩ := h
    simp at ha
  · constructor <;> norm_num [exComponent]

end Verif.Props
