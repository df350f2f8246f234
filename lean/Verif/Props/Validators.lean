import Verif.LineGeometryLemmas
import Verif.LineValidate
import Verif.TransmissionLineLemmas
import Verif.Props.LineGeometry
import Verif.Props.LocatorExample
import Verif.Props.LineLoader
import Verif.Props.TransmissionLine
import Verif.LineSagger
import Verif.Locator
import Verif.SagCorrector
import Verif.ThermalSolvers
import Verif.Sagging

/-! # Properties of the validators (C78, C80, C126, C127) -/

set_option linter.unusedSectionVars false

namespace Verif.Props

open Verif

/-! ## C78 -/

/-- A validator's result: accepted exactly if no error is reported. -/
def Honest (r : Bool × List String) : Prop := r.1 = true ↔ r.2 = []

/-- A rejection comes with a reason. -/
def Explained (r : Bool × List String) : Prop := r.1 = false → r.2 ≠ []

theorem Honest.explained {r : Bool × List String} (h : Honest r) : Explained r := by
  intro h1 h2
  rw [h.mpr h2] at h1
  cases h1

theorem honest_self (m : List String) : Honest (m.isEmpty, m) := by
  unfold Honest; cases m <;> simp

theorem honest_join {a b : Bool × List String} (ha : Honest a) (hb : Honest b) : Honest (a.1 && b.1, a.2 ++ b.2) := by
  unfold Honest at *
  simp only [Bool.and_eq_true, List.append_eq_nil_iff, ha, hb]

theorem explained_join {a b : Bool × List String} (ha : Explained a) (hb : Explained b) :
    Explained (a.1 && b.1, a.2 ++ b.2) := by
  unfold Explained at *
  simp only [Bool.and_eq_false_iff, ne_eq, List.append_eq_nil_iff, not_and_or]
  exact fun h => h.elim (fun h => .inl (ha h)) fun h => .inr (hb h)

theorem honest_all {α : Type} (f : α → Bool × List String) {l : List α} (h : ∀ x ∈ l, Honest (f x)) :
    Honest (l.all fun x => (f x).1, l.flatMap fun x => (f x).2) := by
  unfold Honest at *
  simp only [List.all_eq_true, List.flatMap_eq_nil_iff]
  exact forall₂_congr h

theorem explained_all {α : Type} (f : α → Bool × List String) {l : List α} (h : ∀ x ∈ l, Explained (f x)) :
    Explained (l.all fun x => (f x).1, l.flatMap fun x => (f x).2) := by
  intro h1 h2
  rw [List.flatMap_eq_nil_iff] at h2
  rw [List.all_eq_false] at h1
  obtain ⟨x, hx, h1⟩ := h1
  exact h x hx (by simpa using h1) (h2 x hx)

theorem honest_weather (c : Option WeatherLoadCase) (m : String) : Honest (validateWeather c m) := by
  cases c with
  | none => simp [Honest, validateWeather]
  | some c => exact honest_self _

theorem honest_constraint (c : CableConstraint) : Honest c.validate :=
  honest_join (honest_weather _ _) (honest_self _)

theorem honest_cable (k : Cable) : Honest k.validate := honest_self _

theorem honest_optional (c : Option Cable) : Honest (SectionCable.validateCable c) := by
  cases c with
  | none => simp [Honest, SectionCable.validateCable]
  | some k => exact honest_cable k

theorem honest_members (c : SectionCable) : Honest c.validateMembers :=
  honest_join (honest_join (honest_join (honest_join (honest_optional _) (honest_constraint _)) (honest_self _))
    (honest_weather _ _)) (honest_weather _ _)

theorem honest_slot (h : Option Hardware) (n : HardwareNumbers) : Honest (Hardware.validateSlot h n) := by
  cases h with
  | none => simp [Honest, Hardware.validateSlot]
  | some h => exact honest_self _

theorem honest_hardware (n : ℕ → HardwareNumbers) (hs : List (Option Hardware)) :
    ∀ i, Honest (LineStructure.validateHardware n i hs) := by
  induction hs with
  | nil => intro i; simp [Honest, LineStructure.validateHardware]
  | cons h hs ih => exact fun i => honest_join (honest_slot _ _) (ih _)

theorem honest_alignment (ps : List (AlignmentPoint ℝ)) : Honest (Alignment.validate ps) :=
  honest_all _ fun _ _ => honest_self _

theorem honest_early {m : List String} {r : Bool × List String} (hr : Honest r) :
    Honest (if m.isEmpty = false then (false, m) else (r.1, m ++ r.2)) := by
  cases m with
  | nil => simpa [Honest] using hr
  | cons a m => simp [Honest]

theorem honest_catenary2d (k : Catenary2d) : Honest k.validate :=
  honest_early (by unfold Catenary2d.validateCurveAndSpacing Honest; split_ifs <;> simp)

theorem honest_catenary3d (k : Catenary3d) : Honest k.validate := honest_early (honest_catenary2d _)

/-- C78 is false for a structure: an attachment above the top is reported, and the structure is accepted. -/
theorem C78_structure_fails : ∃ t : Structure ℝ, t.validate = (true, ["Invalid vertical offset from top of structure"]) :=
  ⟨⟨[⟨0, 0, -5⟩], 40⟩, by simp [Structure.validate, Structure.exceeding, StructureAttachment.validate]; norm_num⟩

theorem hung_members : exHung.validateMembers = (true, []) := by
  have h := honest_members exHung
  have : exHung.validateMembers.2 = [] := by
    simp [SectionCable.validateMembers, SectionCable.validateCable, exHung, hookeCable, Cable.validate,
      CableConstraint.validate, validateWeather, exCalm, WeatherLoadCase.validate]
    norm_num
  exact Prod.ext (h.mpr this) this

theorem hung_accepted (heap : Heap ℝ) : exHung.validate heap = .val (true, ["Not enough connections"]) := by
  have hv : (levelSpan 100 1 70).validate.1 = true := level_valid (by norm_num) (by norm_num) (by norm_num)
  unfold SectionCable.validate
  rw [hung_members]
  simp only [Bool.true_eq_false, if_false]
  rw [exHung_ruling]
  simp [SectionCable.validateConnections, exHung, hv, (honest_catenary3d _).mp hv]

/-- C78 is false for a line cable: one without connections is reported and accepted. -/
theorem C78_line_cable_fails (heap : Heap ℝ) : ∃ c : SectionCable, c.connections = [] ∧
    c.validate heap = .val (true, ["Not enough connections"]) := ⟨exHung, rfl, hung_accepted heap⟩

/-- C78 is false for a stretch state: an unknown polynomial type and a temperature below -100 are reported and
accepted. -/
theorem C78_stretch_fails : ∃ s : CableStretchState, s.validate = (true, ["Invalid temperature", "Invalid polynomial type"]) :=
  ⟨⟨-200, .null, 0⟩, by simp [CableStretchState.validate, CableState.validate, CableStretchState.base]; norm_num⟩

/-- C78, what holds of a structure: it reports attachments above its top and accepts; every other report rejects. -/
theorem C78_structure_partial (t : Structure ℝ) : Explained t.validate ∧
    (t.validate.1 = true ↔ ∀ x ∈ t.validate.2, x = "Invalid vertical offset from top of structure") ∧
    ((∀ a ∈ t.attachments, 0 ≤ a.offsetVerticalTop) → Honest t.validate) := by
  have key : ∀ as : List (StructureAttachment ℝ), ∀ x ∈ as.flatMap (fun a => a.validate.2),
      x = "Invalid vertical offset from top of structure" := by
    intro as x hx
    rw [List.mem_flatMap] at hx
    obtain ⟨a, -, hx⟩ := hx
    unfold StructureAttachment.validate at hx
    split_ifs at hx <;> simp at hx
    exact hx
  have exc : t.exceeding = [] ∨ ∃ x ∈ t.exceeding, x = "Invalid attachment vertical offset. Exceeds structure height" := by
    cases h : t.exceeding with
    | nil => exact .inl rfl
    | cons x xs =>
      refine .inr ⟨x, by simp, ?_⟩
      have : x ∈ t.exceeding := by simp [h]
      unfold Structure.exceeding at this
      rw [List.mem_flatMap] at this
      obtain ⟨a, -, hx⟩ := this
      split_ifs at hx <;> simp at hx
      exact hx
  have e1 : t.validate.1 = true ↔ t.attachments.length ≠ 0 ∧ ¬ t.height ≤ 0 ∧ t.exceeding = [] := by
    simp [Structure.validate, and_assoc]
  have e2 : t.validate.2 = (if t.attachments.length = 0 then ["No attachments defined"]
    else t.attachments.flatMap fun a => a.validate.2) ++ (if t.height ≤ 0 then ["Invalid height"] else []) ++
      t.exceeding := rfl
  have main : t.validate.1 = true ↔ ∀ x ∈ t.validate.2, x = "Invalid vertical offset from top of structure" := by
    rw [e1, e2]
    constructor
    · rintro ⟨h1, h2, h3⟩
      rw [if_neg h1, if_neg h2, h3]
      simpa using key t.attachments
    · intro h
      refine ⟨fun h1 => ?_, fun h2 => ?_, ?_⟩
      · rw [if_pos h1] at h
        exact absurd (h "No attachments defined" (by simp)) (by decide)
      · rw [if_pos h2] at h
        exact absurd (h "Invalid height" (by simp)) (by decide)
      · rcases exc with h3 | ⟨x, hx, rfl⟩
        · exact h3
        · exact absurd (h _ (List.mem_append_right _ hx)) (by decide)
  refine ⟨fun h1 h2 => ?_, main, fun ha => ?_⟩
  · rw [h2] at main
    rw [main.mpr (by simp)] at h1
    cases h1
  · refine ⟨fun h => ?_, fun h => ?_⟩
    · obtain ⟨h1, h2, h3⟩ := e1.mp h
      rw [e2, if_neg h1, if_neg h2, h3]
      simp only [List.append_nil, List.flatMap_eq_nil_iff]
      intro a hm
      have := ha a hm
      unfold StructureAttachment.validate
      rw [if_neg (by linarith)]
    · rw [main, h]; simp

example : ∃ t : Structure ℝ, (∀ a ∈ t.attachments, 0 ≤ a.offsetVerticalTop) ∧ t.attachments.length = 2 ∧
    t.validate = (true, []) :=
  ⟨⟨[⟨0, 0, 5⟩, ⟨0, 2, 0⟩], 40⟩, by simp, rfl, by
    simp [Structure.validate, Structure.exceeding, StructureAttachment.validate]; norm_num⟩

/-- C78, what holds of a stretch state: it is accepted exactly if its load is not negative, and with a valid state
exactly if nothing is reported. -/
theorem C78_stretch_partial (s : CableStretchState) : Explained s.validate ∧
    (s.base.validate.1 = true → Honest s.validate) := by
  have h := honest_self (if s.load < 0 then ["Invalid stretch load"] else [])
  refine ⟨fun h1 h2 => ?_, fun hb => ?_⟩
  · have : s.validate.2 = s.base.validate.2 ++ _ := rfl
    rw [this, List.append_eq_nil_iff] at h2
    exact h.explained h1 h2.2
  · have hs : s.base.validate.2 = [] := (honest_self _).mp hb
    unfold CableStretchState.validate
    rw [hs]
    exact h

example : (⟨60, .creep, 100⟩ : CableStretchState).base.validate.1 = true := by
  simp [CableState.validate, CableStretchState.base]; norm_num

/-- The reports of a line cable that do not reject it. -/
def connectionReports : List String :=
  ["Not enough connections", "Terminal line cable connection does not have dead-end type hardware",
    "Interior line cable connection does not have suspension type hardware"]

theorem connection_messages {heap : Heap ℝ} {n : ℕ} : ∀ {cs : List Connection} {i : ℕ} {m : List String},
    SectionCable.connectionMessages heap n i cs = .val m → ∀ x ∈ m, x ∈ connectionReports := by
  intro cs
  induction cs with
  | nil => intro i m h; cases h; simp
  | cons c cs ih =>
    intro i m h
    unfold SectionCable.connectionMessages at h
    cases hh : SectionCable.hardwareOf heap c with
    | throws => rw [hh] at h; cases h
    | ub => rw [hh] at h; cases h
    | val t =>
      rw [hh] at h
      cases hr : SectionCable.connectionMessages heap n (i + 1) cs with
      | throws => rw [hr] at h; cases h
      | ub => rw [hr] at h; cases h
      | val ms =>
        rw [hr] at h
        cases h
        intro x hx
        rw [List.mem_append] at hx
        rcases hx with hx | hx
        · split_ifs at hx <;> simp at hx <;> subst hx <;> decide
        · exact ih hr x hx

theorem connections_reports {heap : Heap ℝ} {cs : List Connection} {r : Bool × List String}
    (h : SectionCable.validateConnections heap cs = .val r) : ∀ x ∈ r.2, x ∈ connectionReports := by
  unfold SectionCable.validateConnections at h
  split at h
  · cases h; simp [connectionReports]
  · split at h
    · rename_i m hm; cases h; exact connection_messages hm
    · cases h
    · cases h

/-- C78, what holds of a line cable: a rejection is explained, and if the connections give no report it is accepted
exactly if nothing is reported. -/
theorem C78_line_cable_partial {heap : Heap ℝ} {c : SectionCable} {r : Bool × List String}
    (h : c.validate heap = .val r) : Explained r ∧
    (r.1 = true → ∀ x ∈ r.2, x ∈ connectionReports) ∧
    (∀ b, SectionCable.validateConnections heap c.connections = .val (b, []) → Honest r) := by
  have hm := honest_members c
  unfold SectionCable.validate at h
  simp only at h
  split at h
  · rename_i h0
    cases h
    refine ⟨hm.explained, fun h1 => ?_, fun _ _ => hm⟩
    rw [h1] at h0; cases h0
  · rename_i h0
    have hm1 : c.validateMembers.1 = true := by simpa using h0
    have hm2 := hm.mp hm1
    split at h
    · rename_i k hk
      split at h
      · rename_i m hc
        cases h
        have hk := honest_catenary3d k
        rw [hm2]
        refine ⟨fun h1 h2 => ?_, fun h1 => ?_, fun b hb => ?_⟩
        · rw [List.nil_append, List.append_eq_nil_iff] at h2
          exact hk.explained h1 h2.1
        · rw [hk.mp h1]
          simpa using connections_reports hc
        · rw [hb] at hc
          cases hc
          simpa using hk
      · cases h
      · cases h
    · cases h
    · cases h

/-- Attachments of a structure are below its top. -/
def BelowTop (s : LineStructure ℝ) : Prop := ∀ t, s.base = some t → ∀ a ∈ t.attachments, 0 ≤ a.offsetVerticalTop

/-- C78, what holds of a line structure. -/
theorem C78_line_structure_partial (n : ℕ → HardwareNumbers) (s : LineStructure ℝ) : Explained (s.validate n) ∧
    (BelowTop s → Honest (s.validate n)) := by
  have hb : Explained (LineStructure.validateBase s.base) ∧
      (BelowTop s → Honest (LineStructure.validateBase s.base)) := by
    cases h : s.base with
    | none => simp [Honest, Explained, LineStructure.validateBase]
    | some t => exact ⟨(C78_structure_partial t).1, fun hs => (C78_structure_partial t).2.2 (hs t h)⟩
  have ha := honest_join (honest_hardware n s.hardwares 0) (honest_self
    ((if s.heightAdjustment < 0 then ["Invalid height adjustment"] else []) ++
      (if 360 < |s.rotation| then ["Invalid rotation"] else []) ++
      (if s.station < 0 then ["Invalid station"] else [])))
  exact ⟨explained_join ha.explained hb.1, fun h => honest_join ha (hb.2 h)⟩

theorem cables_reports {heap : Heap ℝ} : ∀ {cs : List SectionCable} {r : Bool × List String},
    GLine.validateCables heap cs = .val r → Explained r ∧
    ((∀ c ∈ cs, ∃ b, SectionCable.validateConnections heap c.connections = .val (b, [])) → Honest r) := by
  intro cs
  induction cs with
  | nil => intro r h; cases h; simp [Honest, Explained]
  | cons c cs ih =>
    intro r h
    unfold GLine.validateCables at h
    split at h
    · rename_i a hc
      split at h
      · rename_i b hr
        cases h
        obtain ⟨h1, -, h2⟩ := C78_line_cable_partial hc
        refine ⟨explained_join h1 (ih hr).1, fun hq => ?_⟩
        obtain ⟨b', hb'⟩ := hq c (by simp)
        exact honest_join (h2 b' hb') ((ih hr).2 fun c' h' => hq c' (by simp [h']))
      · cases h
      · cases h
    · cases h
    · cases h

/-- C78, what holds of a transmission line: a rejection is explained, and if attachments are below the tops of their
structures and connections give no report the line is accepted exactly if nothing is reported.  Missing from the full
statement: those two kinds of reports (`C78_structure_fails`, `C78_line_cable_fails`, `C78_line_fails`). -/
theorem C78_partial {ext : Heap ℝ} {m : LineMembers} {g g' : GLine} {r : Bool × List String}
    (h : g.validate ext m = .ok g' r) : Explained r ∧
    ((∀ e ∈ g.line.structures, BelowTop e.2) →
      (∀ k ∈ g.line.cables, ∃ b, SectionCable.validateConnections (g.line.heap ext) k.connections = .val (b, [])) →
      Honest r) := by
  unfold GLine.validate at h
  simp only at h
  split at h
  · cases h
  · cases h
  · rename_i c hc
    split at h
    · rename_i g1 u hu
      cases h
      obtain ⟨q1, q2⟩ := cables_reports hc
      have ha := honest_alignment g.line.alignment
      have hu : Honest (u, if u = true then [] else ["Error updating class"]) := by
        unfold Honest; cases u <;> simp
      refine ⟨explained_join (explained_join (explained_join ha.explained
        (explained_all _ fun e _ => (C78_line_structure_partial _ e.2).1)) q1) hu.explained, fun h1 h2 => ?_⟩
      refine honest_join (honest_join (honest_join ha
        (honest_all _ fun e he => (C78_line_structure_partial _ e.2).2 (h1 e he))) (q2 ?_)) hu
      intro c hc
      rw [List.mem_map] at hc
      obtain ⟨k, hk, rfl⟩ := hc
      exact h2 k hk
    · cases h
    · cases h

/-! ## C126 -/

theorem hardware_known {g : GLine} (hr : GLine.Reachable g) (ext : Heap ℝ) {k : LineCable} (hk : k ∈ g.line.cables)
    {c : Connection} (hc : c ∈ k.connections) : ∃ t, SectionCable.hardwareOf (g.line.heap ext) c = .val t := by
  obtain ⟨s, h1, h2, hw, h3⟩ := C14_no_dangling_connection hr.line k hk c hc
  have hl : g.line.heap ext c.ptr = some s := by
    unfold Line.heap
    rw [Line.lookup_of_mem hr.line.inv.core.nodup h1]
  refine ⟨hw.type, ?_⟩
  unfold SectionCable.hardwareOf
  rw [hl]
  have hlen : c.attachment.toNat < s.hardwares.length := by
    by_contra hn
    rw [List.getElem?_eq_none (by omega)] at h3
    cases h3
  simp only
  rw [if_pos (by rw [validIndex_iff]; omega), h3]

theorem connection_messages_val {heap : Heap ℝ} {n : ℕ} : ∀ {cs : List Connection} {i : ℕ},
    (∀ c ∈ cs, ∃ t, SectionCable.hardwareOf heap c = .val t) →
    ∃ m, SectionCable.connectionMessages heap n i cs = .val m := by
  intro cs
  induction cs with
  | nil => exact fun _ => ⟨_, rfl⟩
  | cons c cs ih =>
    intro i h
    obtain ⟨t, ht⟩ := h c (by simp)
    obtain ⟨m, hm⟩ := ih (i := i + 1) fun c hc => h c (by simp [hc])
    unfold SectionCable.connectionMessages
    rw [ht]
    simp only
    rw [hm]
    exact ⟨_, rfl⟩

theorem connections_val {heap : Heap ℝ} {cs : List Connection}
    (h : ∀ c ∈ cs, ∃ t, SectionCable.hardwareOf heap c = .val t) :
    ∃ r, SectionCable.validateConnections heap cs = .val r := by
  unfold SectionCable.validateConnections
  split
  · exact ⟨_, rfl⟩
  · obtain ⟨m, hm⟩ := connection_messages_val (n := cs.length) (i := 0) h
    rw [hm]
    exact ⟨_, rfl⟩

/-- The ruling span of a line cable whose members are accepted is defined. -/
theorem ruling_defined {c : SectionCable} (h : c.validateMembers.1 = true) : ∃ k, c.catenaryRulingSpan = .val k := by
  obtain ⟨ck, cs, cq, sp, wc, wl⟩ := c
  obtain ⟨w, cond, lim, ty⟩ := cq
  unfold SectionCable.validateMembers at h
  simp only [Bool.and_eq_true] at h
  obtain ⟨⟨⟨⟨h1, h2⟩, -⟩, -⟩, -⟩ := h
  cases ck with
  | none => cases h1
  | some ck =>
    cases w with
    | none => simp [CableConstraint.validate, validateWeather] at h2
    | some w => exact ⟨_, rfl⟩

/-- Validating a line cable whose connections are known returns. -/
theorem line_cable_val {heap : Heap ℝ} {c : SectionCable}
    (h : ∀ x ∈ c.connections, ∃ t, SectionCable.hardwareOf heap x = .val t) : ∃ r, c.validate heap = .val r := by
  unfold SectionCable.validate
  simp only
  split
  · exact ⟨_, rfl⟩
  · rename_i h0
    obtain ⟨k, hk⟩ := ruling_defined (c := c) (by simpa using h0)
    obtain ⟨r, hr⟩ := connections_val h
    rw [hk]
    simp only
    rw [hr]
    exact ⟨_, rfl⟩

theorem cables_val {heap : Heap ℝ} : ∀ {cs : List SectionCable},
    (∀ c ∈ cs, ∀ x ∈ c.connections, ∃ t, SectionCable.hardwareOf heap x = .val t) →
    ∃ r, GLine.validateCables heap cs = .val r := by
  intro cs
  induction cs with
  | nil => exact fun _ => ⟨_, rfl⟩
  | cons c cs ih =>
    intro h
    obtain ⟨a, ha⟩ := line_cable_val (h c (by simp))
    obtain ⟨b, hb⟩ := ih fun c hc => h c (by simp [hc])
    unfold GLine.validateCables
    rw [ha]
    simp only
    rw [hb]
    exact ⟨_, rfl⟩

theorem update_val {g : GLine} (hr : GLine.Reachable g) (h : g.line.structures = [] ∨ 2 ≤ g.line.alignment.length) :
    ∃ g', g.update = .ok g' true ∧ g'.line = g.line := by
  have hs : g.scratchS.2 = .val () := by
    rcases h with h | h
    · unfold GLine.scratchS GLine.stations
      rw [h]
      rfl
    · exact (Geo.structuresLoop_ok g.origin hr.line.inv.align h g.stations).1
  rcases GLine.update_cases hr.cinv with ⟨-, g', h1, h2, -⟩ | ⟨h1, -⟩ | ⟨h1, -⟩
  · exact ⟨g', h1, h2⟩
  · rw [hs] at h1; cases h1
  · rw [hs] at h1; cases h1

/-- C126, what holds: validating a line built through the API returns, whatever the members of its cables and hardware
are, if it has two alignment points or no structures.  Missing from the full statement: lines with structures and one
alignment point (`C126_fails`). -/
theorem C126_partial {g : GLine} (hr : GLine.Reachable g) (ext : Heap ℝ) (m : LineMembers)
    (h : g.line.structures = [] ∨ 2 ≤ g.line.alignment.length) :
    ∃ g' r, g.validate ext m = .ok g' r ∧ g'.line = g.line := by
  obtain ⟨c, hc⟩ := cables_val (heap := g.line.heap ext) (cs := g.line.cables.map m.whole) (by
    intro c hc x hx
    rw [List.mem_map] at hc
    obtain ⟨k, hk, rfl⟩ := hc
    exact hardware_known hr ext hk hx)
  obtain ⟨g', hg, hl⟩ := update_val hr h
  unfold GLine.validate
  simp only
  rw [hc, hg]
  exact ⟨_, _, rfl, hl⟩

/-- Members for the example route. -/
noncomputable def exMembers : LineMembers := ⟨fun _ _ => ⟨1, 1, 1⟩, fun _ => exHung⟩

example : GLine.Reachable (exRoute 20 0) ∧ (exRoute 20 0).line.cables.length = 1 ∧
    2 ≤ (exRoute 20 0).line.alignment.length := ⟨exRoute_reachable 20 0, rfl, by simp [exRoute]⟩

/-- A pole at a station whose attachment has the given vertical offset. -/
noncomputable def exMast (t z : ℝ) : LineStructure ℝ := ⟨[none], 0, 0, 0, t, some ⟨[⟨0, 0, z⟩], 50⟩⟩

theorem exMast_reachable (t z : ℝ) : LineStructure.Reachable (exMast t z) := by
  have h0 := LineStructure.Reachable.new (0 : ℝ)
  have h1 := h0.step (s' := ⟨[none], 0, 0, 0, 0, some ⟨[⟨0, 0, z⟩], 50⟩⟩) (.setStructure (some ⟨[⟨0, 0, z⟩], 50⟩))
    (by simp [LineStructure.Op.apply, LineStructure.setStructure, LineStructure.new, LineStructure.resize, Outcome.state?])
  exact h1.step (.setStation t) rfl

/-- C126 is false as stated: validating a line with one alignment point and a structure there throws. -/
theorem C126_fails (m : LineMembers) : ∃ g g' : GLine, GLine.Reachable g ∧ g.line.alignment.length = 1 ∧
    g.line.structures.length = 1 ∧ g.validate noHeap m = .throws g' := by
  have r0 : GLine.Reachable GLine.new := ⟨[], .nil _⟩
  have r2 := reachable_step r0 (g' := ⟨⟨[⟨0, 0, 0⟩], [], []⟩, P3.default, false, false, [], []⟩)
    (.edit noHeap (.addAlignmentPoint ⟨0, 0, 0⟩)) trivial
    (by simp [GLine.Event.next, GLine.edit, Line.Op.apply, Line.addAlignmentPoint, Alignment.addPoint, searchPos,
      GLine.new, Line.empty, Line.wrap, GLine.edited, GLine.resets, Outcome.state?])
  have r3 := reachable_step r2 (g' := ⟨⟨[⟨0, 0, 0⟩], [(1, exMast 0 3)], []⟩, P3.default, false, false, [], []⟩)
    (.edit noHeap (.addLineStructure 1 (exMast 0 3)))
    ⟨by decide, by simp, exMast_reachable _ _⟩
    (by simp [GLine.Event.next, GLine.edit, Line.Op.apply, Line.addLineStructure, Alignment.isValidStation, searchPos,
      Line.wrap, GLine.edited, GLine.resets, Outcome.state?, exMast])
  refine ⟨_, ⟨⟨[⟨0, 0, 0⟩], [(1, exMast 0 3)], []⟩, P3.default, true, false, [P3.default], []⟩, r3, rfl, rfl, ?_⟩
  unfold GLine.validate
  simp [GLine.validateCables, GLine.update, GLine.updateA, GLine.stations, Geo.structuresLoop, Geo.fromStation,
    Geo.pointsAlignment, Geo.alignmentLoop, exMast, Alignment.indexSegment, Alignment.isValidStation]

/-- C78 is false for a transmission line built through the API: it is accepted although it reports an error. -/
theorem C78_line_fails (m : LineMembers) : ∃ g g' : GLine, GLine.Reachable g ∧
    g.validate noHeap m = .ok g' (true, ["Invalid vertical offset from top of structure"]) := by
  have hg : GLine.Reachable ⟨⟨exLine.alignment, [(1, exMast 50 (-3))], []⟩, ⟨0, 0, 0⟩, false, false, [], []⟩ := by
    refine reachable_step ⟨_, exEdits_runs⟩ (.edit noHeap (.addLineStructure 1 (exMast 50 (-3))))
      ⟨by decide, by simp [exLine], exMast_reachable _ _⟩ ?_
    have h1 : (0 : ℝ) ≤ 50 ∧ (50 : ℝ) ≤ 100 := by norm_num
    simp [GLine.Event.next, GLine.edit, Line.Op.apply, Line.addLineStructure, exLine, Alignment.isValidStation,
      exMast, searchPos, Line.wrap, GLine.edited, GLine.resets, Outcome.state?, h1]
  obtain ⟨g', hu, -⟩ := update_val hg (.inr (by simp [exLine]))
  refine ⟨_, g', hg, ?_⟩
  unfold GLine.validate
  simp only [hu, GLine.validateCables, List.map_nil]
  have h1 : Alignment.validate exLine.alignment = (true, []) := by
    simp [Alignment.validate, exLine, AlignmentPoint.validate]
  have h2 : GLine.validateStructures m [(1, exMast 50 (-3))] =
      (true, ["Invalid vertical offset from top of structure"]) := by
    simp [GLine.validateStructures, exMast, LineStructure.validate, LineStructure.validateHardware,
      Hardware.validateSlot, LineStructure.validateBase, Structure.validate, Structure.exceeding,
      StructureAttachment.validate]
    norm_num
  rw [h1, h2]
  simp

/-! ## C127 -/

/-- What is known of an accepted structure. -/
structure StructureInRange (n : ℕ → HardwareNumbers) (s : LineStructure ℝ) : Prop where
  adjustment : 0 ≤ s.heightAdjustment
  rotation : |s.rotation| ≤ 360
  station : 0 ≤ s.station
  hardware : ∀ i h, s.hardwares[i]? = some (some h) →
    h.type ≠ .null ∧ 0 ≤ (n i).area ∧ 0 ≤ (n i).length ∧ 0 ≤ (n i).weight
  base : ∃ t, s.base = some t ∧ 0 < t.height ∧ t.attachments ≠ [] ∧ ∀ a ∈ t.attachments, a.offsetVerticalTop ≤ t.height

/-- What is known of an accepted weather case. -/
def WeatherInRange (w : Option WeatherLoadCase) : Prop :=
  ∃ c, w = some c ∧ 0 ≤ c.densityIce ∧ 0 ≤ c.pressureWind ∧ -50 ≤ c.temperatureCable ∧ 0 ≤ c.thicknessIce

/-- What is known of an accepted line cable; its ruling span is a valid catenary. -/
structure CableInRange (c : SectionCable) : Prop where
  cable : ∃ k, c.cable = some k ∧ 0 ≤ k.areaPhysical ∧ 0 < k.diameter ∧ 0 < k.weightUnit
  weather : WeatherInRange c.constraint.caseWeather ∧ WeatherInRange c.weatherCreep ∧ WeatherInRange c.weatherLoad
  constraint : c.constraint.condition ≠ .null ∧ 0 ≤ c.constraint.limit ∧ c.constraint.typeLimit ≠ .null
  spacing : 0 < c.spacing.x ∧ c.spacing.y = 0 ∧ |c.spacing.z| ≤ 2000
  ruling : ∃ k, c.catenaryRulingSpan = .val k ∧ k.validate.1 = true

theorem empty_if {p : Prop} [Decidable p] {s : String} : (if p then [s] else []) = [] ↔ ¬ p := by
  by_cases h : p <;> simp [h]

theorem weather_range {w : Option WeatherLoadCase} {m : String} (h : (validateWeather w m).1 = true) :
    WeatherInRange w := by
  cases w with
  | none => cases h
  | some c =>
    unfold validateWeather WeatherLoadCase.validate at h
    simp only [List.isEmpty_iff, List.append_eq_nil_iff, empty_if, not_lt] at h
    exact ⟨c, rfl, h.1.1.1, h.1.1.2, h.1.2, h.2⟩

theorem structure_range {n : ℕ → HardwareNumbers} {s : LineStructure ℝ} (h : (s.validate n).1 = true) :
    StructureInRange n s := by
  unfold LineStructure.validate at h
  simp only [Bool.and_eq_true, List.isEmpty_iff, List.append_eq_nil_iff, empty_if, not_lt] at h
  obtain ⟨⟨h1, ⟨h2, h3⟩, h4⟩, h5⟩ := h
  refine ⟨h2, h3, h4, ?_, ?_⟩
  · have gen : ∀ (hs : List (Option Hardware)) (j : ℕ), (LineStructure.validateHardware n j hs).1 = true →
        ∀ i h, hs[i]? = some (some h) →
          h.type ≠ .null ∧ 0 ≤ (n (j + i)).area ∧ 0 ≤ (n (j + i)).length ∧ 0 ≤ (n (j + i)).weight := by
      intro hs
      induction hs with
      | nil => intro j _ i h hi; simp at hi
      | cons x hs ih =>
        intro j hv i h hi
        unfold LineStructure.validateHardware at hv
        simp only [Bool.and_eq_true] at hv
        cases i with
        | zero =>
          simp only [List.getElem?_cons_zero, Option.some.injEq] at hi
          subst hi
          have := hv.1
          unfold Hardware.validateSlot Hardware.validate at this
          simp only [List.isEmpty_iff, List.append_eq_nil_iff, empty_if, not_lt] at this
          exact ⟨this.1.2, this.1.1.1, this.1.1.2, this.2⟩
        | succ i =>
          have := ih (j + 1) hv.2 i h (by simpa using hi)
          rwa [show j + 1 + i = j + (i + 1) by omega] at this
    intro i h hi
    simpa using gen s.hardwares 0 h1 i h hi
  · cases hb : s.base with
    | none => rw [hb] at h5; cases h5
    | some t =>
      rw [hb] at h5
      have h5 : t.validate.1 = true := h5
      unfold Structure.validate at h5
      simp only [Bool.and_eq_true, decide_eq_true_eq, List.isEmpty_iff, not_le] at h5
      obtain ⟨⟨a1, a2⟩, a3⟩ := h5
      refine ⟨t, rfl, a2, fun h => a1 (by rw [h]; rfl), fun a ha => ?_⟩
      unfold Structure.exceeding at a3
      rw [List.flatMap_eq_nil_iff] at a3
      have := a3 a ha
      rw [empty_if, not_lt] at this
      exact this

theorem cable_range {heap : Heap ℝ} {c : SectionCable} {r : Bool × List String} (h : c.validate heap = .val r)
    (hr : r.1 = true) : CableInRange c := by
  unfold SectionCable.validate at h
  simp only at h
  split at h
  · rename_i h0
    cases h
    rw [hr] at h0; cases h0
  · rename_i h0
    have hm : c.validateMembers.1 = true := by simpa using h0
    split at h
    · rename_i k hk
      split at h
      · rename_i m hc
        cases h
        unfold SectionCable.validateMembers at hm
        simp only [Bool.and_eq_true, List.isEmpty_iff, List.append_eq_nil_iff, empty_if, not_lt, not_le, ne_eq,
          not_not] at hm
        obtain ⟨⟨⟨⟨h1, h2⟩, ⟨h3, h4⟩, h5⟩, h6⟩, h7⟩ := hm
        unfold CableConstraint.validate at h2
        simp only [Bool.and_eq_true, List.isEmpty_iff, List.append_eq_nil_iff, empty_if, not_lt] at h2
        obtain ⟨g1, ⟨g2, g3⟩, g4⟩ := h2
        refine ⟨?_, ⟨weather_range g1, weather_range h6, weather_range h7⟩, ⟨g2, g3, g4⟩, ⟨h3, h4, h5⟩, k, hk, hr⟩
        cases hck : c.cable with
        | none => rw [hck] at h1; cases h1
        | some k =>
          rw [hck] at h1
          unfold SectionCable.validateCable Cable.validate at h1
          simp only [List.isEmpty_iff, List.append_eq_nil_iff, empty_if, not_lt, not_le] at h1
          exact ⟨k, rfl, h1.1.1, h1.1.2, h1.2⟩
      · cases h
      · cases h
    · cases h
    · cases h

theorem cables_range {heap : Heap ℝ} : ∀ {cs : List SectionCable} {r : Bool × List String},
    GLine.validateCables heap cs = .val r → r.1 = true → ∀ c ∈ cs, CableInRange c := by
  intro cs
  induction cs with
  | nil => simp
  | cons c cs ih =>
    intro r h hr
    unfold GLine.validateCables at h
    split at h
    · rename_i a hc
      split at h
      · rename_i b hb
        cases h
        rw [Bool.and_eq_true] at hr
        intro x hx
        rw [List.mem_cons] at hx
        rcases hx with rfl | hx
        · exact cable_range hc hr.1
        · exact ih hb hr.2 x hx
      · cases h
      · cases h
    · cases h
    · cases h

/-- C127: the members of an accepted line and of everything it refers to are in range. -/
theorem C127_in_range {ext : Heap ℝ} {m : LineMembers} {g g' : GLine} {msgs : List String}
    (h : g.validate ext m = .ok g' (true, msgs)) :
    (∀ p ∈ g.line.alignment, 0 ≤ p.elevation ∧ |p.rotation| ≤ 360 ∧ 0 ≤ p.station) ∧
    (∀ e ∈ g.line.structures, StructureInRange (m.hardware e.1) e.2) ∧
    ∀ k ∈ g.line.cables, CableInRange (m.whole k) := by
  unfold GLine.validate at h
  simp only at h
  split at h
  · cases h
  · cases h
  · rename_i c hc
    split at h
    · rename_i g1 u hu
      simp only [Outcome.ok.injEq, Prod.mk.injEq, Bool.and_eq_true] at h
      obtain ⟨-, ⟨⟨⟨h1, h2⟩, h3⟩, -⟩, -⟩ := h
      unfold Alignment.validate at h1
      unfold GLine.validateStructures at h2
      simp only [List.all_eq_true] at h1 h2
      refine ⟨fun p hp => ?_, fun e he => structure_range (h2 e he), fun k hk => ?_⟩
      · have := h1 p hp
        unfold AlignmentPoint.validate at this
        simp only [List.isEmpty_iff, List.append_eq_nil_iff, empty_if, not_lt] at this
        exact ⟨this.1.1, this.1.2, this.2⟩
      · exact cables_range hc h3 _ (List.mem_map_of_mem hk)
    · cases h
    · cases h

/-- The example route is accepted. -/
example : ∃ g', (exRoute 20 0).validate noHeap exMembers = .ok g' (true, []) := by
  obtain ⟨g', hu, -⟩ := update_val (exRoute_reachable 20 0) (.inr (by simp [exRoute]))
  refine ⟨g', ?_⟩
  have h1 : Alignment.validate (exRoute 20 0).line.alignment = (true, []) := by
    simp [Alignment.validate, exRoute, AlignmentPoint.validate]
  have h2 : GLine.validateStructures exMembers (exRoute 20 0).line.structures = (true, []) := by
    simp [GLine.validateStructures, exRoute, exPoles, exPole, exMembers, LineStructure.validate,
      LineStructure.validateHardware, Hardware.validateSlot, Hardware.validate, LineStructure.validateBase,
      Structure.validate, Structure.exceeding, StructureAttachment.validate]
  have h3 : GLine.validateCables ((exRoute 20 0).line.heap noHeap)
      ((exRoute 20 0).line.cables.map exMembers.whole) = .val (true, []) := by
    have hv : (levelSpan 100 1 70).validate.1 = true := level_valid (by norm_num) (by norm_num) (by norm_num)
    have hm : (exMembers.whole exStrung).validateMembers = (true, []) := hung_members
    have hs : (exMembers.whole exStrung).catenaryRulingSpan = .val (levelSpan 100 1 70) := exHung_ruling
    have hc : SectionCable.validateConnections ((exRoute 20 0).line.heap noHeap) exStrung.connections =
        .val (true, []) := by
      simp [SectionCable.validateConnections, SectionCable.connectionMessages, SectionCable.hardwareOf, exStrung,
        exRoute, exPoles, exPole, Line.heap, Line.lookup, validIndex]
    have hk : (exMembers.whole exStrung).validate ((exRoute 20 0).line.heap noHeap) = .val (true, []) := by
      unfold SectionCable.validate
      rw [hm]
      simp only [Bool.true_eq_false, if_false]
      rw [hs]
      have : (exMembers.whole exStrung).connections = exStrung.connections := rfl
      simp only [this, hc, hv, (honest_catenary3d _).mp hv, List.append_nil]
    show GLine.validateCables _ [exMembers.whole exStrung] = _
    unfold GLine.validateCables
    rw [hk]
    rfl
  unfold GLine.validate
  rw [h1, h2, h3, hu]
  rfl

/-! ## C80 -/

/-- C80 is false: validating a newly constructed steady temperature solver, sag corrector, equilibrium solver, position
locator or line cable sagger dereferences a null pointer, as does validating a reloader without a weather case, and a
strainer with lengths and loads but without models. -/
theorem C80_fails (heap : Heap ℝ) (as : Assemblies) (verdict : GLine → Bool) :
    TemperatureSolver.new.validate = .ub ∧ SagCorrector.new.validate heap = .ub ∧
    EquilibriumSolver.new.validate = .ub ∧ Locator.new.validate as verdict = .ub ∧
    Sagger.new.validate heap = .ub ∧
    (LineReloader.new.setLineCable (some exHung)).validate heap = .ub ∧
    (⟨100, 0, 50, none, none⟩ : CableStrainer).validate true = .ub := by
  refine ⟨rfl, rfl, rfl, rfl, rfl, ?_, ?_⟩
  · have hk : (hookeCable 1000000).validateSagTension.1 = true := hooke_valid.1
    have hb : (LineReloader.new.setLineCable (some exHung)).base.validMembers heap = .val true := by
      have : (LineReloader.new.setLineCable (some exHung)).base.lineCable = some exHung := rfl
      have hc : exHung.cable = some (hookeCable 1000000) := rfl
      unfold LineLoader.validMembers
      simp only [this, hc, hung_accepted heap, hk, Bool.and_self]
    obtain ⟨s', h1, -⟩ := hung_base (s := (LineReloader.new.setLineCable (some exHung)).base) rfl
    have hu : (LineReloader.new.setLineCable (some exHung)).update = .ub := by
      unfold LineReloader.update LineReloader.updateBase
      have : (LineReloader.new.setLineCable (some exHung)).base.isUpdated = false := rfl
      rw [this]
      simp only [Bool.false_eq_true, if_false]
      rw [h1]
      rfl
    unfold LineReloader.validate LineReloader.validateBase
    rw [hb]
    simp only [Run.ofRes, Run.bind, if_true, hu]
  · unfold CableStrainer.validate
    rw [if_neg (by norm_num)]

/-- C80, what holds: the unit load solver, the current and transient temperature solvers, the catenary and line cable
reloaders, the line cable unloader, the elongation model and the sagger reject missing inputs other than those of
`C80_fails`. -/
theorem C80_partial (heap : Heap ℝ) :
    (∀ s : UnitLoadSolver, s.diameterCable = none ∨ s.weightUnitCable = none → s.validate = false) ∧
    (∀ s : CurrentSolver, s.cable = none ∨ s.cable = some none ∨ s.weather = none ∨ s.units = .null →
      s.validate.2 = false) ∧
    (∀ s : TransientSolver, s.cable = none ∨ s.cable = some none ∨ s.weather = none ∨ s.units = .null →
      s.validate.2 = false) ∧
    (∀ s : TemperatureSolver, s.weather ≠ none → s.cable = none ∨ s.cable = some none ∨ s.units = .null →
      ∃ s', s.validate = .ok s' false) ∧
    (∀ r : CatenaryReloader, ∀ a b, CatenaryReloader.validModel r.modelReference = .val a →
      CatenaryReloader.validModel r.modelReloaded = .val b →
      r.catenary = none ∨ r.modelReference = none ∨ r.modelReloaded = none ∨ r.weight = none →
      r.validate = .ok r false) ∧
    (∀ s : LineReloader, s.base.lineCable = none → s.validate heap = .ok s false) ∧
    (∀ s : LineUnloader, s.base.lineCable = none → s.validate heap = .ok s false) ∧
    (∀ m : ElongationModel, ∀ w, m.cable = none → m.validate w = .ok m false) ∧
    (∀ s : Sagger, s.constraints ≠ none → s.lineCable = none → s.validate heap = .ok s false) := by
  refine ⟨?_, ?_, ?_, ?_, ?_, ?_, ?_, ?_, ?_⟩
  · rintro ⟨a, b⟩ (h | h) <;> simp only at h <;> subst h <;> simp [UnitLoadSolver.validate]
  · rintro s (h | h | h | h) <;> simp [CurrentSolver.validate, h]
  · rintro s (h | h | h | h) <;> simp [TransientSolver.validate, h, TransientSolver.update, heatValid]
  · rintro s hw h
    obtain ⟨w, hw⟩ := Option.ne_none_iff_exists'.mp hw
    have hu : ∃ s' b, s.update = .ok s' b := by
      unfold TemperatureSolver.update
      rw [hw]
      simp only
      split <;> exact ⟨_, _, rfl⟩
    obtain ⟨s', b, hu⟩ := hu
    refine ⟨s', ?_⟩
    unfold TemperatureSolver.validate
    rw [hu]
    rcases h with h | h | h <;> simp [h]
  · intro r a b ha hb h
    unfold CatenaryReloader.validate
    rw [ha, hb]
    simp only
    rw [if_neg]
    rcases h with h | h | h | h
    · simp [CatenaryReloader.validCatenary, h]
    · rw [h] at ha; cases ha; simp
    · rw [h] at hb; cases hb; simp
    · simp [CatenaryReloader.validWeight, h]
  · intro s h
    simp [LineReloader.validate, LineReloader.validateBase, LineLoader.validMembers, h, Run.ofRes, Run.bind]
  · intro s h
    simp [LineUnloader.validate, LineUnloader.validateBase, LineLoader.validMembers, h, Run.ofRes, Run.bind]
  · intro m w h
    simp [ElongationModel.validate, h]
  · intro s h1 h2
    obtain ⟨qs, hq⟩ := Option.ne_none_iff_exists'.mp h1
    simp [Sagger.validate, Sagger.validMembers, hq, h2, Run.ofRes, Run.bind]

/-- A catenary reloader with a span and models but without a weight is rejected. -/
example : CatenaryReloader.validate ⟨some (levelSpan 100 1 70), some (hookeModel 1000000), some (hookeModel 1000000),
      none, .new, .new, false⟩ =
    .ok ⟨some (levelSpan 100 1 70), some (hookeModel 1000000), some (hookeModel 1000000), none, .new, .new, false⟩
      false := by
  have h : CatenaryReloader.validModel (some (hookeModel 1000000)) = .val true :=
    hooke_accepts (by norm_num) rfl (good_flags_false (ElongationModel.attach_att (hookeCable 1000000)
      ElongationModel.new (hookeCable 1000000) rfl) rfl rfl) (by simp [hookeModel, ElongationModel.setState])
      hooke_valid.2.1 rfl
  exact (C80_partial noHeap).2.2.2.2.1 _ true true h h (.inr (.inr (.inr rfl)))

end Verif.Props
