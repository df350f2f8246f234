import Verif.Props.NotANumber
import Verif.TransmissionLineLemmas
import Verif.SectionCable
import Verif.StructureValidate

/-!
# Lines and validators that are given numbers only
-/

set_option linter.unusedSectionVars false

namespace Verif.Props

open Verif Verif.NotANumber

section Line
variable {K : Type} [Field K] [LinearOrder K] [IsStrictOrderedRing K]

/-- What the model with NaN sees of a line: the points and the stations of the structures. -/
def numberLine (l : Verif.Line K) : NotANumber.Line K :=
  ⟨l.alignment.map numberPoint, l.structures.map fun e => some e.2.station⟩

theorem searchPos_nodes (x : K) (ss : List (Ptr × LineStructure K)) :
    NotANumber.searchPos id (some x) (ss.map fun e => some e.2.station)
      = Verif.searchPos (fun e : Ptr × LineStructure K => e.2.station) x ss := by
  induction ss with
  | nil => rfl
  | cons q qs ih =>
    show (if NotANumber.lt (some x) (some q.2.station) then some 0
      else if NotANumber.same (some x) (some q.2.station) then none
      else (NotANumber.searchPos id (some x) (qs.map fun e => some e.2.station)).map (· + 1)) = _
    rw [ih]
    unfold NotANumber.lt NotANumber.same
    simp only [decide_eq_true_eq]
    rfl

theorem isBoundary_numbers (l : Verif.Line K) (i : Int) :
    (numberLine l).isBoundary i = Verif.Line.isBoundary i l.alignment.length := by
  unfold NotANumber.Line.isBoundary Verif.Line.isBoundary numberLine
  simp only [List.length_map]

theorem finishCables_numbers {A : Type} {ext : Heap K} {l l' : Verif.Line K} {a b : A}
    (h : Verif.Line.finishCables ext l a = .ok l' b) : numberLine l' = numberLine l := by
  unfold Verif.Line.finishCables at h
  split at h
  · obtain ⟨rfl, rfl⟩ := Outcome.ok.inj h
    rfl
  · exact absurd h (by simp)
  · exact absurd h (by simp)

theorem cleanUp_numbers {A : Type} {ext : Heap K} {l l' : Verif.Line K} {a b : A}
    (h : l.cleanUp ext a = .ok l' b) : (numberLine l).deleteInvalid = .val (numberLine l') := by
  unfold Verif.Line.cleanUp Verif.Line.deleteInvalidLineStructures at h
  unfold NotANumber.Line.deleteInvalid
  cases hf : l.alignment.head? with
  | none => simp [hf] at h
  | some f =>
    cases hb : l.alignment.getLast? with
    | none => simp [hf, hb] at h
    | some b' =>
      simp only [hf, hb, Verif.Line.invalidStructuresLoop_eq, List.take_zero, List.nil_append, List.drop_zero] at h
      rw [finishCables_numbers h]
      simp only [numberLine, List.head?_map, List.getLast?_map, hf, hb, Option.map_some]
      congr 2
      rw [List.filter_map]
      congr 1
      refine List.filter_congr fun e _ => ?_
      show (!(decide (e.2.station < f.station) || decide (b'.station < e.2.station))) = Verif.Line.inBounds _ _ e
      unfold Verif.Line.inBounds
      rw [Bool.not_or, ← decide_not, ← decide_not]
      simp only [not_lt]

/-- **C169** (numbers only).  As long as only numbers come in, the points and the stations of the structures of a line
are what the model of lines without NaN says, for every call that returns. -/
theorem C169_line_numbers (ext : Heap K) (l l' : Verif.Line K) :
    (∀ p r, l.addAlignmentPoint p = .ok l' r → (numberLine l).addPoint (numberPoint p) = (numberLine l', r)) ∧
    (∀ i r, l.deleteAlignmentPoint ext i = .ok l' r → (numberLine l).deletePoint i = .val (numberLine l')) ∧
    (∀ i p r, l.modifyAlignmentPoint ext i p = .ok l' r →
      (numberLine l).modifyPoint i (numberPoint p) = .val (numberLine l')) ∧
    (∀ p s r, l.addLineStructure p s = .ok l' r →
      (numberLine l).addStructure (some s.station) = .val (numberLine l', r)) ∧
    (∀ i r, l.deleteLineStructure ext i = .ok l' r → (numberLine l).deleteStructure i = numberLine l') ∧
    (∀ i s r, l.modifyLineStructure ext i s = .ok l' r →
      (numberLine l).modifyStructure i (some s.station) = .val (numberLine l', r)) := by
  refine ⟨?_, ?_, ?_, ?_, ?_, ?_⟩
  · intro p r h
    obtain ⟨rfl, rfl⟩ := Outcome.ok.inj h
    unfold NotANumber.Line.addPoint numberLine
    simp only [addPoint_numbers]
  · intro i r h
    unfold Verif.Line.deleteAlignmentPoint at h
    unfold NotANumber.Line.deletePoint
    rw [isBoundary_numbers]
    have e := deletePoint_numbers l.alignment i
    have e' : NotANumber.Alignment.deletePoint (numberLine l).points i = _ := e
    rw [e']
    dsimp only at h ⊢
    split at h
    · rename_i hc
      rw [if_pos hc]
      exact cleanUp_numbers h
    · rename_i hc
      rw [if_neg hc]
      obtain ⟨rfl, rfl⟩ := Outcome.ok.inj h
      rfl
  · intro i p r h
    unfold Verif.Line.modifyAlignmentPoint at h
    unfold NotANumber.Line.modifyPoint
    rw [isBoundary_numbers]
    have e := modifyPoint_numbers l.alignment i p
    have e' : NotANumber.Alignment.modifyPoint (numberLine l).points i (numberPoint p) = _ := e
    rw [e']
    dsimp only at h ⊢
    split at h
    · rename_i hc
      rw [if_pos hc]
      exact cleanUp_numbers h
    · rename_i hc
      rw [if_neg hc]
      obtain ⟨rfl, rfl⟩ := Outcome.ok.inj h
      rfl
  · intro p s r h
    unfold Verif.Line.addLineStructure at h
    unfold NotANumber.Line.addStructure
    have e : NotANumber.Alignment.isValidStation (numberLine l).points (some s.station)
        = Verif.Alignment.isValidStation l.alignment s.station := by
      unfold NotANumber.Alignment.isValidStation Verif.Alignment.isValidStation numberLine
      simp only [List.head?_map, List.getLast?_map]
      cases l.alignment.head? <;> cases l.alignment.getLast? <;> rfl
    rw [e]
    cases hv : Verif.Alignment.isValidStation l.alignment s.station with
    | ub => rw [hv] at h; exact absurd h (by simp)
    | throws => rw [hv] at h; exact absurd h (by simp)
    | val b =>
      rw [hv] at h
      cases b with
      | false => obtain ⟨rfl, rfl⟩ := Outcome.ok.inj h; rfl
      | true =>
        dsimp only at h ⊢
        have e2 : NotANumber.searchPos id (some s.station) (numberLine l).stations = _ := searchPos_nodes s.station l.structures
        rw [e2]
        split at h
        · rename_i hs
          rw [hs]
          obtain ⟨rfl, rfl⟩ := Outcome.ok.inj h; rfl
        · rename_i j hs
          rw [hs]
          obtain ⟨rfl, rfl⟩ := Outcome.ok.inj h
          unfold numberLine
          dsimp only
          rw [Verif.Line.map_insertIdx _ _ _ _ (Verif.searchPos_le _ hs)]
  · intro i r h
    unfold Verif.Line.deleteLineStructure at h
    unfold NotANumber.Line.deleteStructure
    have hl : (numberLine l).stations.length = l.structures.length := by simp [numberLine]
    rw [hl]
    split at h
    · rename_i hi
      rw [if_pos hi]
      dsimp only at h
      split at h
      · obtain ⟨rfl, rfl⟩ := Outcome.ok.inj h
        unfold numberLine
        dsimp only
        rw [List.eraseIdx_map]
      · exact absurd h (by simp)
      · exact absurd h (by simp)
    · rename_i hi
      rw [if_neg hi]
      obtain ⟨rfl, rfl⟩ := Outcome.ok.inj h
      rfl
  · intro i s r h
    unfold Verif.Line.modifyLineStructure at h
    unfold NotANumber.Line.modifyStructure
    have hl : (numberLine l).stations.length = l.structures.length := by simp [numberLine]
    rw [hl]
    split at h
    · rename_i hi
      rw [if_pos hi]
      have hi' := (validIndex_toNat hi).1
      cases hf : l.alignment.head? with
      | none => simp [hf] at h
      | some f =>
        cases hb : l.alignment.getLast? with
        | none => simp [hf, hb] at h
        | some b =>
          simp only [hf, hb] at h
          have hf' : (numberLine l).points.head? = some (numberPoint f) := by simp [numberLine, hf]
          have hb' : (numberLine l).points.getLast? = some (numberPoint b) := by simp [numberLine, hb]
          have e1 : (numberLine l).back (numberPoint f) i.toNat = some (l.stationBack f.station i.toNat) := by
            unfold NotANumber.Line.back Verif.Line.stationBack
            by_cases h0 : i.toNat = 0
            · rw [if_pos h0, if_neg (by simpa using h0)]; rfl
            · rw [if_neg h0, if_pos h0]
              have : i.toNat - 1 < l.structures.length := by omega
              simp [numberLine, List.getElem?_eq_getElem this]
          have e2 : (numberLine l).ahead (numberPoint b) i.toNat = some (l.stationAhead b.station i.toNat) := by
            unfold NotANumber.Line.ahead Verif.Line.stationAhead
            rw [hl]
            by_cases h0 : i.toNat + 1 = l.structures.length
            · rw [if_pos h0, if_neg (by simpa using h0)]; rfl
            · rw [if_neg h0, if_pos h0]
              have : i.toNat + 1 < l.structures.length := by omega
              simp [numberLine, List.getElem?_eq_getElem this]
          rw [hf', hb']
          dsimp only
          rw [e1, e2]
          have e3 : (NotANumber.le (some s.station) (some (l.stationBack f.station i.toNat)) ||
              NotANumber.le (some (l.stationAhead b.station i.toNat)) (some s.station)) = true ↔
              (s.station ≤ l.stationBack f.station i.toNat ∨ l.stationAhead b.station i.toNat ≤ s.station) := by
            show (decide _ || decide _) = true ↔ _
            simp
          split at h
          · rename_i hc
            rw [if_pos (e3.mpr hc)]
            obtain ⟨rfl, rfl⟩ := Outcome.ok.inj h; rfl
          · rename_i hc
            rw [if_neg (fun x => hc (e3.mp x))]
            cases hs : s.base with
            | none => simp [hs] at h
            | some t =>
              simp only [hs] at h
              have hr : r = true := by
                unfold Verif.Line.finishCables at h
                split at h
                · exact (Outcome.ok.inj h).2.symm
                · exact absurd h (by simp)
                · exact absurd h (by simp)
              rw [finishCables_numbers h, hr]
              unfold numberLine
              dsimp only
              rw [List.map_set]
    · rename_i hi
      rw [if_neg hi]
      obtain ⟨rfl, rfl⟩ := Outcome.ok.inj h
      rfl

/-- Taking the last of three points away from a line removes the structure behind the new end. -/
example : let l : Verif.Line ℚ := ⟨[⟨0, 0, 0⟩, ⟨0, 0, 100⟩, ⟨0, 0, 200⟩],
      [(1, { LineStructure.new 0 with station := 50 }), (2, { LineStructure.new 0 with station := 150 })], []⟩
    l.deleteAlignmentPoint (fun _ => none) 2 = .ok ⟨[⟨0, 0, 0⟩, ⟨0, 0, 100⟩],
      [(1, { LineStructure.new 0 with station := 50 })], []⟩ true := by
  decide +kernel

end Line

section Validators

/-- **C169** (numbers only, continued).  The same for the validators of constraints, structures and alignments. -/
theorem C169_composites_numbers :
    (∀ c : CableConstraint, NotANumber.Constraint.validate ⟨c.caseWeather.map fun w => ⟨some w.densityIce,
        some w.pressureWind, some w.temperatureCable, some w.thicknessIce⟩, c.condition, some c.limit, c.typeLimit⟩
      = c.validate) ∧
    (∀ t : Structure ℝ, validateStructure ⟨t.attachments.map fun a => ⟨some a.offsetLongitudinal,
        some a.offsetTransverse, some a.offsetVerticalTop⟩, some t.height⟩ = t.validate) ∧
    (∀ ps : List (AlignmentPoint ℝ), validateAlignment (ps.map numberPoint) = Verif.Alignment.validate ps) := by
  refine ⟨?_, ?_, ?_⟩
  · intro c
    have hw := C169_validators_numbers.2.1
    unfold NotANumber.Constraint.validate CableConstraint.validate validateWeather
    cases c.caseWeather with
    | none => simp only [Option.map_none, lt_numbers, issue_decide]
    | some w => simp only [Option.map_some, lt_numbers, issue_decide, hw]
  · intro t
    unfold validateStructure Structure.validate Structure.exceeding StructureAttachment.validate
    simp only [List.length_map, List.flatMap_map, lt_numbers, le_numbers, issue_decide]
    congr 1
    · congr 2
      by_cases h : t.height ≤ 0
      · simp [h]
      · simp [h]
    · congr 2
      split
      · rfl
      · congr 1
        funext a
        split <;> rfl
  · intro ps
    have hp := C169_validators_numbers.1
    unfold validateAlignment Verif.Alignment.validate
    simp only [List.all_map, List.flatMap_map, Function.comp_def, hp]

/-- A structure with one attachment above its top, and one without attachments. -/
example : (Structure.validate ⟨[⟨0, 0, 60⟩], 50⟩).1 = false ∧ (Structure.validate ⟨[], 50⟩).1 = false ∧
    (Structure.validate ⟨[⟨0, 0, 10⟩], 50⟩).1 = true := by
  refine ⟨?_, ?_, ?_⟩ <;> norm_num [Structure.validate, Structure.exceeding]

end Validators

end Verif.Props
