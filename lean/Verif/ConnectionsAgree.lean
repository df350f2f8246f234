import Verif.LineCable
import Verif.SectionCable

/-!
# The two renderings of `ValidateConnections`

`LineCable.validateConnections` gives the flag and `LineCable.validateMessages` the number of messages, over any ordered
field; `SectionCable.validateConnections` gives the flag and the messages.  They agree.
-/

namespace Verif
open LineCable

theorem hardwareOf_eq (heap : Heap ℝ) (c : Connection) : SectionCable.hardwareOf heap c = checkConnection heap c := by
  unfold SectionCable.hardwareOf checkConnection
  cases heap c.ptr with
  | none => rfl
  | some s =>
    simp only
    split_ifs
    · rcases s.hardwares[c.attachment.toNat]? with _ | _ | h <;> rfl
    · rfl

theorem connectionMessages_agree (heap : Heap ℝ) (n : ℕ) : ∀ (cs : List Connection) (i : ℕ), i + cs.length = n →
    match SectionCable.connectionMessages heap n i cs with
    | .val m => checkConnections heap cs = .val () ∧ m.length = countMessages heap (decide (i = 0)) cs
    | .throws => checkConnections heap cs = .throws
    | .ub => checkConnections heap cs = .ub := by
  intro cs
  induction cs with
  | nil => intro i _; exact ⟨rfl, rfl⟩
  | cons c cs ih =>
    intro i hi
    have hl : i + (cs.length + 1) = n := hi
    have ih := ih (i + 1) (by omega)
    have he : (i = n - 1) ↔ cs = [] := by
      rw [← List.length_eq_zero_iff]; omega
    unfold SectionCable.connectionMessages checkConnections countMessages
    rw [hardwareOf_eq]
    cases checkConnection heap c with
    | val t =>
      simp only
      revert ih
      generalize SectionCable.connectionMessages heap n (i + 1) cs = o
      cases o with
      | val m =>
        rintro ⟨h1, h2⟩
        refine ⟨h1, ?_⟩
        have h2 : m.length = countMessages heap false cs := by simpa using h2
        rw [List.length_append, h2]
        congr 1
        unfold hardwareTypeMessage
        by_cases h0 : i = 0
        · simp only [h0, true_or, if_true, decide_true, Bool.true_or]
          cases t <;> rfl
        · by_cases hc : cs = []
          · simp only [h0, he, hc, or_true, if_true, List.isEmpty_nil, Bool.or_true]
            cases t <;> rfl
          · have : cs.isEmpty = false := by simpa using hc
            simp only [h0, he, hc, or_self, if_false, decide_false, this, Bool.or_self, Bool.false_eq_true]
            cases t <;> rfl
      | throws => exact fun h => h
      | ub => exact fun h => h
    | throws => rfl
    | ub => rfl

/-- The two renderings agree. -/
theorem validateConnections_agree (heap : Heap ℝ) (cs : List Connection) :
    match SectionCable.validateConnections heap cs with
    | .val m => validateConnections heap cs = .val m.1 ∧ m.2.length = validateMessages heap cs
    | .throws => validateConnections heap cs = .throws
    | .ub => validateConnections heap cs = .ub := by
  unfold SectionCable.validateConnections validateConnections validateMessages
  by_cases h : cs.length < 2
  · simp [h]
  · have := connectionMessages_agree heap cs.length cs 0 (by simp)
    simp only [h, if_false]
    revert this
    generalize SectionCable.connectionMessages heap cs.length 0 cs = o
    cases o with
    | val m => rintro ⟨h1, h2⟩; rw [h1]; exact ⟨rfl, by simpa using h2⟩
    | throws => intro h1; rw [h1]
    | ub => intro h1; rw [h1]

end Verif
