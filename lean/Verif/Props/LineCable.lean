import Mathlib.Algebra.Order.Field.Rat
import Verif.LineCableLemmas

/-!
# Properties C07-C11: hardware slots and cable connections
-/

set_option linter.unusedSectionVars false

namespace Verif.Props
open Verif

/-! ### C07, C08: line structures -/

section Structure
variable {K : Type}

/-- C07: after any history of calls, `hardwares()` has one slot per attachment of the current base
structure, and none when the base structure is null. -/
theorem C07_slots_match_attachments {s : LineStructure K} (h : LineStructure.Reachable s) :
    s.hardwares.length = (s.base.map (fun t => t.attachments.length)).getD 0 := by
  have hw := h.wf
  unfold LineStructure.Wf at hw
  cases hb : s.base with
  | none => rw [hb] at hw; simp only at hw; simp [hw]
  | some t => rw [hb] at hw; simp only at hw; simp [hw]

/-- C07, consequence: no call on a reachable line structure throws or is undefined. -/
theorem C07_calls_return {s : LineStructure K} (h : LineStructure.Reachable s)
    (op : LineStructure.Op K) : ∃ s', op.apply s = .ok s' () := by
  obtain ⟨s', h1, -⟩ := LineStructure.Op.apply_ok h.wf op
  exact ⟨s', h1⟩

/-- C08: `AttachHardware` with a valid index changes that slot only (and nothing else of the object). -/
theorem C08_attach_local {s : LineStructure K} (h : LineStructure.Reachable s) (i : Nat)
    (hi : i < s.hardwares.length) (hw : Option Hardware) :
    ∃ s', s.attachHardware (i : Int) hw = .ok s' () ∧
      s'.hardwares[i]? = some hw ∧ (∀ j, j ≠ i → s'.hardwares[j]? = s.hardwares[j]?) ∧
      s'.base = s.base ∧ s'.station = s.station ∧ s'.rotation = s.rotation ∧ s'.offset = s.offset ∧
      s'.heightAdjustment = s.heightAdjustment := by
  have hv := validIndex_natCast.mpr hi
  refine ⟨{ s with hardwares := s.hardwares.set i hw }, ?_, ?_, ?_, rfl, rfl, rfl, rfl, rfl⟩
  · simp [LineStructure.attachHardware, LineStructure.isValidIndex_eq s h.wf, hv,
      LineStructure.putHardware_of_valid s hw hv]
  · simp [hi]
  · intro j hj
    simp [List.getElem?_set_ne (Ne.symm hj)]

/-- C08: `DetachHardware` with a valid index empties that slot only. -/
theorem C08_detach_local {s : LineStructure K} (h : LineStructure.Reachable s) (i : Nat)
    (hi : i < s.hardwares.length) :
    ∃ s', s.detachHardware (i : Int) = .ok s' () ∧
      s'.hardwares[i]? = some none ∧ (∀ j, j ≠ i → s'.hardwares[j]? = s.hardwares[j]?) ∧
      s'.base = s.base ∧ s'.station = s.station ∧ s'.rotation = s.rotation ∧ s'.offset = s.offset ∧
      s'.heightAdjustment = s.heightAdjustment := by
  have hv := validIndex_natCast.mpr hi
  refine ⟨{ s with hardwares := s.hardwares.set i none }, ?_, ?_, ?_, rfl, rfl, rfl, rfl, rfl⟩
  · simp [LineStructure.detachHardware, LineStructure.isValidIndex_eq s h.wf, hv,
      LineStructure.putHardware_of_valid s none hv]
  · simp [hi]
  · intro j hj
    simp [List.getElem?_set_ne (Ne.symm hj)]

/-- C08: an index that is not an attachment index changes nothing. -/
theorem C08_invalid_index_ignored {s : LineStructure K} (h : LineStructure.Reachable s) (i : Int)
    (hi : i < 0 ∨ (s.hardwares.length : Int) ≤ i) (hw : Option Hardware) :
    s.attachHardware i hw = .ok s () ∧ s.detachHardware i = .ok s () := by
  have hv : validIndex i s.hardwares.length = false := by
    cases hc : validIndex i s.hardwares.length with
    | false => rfl
    | true => rw [validIndex_iff] at hc; omega
  simp [LineStructure.attachHardware, LineStructure.detachHardware,
    LineStructure.isValidIndex_eq s h.wf, hv]

/-- C08: replacing the base structure keeps the assignments of surviving slots and adds empty slots. -/
theorem C08_set_structure (s : LineStructure K) (t : Structure K) (j : Nat)
    (hj : j < t.attachments.length) :
    (s.setStructure (some t)).hardwares[j]? =
      if j < s.hardwares.length then s.hardwares[j]? else some none := by
  simp only [LineStructure.setStructure, LineStructure.resize]
  split
  · rename_i h
    rw [List.getElem?_append_left (by simp; omega), List.getElem?_take_of_lt hj]
  · rename_i h
    rw [List.getElem?_append_right (by simp; omega), List.getElem?_replicate]
    simp; omega

/-- A base structure with `n` attachments. -/
def exampleBase (n : Nat) : Structure ℚ := ⟨List.replicate n ⟨0, 0, 0⟩, 100⟩

/-- Non-vacuity of C07/C08: a history that sets hardware, shrinks and regrows the base structure. -/
example : ∃ s : LineStructure ℚ, LineStructure.Reachable s ∧
    s.hardwares = [some ⟨.deadEnd⟩, none, none] := by
  refine ⟨_, LineStructure.reachable_exec (.new (-999999))
    [.setStructure (some (exampleBase 2)), .attach 0 (some ⟨.deadEnd⟩), .attach 1 (some ⟨.suspension⟩),
     .attach 2 (some ⟨.suspension⟩), .setStructure (some (exampleBase 1)),
     .setStructure (some (exampleBase 3)), .detach (-1)] rfl, by decide +kernel⟩

end Structure

/-! ### C09-C11: connections -/

section Connections
open LineCable
variable {K : Type} [LinearOrder K]

/-- C09: whatever calls are made (with the structures' stations fixed), the connections are strictly
increasing in structure station. -/
theorem C09_connections_ordered {heap : Heap K} {cs : List Connection} (h : Reachable heap cs)
    (i j : Nat) (hij : i < j) (hj : j < cs.length) :
    ∃ s t, heap (cs[i]'(by omega)).ptr = some s ∧ heap cs[j].ptr = some t ∧ s.station < t.station :=
  List.pairwise_iff_getElem.mp h.good.1 i j (by omega) hj hij

/-- C09: no structure appears twice and no connection is null. -/
theorem C09_structures_distinct {heap : Heap K} {cs : List Connection} (h : Reachable heap cs) :
    (cs.map Connection.ptr).Nodup ∧ ∀ c ∈ cs, c.ptr ≠ 0 := by
  refine ⟨?_, h.good.2⟩
  rw [List.Nodup, List.pairwise_map]
  refine h.good.1.imp ?_
  rintro c d ⟨s, t, hs, ht, hlt⟩ he
  rw [he, ht] at hs
  cases hs
  exact lt_irrefl _ hlt

/-- Three live structures at stations 10, 20, 30 (addresses 1, 2, 3); everything else is not live. -/
def exampleHeap : Heap ℚ := fun p =>
  if p = 1 then some ⟨[some ⟨.deadEnd⟩, some ⟨.suspension⟩], 0, 0, 0, 10, some (exampleBase 2)⟩
  else if p = 2 then some ⟨[some ⟨.deadEnd⟩, some ⟨.suspension⟩], 0, 0, 0, 20, some (exampleBase 2)⟩
  else if p = 3 then some ⟨[some ⟨.deadEnd⟩, none], 0, 0, 0, 30, some (exampleBase 2)⟩
  else none

/-- Non-vacuity of C09/C10: insertions out of order, a duplicate, a null, a rejected modification. -/
example : Reachable exampleHeap [⟨1, 0⟩, ⟨2, 1⟩, ⟨3, 0⟩] :=
  reachable_exec (heap := exampleHeap) .new
    [.add ⟨3, 0⟩, .add ⟨1, 0⟩, .add ⟨1, 1⟩, .add ⟨0, 0⟩, .add ⟨2, 0⟩, .modify 1 ⟨3, 1⟩,
     .modify 1 ⟨2, 1⟩, .delete 3] (by decide +kernel)

/-- C10: `AddConnection` to live structures is rejected exactly when the pointer is null or the station
is already connected; a rejected call changes nothing. -/
theorem C10_add_rejected_iff {heap : Heap K} {cs : List Connection} (h : Reachable heap cs)
    (c : Connection) (hcs : ∀ d ∈ cs, (heap d.ptr).isSome) (hc : c.ptr ≠ 0 → (heap c.ptr).isSome) :
    (∃ cs', addConnection heap cs c = .ok cs' (-1)) ↔
      c.ptr = 0 ∨ ∃ d ∈ cs, (heap d.ptr).map LineStructure.station =
        (heap c.ptr).map LineStructure.station := by
  by_cases hp : c.ptr = 0
  · simp [addConnection, hp]
  · have hlive := searchConnection_live (hc hp) hcs
    obtain ⟨s, hs⟩ := Option.isSome_iff_exists.mp (hc hp)
    have hkey : ∀ d ∈ cs, (key heap d = key heap c ↔ (heap d.ptr).map LineStructure.station =
        (heap c.ptr).map LineStructure.station) := by
      intro d hd
      obtain ⟨t, ht⟩ := Option.isSome_iff_exists.mp (hcs d hd)
      rw [key_some hs, key_some ht, hs, ht]
      simp
    have hno := searchPos_none_iff (key heap) (st := key heap c) h.good.1.key
    simp only [addConnection, hp, if_false, hlive, false_or]
    cases hsp : searchPos (key heap) (key heap c) cs with
    | none =>
      obtain ⟨d, hd, he⟩ := hno.mp hsp
      simp only [Outcome.ok.injEq, and_true, exists_eq', true_iff]
      exact ⟨d, hd, (hkey d hd).mp he⟩
    | some i =>
      constructor
      · rintro ⟨cs', hc'⟩
        simp only [Outcome.ok.injEq] at hc'
        omega
      · rintro ⟨d, hd, he⟩
        have := hno.mpr ⟨d, hd, (hkey d hd).mpr he⟩
        rw [hsp] at this; simp at this

/-- C10: a rejected `AddConnection` changes nothing (whatever the state of the pointers). -/
theorem C10_add_rejected_unchanged {heap : Heap K} {cs cs' : List Connection} {c : Connection}
    (h : addConnection heap cs c = .ok cs' (-1)) : cs' = cs := by
  rcases addConnection_cases (heap := heap) cs c with h1 | ⟨i, -, -, -, h1⟩ | h1
  · rw [h1] at h; cases h; rfl
  · rw [h1] at h
    simp only [Outcome.ok.injEq] at h
    omega
  · rw [h1] at h; cases h

/-- C10: an accepted `AddConnection` returns the position of the new connection; the others are kept. -/
theorem C10_add_accepted {heap : Heap K} {cs cs' : List Connection} {c : Connection} {r : Int}
    (h : addConnection heap cs c = .ok cs' r) (hr : r ≠ -1) :
    ∃ i : Nat, r = (i : Int) ∧ cs'[i]? = some c ∧ cs'.eraseIdx i = cs := by
  rcases addConnection_cases (heap := heap) cs c with h1 | ⟨i, -, -, hle, h1⟩ | h1
  · rw [h1] at h; cases h; exact absurd rfl hr
  · rw [h1] at h; cases h
    exact ⟨i, rfl, getElem_insertIdx_of_le hle, by simp⟩
  · rw [h1] at h; cases h

/-- C10: a rejected `ModifyConnection` leaves the list exactly as it was. -/
theorem C10_modify_rejected_unchanged {heap : Heap K} {cs cs' : List Connection}
    (h : Reachable heap cs) {i : Int} {c : Connection}
    (hm : modifyConnection heap cs i c = .ok cs' (-1)) : cs' = cs := by
  by_cases hv : validIndex i cs.length = true
  · rw [modifyConnection_of_valid c hv h.good.1 h.good.2] at hm
    rcases addConnection_cases (heap := heap) (cs.eraseIdx i.toNat) c with h1 | ⟨j, -, -, -, h1⟩ | h1
    · rw [h1] at hm; simp at hm; exact hm.symm
    · have : ¬ ((j : Int) = -1) := by omega
      rw [h1] at hm
      simp only [] at hm
      rw [if_neg this, Outcome.ok.injEq] at hm
      exact absurd hm.2 this
    · rw [h1] at hm; cases hm
  · rw [modifyConnection_of_not_valid c hv] at hm; cases hm; rfl

/-- C10: an accepted `ModifyConnection(i,c)` returns the position of `c`; the connection formerly at `i`
is gone, all others are kept. -/
theorem C10_modify_accepted {heap : Heap K} {cs cs' : List Connection}
    (h : Reachable heap cs) {i r : Int} {c : Connection}
    (hm : modifyConnection heap cs i c = .ok cs' r) (hr : r ≠ -1) :
    0 ≤ i ∧ i < cs.length ∧
    ∃ j : Nat, r = (j : Int) ∧ cs'[j]? = some c ∧ cs'.eraseIdx j = cs.eraseIdx i.toNat := by
  by_cases hv : validIndex i cs.length = true
  · have hrange := validIndex_iff.mp hv
    refine ⟨hrange.1, hrange.2, ?_⟩
    rw [modifyConnection_of_valid c hv h.good.1 h.good.2] at hm
    rcases addConnection_cases (heap := heap) (cs.eraseIdx i.toNat) c with h1 | ⟨j, -, -, hle, h1⟩ | h1
    · rw [h1] at hm; simp at hm; exact absurd hm.2.symm hr
    · rw [h1] at hm
      have : ¬ ((j : Int) = -1) := by omega
      simp only [this, if_false, Outcome.ok.injEq] at hm
      obtain ⟨rfl, rfl⟩ := hm
      exact ⟨j, rfl, getElem_insertIdx_of_le hle, by simp⟩
    · rw [h1] at hm; cases hm
  · rw [modifyConnection_of_not_valid c hv] at hm; cases hm; exact absurd rfl hr

/-- C10: `ModifyConnection` on live structures never runs into undefined behaviour. -/
theorem C10_modify_defined {heap : Heap K} {cs : List Connection}
    (h : Reachable heap cs) (i : Int) (c : Connection)
    (hcs : ∀ d ∈ cs, (heap d.ptr).isSome) (hc : c.ptr ≠ 0 → (heap c.ptr).isSome) :
    ∃ cs' r, modifyConnection heap cs i c = .ok cs' r := by
  by_cases hv : validIndex i cs.length = true
  · rw [modifyConnection_of_valid c hv h.good.1 h.good.2]
    rcases addConnection_cases (heap := heap) (cs.eraseIdx i.toNat) c with h1 | ⟨j, -, -, hle, h1⟩ | h1
    · rw [h1]; exact ⟨_, _, by simp; exact ⟨rfl, rfl⟩⟩
    · rw [h1]
      have : ¬ ((j : Int) = -1) := by omega
      exact ⟨_, _, by simp only [this, if_false]; exact rfl⟩
    · exfalso
      unfold addConnection at h1
      split at h1
      · cases h1
      · rename_i hp
        rw [searchConnection_live (hc hp) (fun d hd => hcs d (List.mem_of_mem_eraseIdx hd))] at h1
        split at h1 <;> simp_all
  · rw [modifyConnection_of_not_valid c hv]; exact ⟨_, _, rfl⟩

example : modifyConnection exampleHeap [⟨1, 0⟩, ⟨2, 1⟩, ⟨3, 0⟩] 1 ⟨3, 1⟩ =
      .ok [⟨1, 0⟩, ⟨2, 1⟩, ⟨3, 0⟩] (-1) ∧
    modifyConnection exampleHeap [⟨1, 0⟩, ⟨3, 0⟩] 0 ⟨2, 1⟩ = .ok [⟨2, 1⟩, ⟨3, 0⟩] 0 := by
  decide +kernel

/-- Three structures with dead-end hardware on attachment 0 and suspension hardware on attachment 1. -/
def exampleHeapTypes : Heap ℚ := fun p =>
  if p = 1 then some ⟨[some ⟨.deadEnd⟩, some ⟨.suspension⟩], 0, 0, 0, 10, some (exampleBase 2)⟩
  else if p = 2 then some ⟨[some ⟨.deadEnd⟩, some ⟨.suspension⟩], 0, 0, 0, 20, some (exampleBase 2)⟩
  else if p = 3 then some ⟨[some ⟨.deadEnd⟩, some ⟨.suspension⟩], 0, 0, 0, 30, some (exampleBase 2)⟩
  else none

/-- C11 is false as stated: a cable with suspension hardware at its ends and dead-end hardware in the
middle passes `ValidateConnections` (three messages are produced, the result is still true). -/
theorem C11_wrong_hardware_accepted :
    ∃ c1 c2 c3 : Connection, Reachable exampleHeapTypes [c1, c2, c3] ∧
      validateConnections exampleHeapTypes [c1, c2, c3] = .val true ∧
      checkConnection exampleHeapTypes c1 = .val .suspension ∧
      checkConnection exampleHeapTypes c2 = .val .deadEnd ∧
      checkConnection exampleHeapTypes c3 = .val .suspension ∧
      validateMessages exampleHeapTypes [c1, c2, c3] = 3 := by
  refine ⟨⟨1, 1⟩, ⟨2, 0⟩, ⟨3, 1⟩, ?_, ?_, ?_, ?_, ?_, ?_⟩
  · exact reachable_exec (heap := exampleHeapTypes) .new [.add ⟨1, 1⟩, .add ⟨2, 0⟩, .add ⟨3, 1⟩]
      (by decide +kernel)
  all_goals decide +kernel

/-- C11, what holds: `ValidateConnections` returns true exactly when there are at least two connections
and every connection's structure is live and has *some* hardware at the attachment.
Missing from the full statement: the hardware types. -/
theorem C11_validate_iff_partial {heap : Heap K} {cs : List Connection} :
    validateConnections heap cs = .val true ↔
      2 ≤ cs.length ∧ ∀ c ∈ cs, ∃ s hw, heap c.ptr = some s ∧ 0 ≤ c.attachment ∧
        s.hardwares[c.attachment.toNat]? = some (some hw) := by
  rw [validateConnections_true_iff]
  refine and_congr_right (fun _ => forall_congr' fun c => imp_congr_right fun _ => ?_)
  constructor
  · rintro ⟨t, ht⟩
    obtain ⟨s, h1, h2, h3⟩ := checkConnection_val_iff.mp ht
    exact ⟨s, _, h1, h2, h3⟩
  · rintro ⟨s, hw, h1, h2, h3⟩
    exact ⟨hw.type, checkConnection_val_iff.mpr ⟨s, h1, h2, h3⟩⟩

/-- C11: the message count of `ValidateConnections` is zero exactly when the hardware types are right
(dead-end at both ends, suspension between), for cables it accepts. So the *messages*, unlike the
result, do carry the hardware rule. -/
theorem C11_messages_carry_rule {heap : Heap K} {cs : List Connection}
    (hv : validateConnections heap cs = .val true) :
    validateMessages heap cs = 0 ↔
      ∀ (i : Nat) (hi : i < cs.length), checkConnection heap cs[i] =
        .val (if i = 0 ∨ i + 1 = cs.length then .deadEnd else .suspension) := by
  obtain ⟨hlen, hall⟩ := validateConnections_true_iff.mp hv
  have hnot : ¬ cs.length < 2 := by omega
  simp only [validateMessages, hnot, if_false]
  have gen : ∀ (isFirst : Bool) (ds : List Connection),
      (∀ c ∈ ds, ∃ t, checkConnection heap c = .val t) →
      (countMessages heap isFirst ds = 0 ↔ ∀ (i : Nat) (hi : i < ds.length),
        checkConnection heap ds[i] =
          .val (if (i = 0 ∧ isFirst = true) ∨ i + 1 = ds.length then .deadEnd else .suspension)) := by
    intro isFirst ds
    induction ds generalizing isFirst with
    | nil => intro _; simp [countMessages]
    | cons d ds ih =>
      intro hd
      obtain ⟨t, ht⟩ := hd d (by simp)
      have ih' := ih false (fun c hc => hd c (by simp [hc]))
      simp only [countMessages, ht, Nat.add_eq_zero_iff, ih']
      constructor
      · rintro ⟨h1, h2⟩ i hi
        cases i with
        | zero =>
          simp only [List.getElem_cons_zero, ht, Res.val.injEq]
          have h1' : hardwareTypeMessage (isFirst || ds.isEmpty) t = false := by
            cases hm : hardwareTypeMessage (isFirst || ds.isEmpty) t with
            | false => rfl
            | true => rw [hm] at h1; simp at h1
          unfold hardwareTypeMessage at h1'
          cases ds <;> cases isFirst <;> simp_all
        | succ i =>
          have := h2 i (by simpa using hi)
          simp only [List.getElem_cons_succ, this]
          simp
      · intro h
        refine ⟨?_, ?_⟩
        · have h0 := h 0 (by simp)
          simp only [List.getElem_cons_zero, ht, Res.val.injEq] at h0
          unfold hardwareTypeMessage
          cases ds <;> cases isFirst <;> simp_all
        · intro i hi
          have := h (i + 1) (by simpa using hi)
          simp only [List.getElem_cons_succ] at this
          rw [this]
          simp
  rw [gen true cs hall]
  simp

example : validateConnections exampleHeap [⟨1, 0⟩, ⟨2, 1⟩, ⟨3, 0⟩] = .val true ∧
    validateMessages exampleHeap [⟨1, 0⟩, ⟨2, 1⟩, ⟨3, 0⟩] = 0 := by decide +kernel

end Connections
end Verif.Props
