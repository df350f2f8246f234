import Mathlib.Order.WithBot
import Verif.AlignmentLemmas
import Verif.LineCable

/-! Helper lemmas about line structures and connection lists.
Property theorems are in `Verif/Props/LineCable.lean`. -/

set_option linter.unusedSectionVars false

namespace Verif

namespace LineStructure
variable {K : Type}

/-- Slots match attachments. -/
def Wf (s : LineStructure K) : Prop :=
  match s.base with
  | none => s.hardwares = []
  | some t => s.hardwares.length = t.attachments.length

theorem length_resize {α : Type} (l : List α) (n : Nat) (x : α) : (resize l n x).length = n := by
  unfold resize; simp; omega

theorem Wf.setStructure (s : LineStructure K) (st : Option (Structure K)) :
    Wf (s.setStructure st) := by
  cases st with
  | none => simp [Wf, LineStructure.setStructure]
  | some t => simp [Wf, LineStructure.setStructure, length_resize]

theorem isValidIndex_eq (s : LineStructure K) (hw : Wf s) (i : Int) :
    s.isValidIndex i = validIndex i s.hardwares.length := by
  unfold isValidIndex
  unfold Wf at hw
  cases h : s.base with
  | none =>
    rw [h] at hw
    simp only at hw
    rw [hw]
    simp only [List.length_nil]
    cases hv : validIndex i 0 with
    | false => rfl
    | true => rw [validIndex_iff] at hv; omega
  | some t => rw [h] at hw; simp only at hw; rw [hw]

theorem putHardware_of_valid (s : LineStructure K) {i : Int} (h : Option Hardware)
    (hv : validIndex i s.hardwares.length = true) :
    putHardware s i h = .ok { s with hardwares := s.hardwares.set i.toNat h } () := by
  unfold putHardware; rw [if_pos hv]

theorem Wf.set {s : LineStructure K} (hw : Wf s) (i : Nat) (h : Option Hardware) :
    Wf { s with hardwares := s.hardwares.set i h } := by
  unfold Wf at *
  cases hb : s.base with
  | none => rw [hb] at hw; simp only at hw ⊢; rw [hw]; rfl
  | some t => rw [hb] at hw; simp only at hw ⊢; rw [List.length_set]; exact hw

/-- Under the slot invariant no editing call throws. -/
theorem Op.apply_ok {s : LineStructure K} (hw : Wf s) (op : Op K) :
    ∃ s', op.apply s = .ok s' () ∧ Wf s' := by
  cases op with
  | attach i h =>
    simp only [Op.apply, attachHardware, isValidIndex_eq s hw]
    cases hv : validIndex i s.hardwares.length with
    | false => exact ⟨s, by simp, hw⟩
    | true =>
      refine ⟨_, ?_, hw.set i.toNat h⟩
      simp [putHardware_of_valid s h hv]
  | detach i =>
    simp only [Op.apply, detachHardware, isValidIndex_eq s hw]
    cases hv : validIndex i s.hardwares.length with
    | false => exact ⟨s, by simp, hw⟩
    | true =>
      refine ⟨_, ?_, hw.set i.toNat none⟩
      simp [putHardware_of_valid s none hv]
  | setStructure st => exact ⟨_, rfl, Wf.setStructure s st⟩
  | setStation x => exact ⟨_, rfl, hw⟩
  | setRotation x => exact ⟨_, rfl, hw⟩
  | setOffset x => exact ⟨_, rfl, hw⟩
  | setHeightAdjustment x => exact ⟨_, rfl, hw⟩

theorem Reachable.wf {s : LineStructure K} (h : Reachable s) : Wf s := by
  induction h with
  | new d => simp [Wf, LineStructure.new]
  | step op _ e ih =>
    obtain ⟨s', h1, h2⟩ := Op.apply_ok ih op
    rw [h1] at e
    simp only [Outcome.state?, Option.some.injEq] at e
    exact e ▸ h2

/-- Executes a history (used for concrete examples). -/
def exec (s : LineStructure K) : List (Op K) → Option (LineStructure K)
  | [] => some s
  | op :: ops => match (op.apply s).state? with
    | some s' => exec s' ops
    | none => none

theorem reachable_exec {s s' : LineStructure K} (h : Reachable s) (ops : List (Op K))
    (e : exec s ops = some s') : Reachable s' := by
  induction ops generalizing s with
  | nil => simp only [exec, Option.some.injEq] at e; exact e ▸ h
  | cons op ops ih =>
    simp only [exec] at e
    split at e
    · rename_i s1 h1; exact ih (.step op h h1) e
    · simp at e

end LineStructure

namespace LineCable
variable {K : Type} [LinearOrder K]

/-- `c` comes strictly before `d` along the line: both structures are live and the stations increase. -/
def Before (heap : Heap K) (c d : Connection) : Prop :=
  ∃ s t, heap c.ptr = some s ∧ heap d.ptr = some t ∧ s.station < t.station

abbrev Sorted (heap : Heap K) (cs : List Connection) : Prop := cs.Pairwise (Before heap)

/-- Station of a connection, bottom if the pointer is not live. -/
def key (heap : Heap K) (c : Connection) : WithBot K :=
  match heap c.ptr with
  | some s => (s.station : WithBot K)
  | none => ⊥

theorem key_some {heap : Heap K} {c : Connection} {s} (h : heap c.ptr = some s) :
    key heap c = (s.station : WithBot K) := by simp [key, h]

theorem Before.key_lt {heap : Heap K} {c d : Connection} (h : Before heap c d) :
    key heap c < key heap d := by
  obtain ⟨s, t, hs, ht, hlt⟩ := h
  rw [key_some hs, key_some ht]; exact WithBot.coe_lt_coe.mpr hlt

theorem before_of_key_lt {heap : Heap K} {c d : Connection} (hc : (heap c.ptr).isSome)
    (hd : (heap d.ptr).isSome) (h : key heap c < key heap d) : Before heap c d := by
  obtain ⟨s, hs⟩ := Option.isSome_iff_exists.mp hc
  obtain ⟨t, ht⟩ := Option.isSome_iff_exists.mp hd
  rw [key_some hs, key_some ht] at h
  exact ⟨s, t, hs, ht, WithBot.coe_lt_coe.mp h⟩

theorem Before.trans {heap : Heap K} {c d e : Connection} (h1 : Before heap c d)
    (h2 : Before heap d e) : Before heap c e := by
  obtain ⟨s, t, hs, ht, hlt⟩ := h1
  obtain ⟨t', u, ht', hu, hlt'⟩ := h2
  rw [ht] at ht'; cases ht'
  exact ⟨s, u, hs, hu, lt_trans hlt hlt'⟩

theorem Sorted.key {heap : Heap K} {cs : List Connection} (h : Sorted heap cs) :
    cs.Pairwise (fun c d => key heap c < key heap d) := h.imp Before.key_lt

/-- The station search is the generic search whenever it does not run into UB. -/
theorem searchConnection_eq {heap : Heap K} {c : Connection} {cs : List Connection} {r}
    (h : searchConnection heap c cs = .val r) : r = searchPos (key heap) (key heap c) cs := by
  induction cs generalizing r with
  | nil => simp [searchConnection] at h; simp [searchPos, h]
  | cons d ds ih =>
    simp only [searchConnection] at h
    split at h
    · rename_i s t hs ht
      simp only [searchPos, key_some hs, key_some ht, WithBot.coe_lt_coe, WithBot.coe_inj]
      split at h
      · rename_i hlt; simp at h; simp [hlt, h]
      · rename_i hlt
        split at h
        · rename_i heq; simp at h; simp [heq, h]
        · rename_i hne
          split at h
          · rename_i r' hr'
            simp only [Res.val.injEq] at h
            rw [if_neg hlt, if_neg hne, ← key_some hs, ← ih hr', h]
          · simp at h
          · simp at h
    · simp at h

theorem searchConnection_ne_throws {heap : Heap K} {c : Connection} {cs : List Connection} :
    searchConnection heap c cs ≠ .throws := by
  induction cs with
  | nil => simp [searchConnection]
  | cons d ds ih =>
    simp only [searchConnection]
    split
    · split
      · simp
      · split
        · simp
        · split
          · simp
          · rename_i h; exact absurd h ih
          · simp
    · simp

theorem searchConnection_live {heap : Heap K} {c : Connection} {cs : List Connection}
    (hc : (heap c.ptr).isSome) (hcs : ∀ d ∈ cs, (heap d.ptr).isSome) :
    searchConnection heap c cs = .val (searchPos (key heap) (key heap c) cs) := by
  induction cs with
  | nil => rfl
  | cons d ds ih =>
    obtain ⟨s, hs⟩ := Option.isSome_iff_exists.mp hc
    obtain ⟨t, ht⟩ := Option.isSome_iff_exists.mp (hcs d (by simp))
    simp only [searchConnection, searchPos, hs, ht, key_some ht, ih (fun e he => hcs e (by simp [he])),
      key_some hs, WithBot.coe_lt_coe, WithBot.coe_inj]
    split
    · rfl
    · split
      · rfl
      · rfl

/-- A successful search on a nonempty list has dereferenced the new pointer and the first pointer. -/
theorem searchConnection_head_live {heap : Heap K} {c d : Connection} {ds : List Connection} {r}
    (h : searchConnection heap c (d :: ds) = .val r) : (heap c.ptr).isSome ∧ (heap d.ptr).isSome := by
  simp only [searchConnection] at h
  split at h
  · rename_i s t hs ht; simp [hs, ht]
  · simp at h

theorem Sorted.live {heap : Heap K} {cs : List Connection} (h : Sorted heap cs)
    (hlen : 2 ≤ cs.length) : ∀ d ∈ cs, (heap d.ptr).isSome := by
  intro d hd
  obtain ⟨i, hi, rfl⟩ := List.getElem_of_mem hd
  have h := List.pairwise_iff_getElem.mp h
  by_cases h0 : i = 0
  · obtain ⟨s, t, hs, ht, -⟩ := h 0 1 (by omega) (by omega) (by omega)
    subst h0; simp [hs]
  · obtain ⟨s, t, hs, ht, -⟩ := h 0 i (by omega) hi (by omega)
    simp [ht]

/-- A successful search on a nonempty sorted list means all pointers are live. -/
theorem searchConnection_all_live {heap : Heap K} {c : Connection} {cs : List Connection} {r}
    (hs : Sorted heap cs) (hne : cs ≠ []) (h : searchConnection heap c cs = .val r) :
    (heap c.ptr).isSome ∧ ∀ d ∈ cs, (heap d.ptr).isSome := by
  cases cs with
  | nil => exact absurd rfl hne
  | cons d ds =>
    have hh := searchConnection_head_live h
    refine ⟨hh.1, ?_⟩
    cases ds with
    | nil => intro e he; simp at he; rw [he]; exact hh.2
    | cons e es => exact hs.live (by simp)

theorem sorted_insert {heap : Heap K} {c : Connection} {cs : List Connection} {i : Nat}
    (hs : Sorted heap cs) (h : searchConnection heap c cs = .val (some i)) :
    Sorted heap (cs.insertIdx i c) := by
  have heq := searchConnection_eq h
  cases cs with
  | nil =>
    simp [searchPos] at heq; subst heq; simp
  | cons d ds =>
    obtain ⟨hc, hcs⟩ := searchConnection_all_live hs (by simp) h
    have hk := sorted_insertIdx (key heap) (x := c) hs.key heq.symm
    have hle := searchPos_le (key heap) heq.symm
    refine hk.imp_of_mem ?_
    intro a b ha hb hab
    have hlive : ∀ e ∈ (d :: ds).insertIdx i c, (heap e.ptr).isSome := by
      intro e he
      rw [List.mem_insertIdx hle] at he
      rcases he with rfl | he
      · exact hc
      · exact hcs e he
    exact before_of_key_lt (hlive a ha) (hlive b hb) hab

theorem addConnection_cases {heap : Heap K} (cs : List Connection) (c : Connection) :
    (addConnection heap cs c = .ok cs (-1)) ∨
    (∃ i : Nat, c.ptr ≠ 0 ∧ searchConnection heap c cs = .val (some i) ∧ i ≤ cs.length ∧
      addConnection heap cs c = .ok (cs.insertIdx i c) (i : Int)) ∨
    addConnection heap cs c = .ub := by
  unfold addConnection
  split
  · left; rfl
  · rename_i hp
    cases h : searchConnection heap c cs with
    | val r =>
      cases r with
      | none => left; rfl
      | some i =>
        right; left
        refine ⟨i, hp, rfl, searchPos_le (key heap) (searchConnection_eq h).symm, by simp⟩
    | throws => exact absurd h searchConnection_ne_throws
    | ub => right; right; rfl

theorem addConnection_sorted {heap : Heap K} {cs cs' : List Connection} {c : Connection} {r}
    (hs : Sorted heap cs) (h : addConnection heap cs c = .ok cs' r) : Sorted heap cs' := by
  rcases addConnection_cases (heap := heap) cs c with h1 | ⟨i, -, h2, -, h1⟩ | h1
  · rw [h1] at h; cases h; exact hs
  · rw [h1] at h; cases h; exact sorted_insert hs h2
  · rw [h1] at h; cases h

/-- Re-adding a connection that was just removed from a sorted list. -/
theorem addConnection_restore {heap : Heap K} {cs : List Connection} {i : Nat} (hi : i < cs.length)
    (hs : Sorted heap cs) (hnull : (cs[i]).ptr ≠ 0) :
    addConnection heap (cs.eraseIdx i) cs[i] = .ok cs (i : Int) := by
  unfold addConnection
  rw [if_neg hnull]
  have hsp := searchPos_eraseIdx (key heap) hi hs.key
  have : searchConnection heap cs[i] (cs.eraseIdx i) = .val (some i) := by
    by_cases hlen : 2 ≤ cs.length
    · have hl := hs.live hlen
      rw [searchConnection_live (hl _ (List.getElem_mem hi))
        (fun d hd => hl d (List.mem_of_mem_eraseIdx hd)), hsp]
    · have h0 : cs.length = 1 := by omega
      have he : cs.eraseIdx i = [] := by
        apply List.eq_nil_of_length_eq_zero
        rw [List.length_eraseIdx_of_lt hi]; omega
      rw [he] at hsp ⊢
      simp only [searchConnection]
      simp only [searchPos] at hsp
      rw [hsp]
  rw [this]
  simp [insertIdx_eraseIdx_self hi]

theorem modifyConnection_of_not_valid {heap : Heap K} {cs : List Connection} {index : Int}
    (c : Connection) (h : ¬ validIndex index cs.length = true) :
    modifyConnection heap cs index c = .ok cs (-1) := by
  unfold modifyConnection; rw [dif_neg h]

theorem modifyConnection_of_valid {heap : Heap K} {cs : List Connection} {index : Int}
    (c : Connection) (h : validIndex index cs.length = true) (hs : Sorted heap cs)
    (hnull : ∀ d ∈ cs, d.ptr ≠ 0) :
    modifyConnection heap cs index c =
      match addConnection heap (cs.eraseIdx index.toNat) c with
      | .ok cs2 status => if status = -1 then .ok cs (-1) else .ok cs2 status
      | .throws cs2 => .throws cs2
      | .ub => .ub := by
  unfold modifyConnection
  rw [dif_pos h]
  have hlt := (validIndex_toNat h).1
  simp only [deleteConnection, h, if_true]
  split
  · rename_i hc; simp at hc
  · rcases addConnection_cases (heap := heap) (cs.eraseIdx index.toNat) c with
      h1 | ⟨i, -, h2, -, h1⟩ | h1
    · rw [h1]
      simp only [if_true]
      rw [addConnection_restore hlt hs (hnull _ (List.getElem_mem hlt))]
    · rw [h1]
      have : ¬ ((i : Int) = -1) := by omega
      simp [this]
    · rw [h1]

/-- Invariant of connection lists. -/
def Good (heap : Heap K) (cs : List Connection) : Prop :=
  Sorted heap cs ∧ ∀ d ∈ cs, d.ptr ≠ 0

theorem addConnection_good {heap : Heap K} {cs cs' : List Connection} {c : Connection} {r}
    (hg : Good heap cs) (h : addConnection heap cs c = .ok cs' r) : Good heap cs' := by
  refine ⟨addConnection_sorted hg.1 h, ?_⟩
  rcases addConnection_cases (heap := heap) cs c with h1 | ⟨i, hp, -, hle, h1⟩ | h1
  · rw [h1] at h; cases h; exact hg.2
  · rw [h1] at h; cases h
    intro d hd
    rw [List.mem_insertIdx hle] at hd
    rcases hd with rfl | hd
    · exact hp
    · exact hg.2 d hd
  · rw [h1] at h; cases h

theorem erase_good {heap : Heap K} {cs : List Connection} (hg : Good heap cs) (i : Nat) :
    Good heap (cs.eraseIdx i) :=
  ⟨pairwise_eraseIdx i hg.1, fun d hd => hg.2 d (List.mem_of_mem_eraseIdx hd)⟩

theorem Op.apply_good {heap : Heap K} {cs cs' : List Connection} (op : Op) (hg : Good heap cs)
    (h : (op.apply heap cs).state? = some cs') : Good heap cs' := by
  cases op with
  | add c =>
    simp only [Op.apply] at h
    rcases addConnection_cases (heap := heap) cs c with h1 | ⟨i, -, h2, -, h1⟩ | h1
    · rw [h1] at h; simp only [Outcome.state?, Option.some.injEq] at h; exact h ▸ hg
    · have h1' := h1
      rw [h1] at h; simp only [Outcome.state?, Option.some.injEq] at h
      subst h
      exact addConnection_good hg h1'
    · rw [h1] at h; simp [Outcome.state?] at h
  | delete i =>
    simp only [Op.apply, Outcome.state?, Option.some.injEq, deleteConnection] at h
    split at h
    · exact h ▸ erase_good hg _
    · exact h ▸ hg
  | modify i c =>
    simp only [Op.apply] at h
    by_cases hv : validIndex i cs.length = true
    · rw [modifyConnection_of_valid c hv hg.1 hg.2] at h
      rcases addConnection_cases (heap := heap) (cs.eraseIdx i.toNat) c with
        h1 | ⟨j, -, h2, -, h1⟩ | h1
      · rw [h1] at h
        simp only [if_true, Outcome.state?, Option.some.injEq] at h
        exact h ▸ hg
      · have h1' := h1
        rw [h1] at h
        have : ¬ ((j : Int) = -1) := by omega
        simp only [this, if_false, Outcome.state?, Option.some.injEq] at h
        subst h
        exact addConnection_good (erase_good hg _) h1'
      · rw [h1] at h; simp [Outcome.state?] at h
    · rw [modifyConnection_of_not_valid c hv] at h
      simp only [Outcome.state?, Option.some.injEq] at h
      exact h ▸ hg
  | clear =>
    simp only [Op.apply, Outcome.state?, Option.some.injEq] at h
    subst h
    exact ⟨List.Pairwise.nil, by simp⟩

theorem Reachable.good {heap : Heap K} {cs : List Connection} (h : Reachable heap cs) :
    Good heap cs := by
  induction h with
  | new => exact ⟨List.Pairwise.nil, by simp⟩
  | step op _ e ih => exact Op.apply_good op ih e

/-- Executes a history (used for concrete examples). -/
def exec (heap : Heap K) (cs : List Connection) : List Op → Option (List Connection)
  | [] => some cs
  | op :: ops => match (op.apply heap cs).state? with
    | some cs' => exec heap cs' ops
    | none => none

theorem reachable_exec {heap : Heap K} {cs cs' : List Connection} (h : Reachable heap cs)
    (ops : List Op) (e : exec heap cs ops = some cs') : Reachable heap cs' := by
  induction ops generalizing cs with
  | nil => simp only [exec, Option.some.injEq] at e; exact e ▸ h
  | cons op ops ih =>
    simp only [exec] at e
    split at e
    · rename_i s1 h1; exact ih (.step op h h1) e
    · simp at e

theorem checkConnections_val_iff {heap : Heap K} {cs : List Connection} :
    checkConnections heap cs = .val () ↔ ∀ c ∈ cs, ∃ t, checkConnection heap c = .val t := by
  induction cs with
  | nil => simp [checkConnections]
  | cons c cs ih =>
    simp only [checkConnections]
    cases h : checkConnection heap c with
    | val t => simp [h, ih]
    | throws => simp [h]
    | ub => simp [h]

theorem checkConnection_val_iff {heap : Heap K} {c : Connection} {t : HardwareType} :
    checkConnection heap c = .val t ↔
      ∃ s, heap c.ptr = some s ∧ 0 ≤ c.attachment ∧
        s.hardwares[c.attachment.toNat]? = some (some ⟨t⟩) := by
  unfold checkConnection
  cases h : heap c.ptr with
  | none => simp
  | some s =>
    simp only [Option.some.injEq, exists_eq_left']
    by_cases hv : validIndex c.attachment s.hardwares.length = true
    · rw [if_pos hv]
      have hr := validIndex_iff.mp hv
      split
      · rename_i hw heq
        simp only [heq, Res.val.injEq, Option.some.injEq, hr.1, true_and]
        constructor
        · rintro rfl; rfl
        · intro he; rw [he]
      · rename_i hno
        simp only [reduceCtorEq, false_iff, not_and]
        intro _ hc
        exact hno _ hc
    · rw [if_neg hv]
      simp only [reduceCtorEq, false_iff, not_and]
      intro h0 hc
      apply hv
      rw [validIndex_iff]
      refine ⟨h0, ?_⟩
      have := (List.getElem?_eq_some_iff.mp hc).1
      omega

theorem validateConnections_true_iff {heap : Heap K} {cs : List Connection} :
    validateConnections heap cs = .val true ↔
      2 ≤ cs.length ∧ ∀ c ∈ cs, ∃ t, checkConnection heap c = .val t := by
  unfold validateConnections
  split
  · simp; omega
  · rename_i hl
    rw [← checkConnections_val_iff]
    have : 2 ≤ cs.length := by omega
    cases h : checkConnections heap cs <;> simp [this]

theorem validateConnections_false_iff {heap : Heap K} {cs : List Connection} :
    validateConnections heap cs = .val false ↔ cs.length < 2 := by
  unfold validateConnections
  split
  · simp [*]
  · rename_i hl
    cases h : checkConnections heap cs <;> simp [hl]

end LineCable
end Verif
