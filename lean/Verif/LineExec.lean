import Verif.LineCopy

/-! Executable histories, used to exhibit concrete reachable lines (non-vacuity examples and
counterexamples), and the fact that the `LineStructure` API reaches every well-formed structure. -/

set_option linter.unusedSectionVars false

namespace Verif

namespace LineStructure
variable {K : Type}

/-- Every structure with as many hardware slots as attachments can be built through the API. -/
theorem reachable_of_wf {s : LineStructure K} (hw : Wf s) : Reachable s := by
  obtain ⟨hs, ha, off, rot, st, base⟩ := s
  have h0 : Reachable (⟨[], ha, off, rot, st, none⟩ : LineStructure K) :=
    reachable_exec (.new st) [.setHeightAdjustment ha, .setOffset off, .setRotation rot] rfl
  cases base with
  | none =>
    have : hs = [] := hw
    subst this; exact h0
  | some t =>
    have hlen : hs.length = t.attachments.length := hw
    have key : ∀ i, i ≤ hs.length →
        Reachable (⟨hs.take i ++ List.replicate (hs.length - i) none, ha, off, rot, st, some t⟩ :
          LineStructure K) := by
      intro i
      induction i with
      | zero =>
        intro _
        refine .step (.setStructure (some t)) h0 ?_
        simp [Op.apply, setStructure, resize, Outcome.state?, hlen]
      | succ i ih =>
        intro hi
        refine .step (.attach (i : Int) hs[i]) (ih (by omega)) ?_
        have hl : (hs.take i).length = i := by simp; omega
        have hv : validIndex (i : Int) t.attachments.length = true := by
          rw [validIndex_natCast]; omega
        have hv2 : validIndex (i : Int)
            (hs.take i ++ List.replicate (hs.length - i) (none : Option Hardware)).length = true := by
          rw [validIndex_natCast, List.length_append, hl, List.length_replicate]; omega
        simp only [Op.apply, attachHardware, isValidIndex, hv, Bool.true_eq_false, if_false, putHardware,
          hv2, if_true, Outcome.state?, Int.toNat_natCast]
        rw [List.set_append, if_neg (by omega), hl, Nat.sub_self]
        have hr : hs.length - i = (hs.length - (i + 1)) + 1 := by omega
        rw [hr, List.replicate_succ, List.set_cons_zero, Line.take_succ_getElem (by omega),
          List.append_assoc]
        rfl
    have := key hs.length (le_refl _)
    simpa using this

instance (s : LineStructure K) : Decidable (Wf s) := by
  unfold Wf
  cases s.base with
  | none => exact inferInstanceAs (Decidable (s.hardwares = []))
  | some t => exact inferInstanceAs (Decidable (s.hardwares.length = t.attachments.length))

end LineStructure

namespace Line
open LineCable

variable {K : Type} [Field K] [LinearOrder K] [IsStrictOrderedRing K]

/-- Executable version of the station order of two connections. -/
def beforeB (h : Heap K) (c d : Connection) : Bool :=
  match h c.ptr, h d.ptr with
  | some s, some t => decide (s.station < t.station)
  | _, _ => false

theorem beforeB_spec {h : Heap K} {c d : Connection} (e : beforeB h c d = true) :
    ∃ s t, h c.ptr = some s ∧ h d.ptr = some t ∧ s.station < t.station := by
  unfold beforeB at e
  split at e
  · rename_i s t hs ht; exact ⟨s, t, hs, ht, by simpa using e⟩
  · simp at e

/-- Executable version of `Op.Pre`. -/
def preB (ext : Heap K) (l : Line K) : Op K → Bool
  | .addLineStructure p s => decide (p ≠ 0) && decide (∀ e ∈ l.structures, e.1 ≠ p) &&
      decide (LineStructure.Wf s)
  | .modifyLineStructure _ s => decide (LineStructure.Wf s)
  | .addLineCable k | .modifyLineCable _ k =>
      decide (k.connections.Pairwise (fun c d => beforeB (l.heap ext) c d = true)) &&
      decide (∀ c ∈ k.connections, c.ptr ≠ 0)
  | _ => true

theorem preB_spec {ext : Heap K} {l : Line K} {op : Op K} (h : preB ext l op = true) : op.Pre ext l := by
  cases op <;> simp only [preB, Bool.and_eq_true, decide_eq_true_eq] at h
  case addLineStructure p s => exact ⟨h.1.1, h.1.2, LineStructure.reachable_of_wf h.2⟩
  case modifyLineStructure i s => exact LineStructure.reachable_of_wf h
  case addLineCable k => exact ⟨h.1.imp beforeB_spec, h.2⟩
  case modifyLineCable i k => exact ⟨h.1.imp beforeB_spec, h.2⟩
  all_goals trivial

/-- Runs a history; `none` if some precondition fails or some call is UB. -/
def exec (ext : Heap K) (l : Line K) : List (Op K) → Option (Line K)
  | [] => some l
  | op :: ops =>
    if preB ext l op then
      match (op.apply ext l).state? with
      | some l' => exec ext l' ops
      | none => none
    else none

theorem reachable_exec {ext : Heap K} {l l' : Line K} (h : Reachable l) (ops : List (Op K))
    (e : exec ext l ops = some l') : Reachable l' := by
  induction ops generalizing l with
  | nil => simp only [exec, Option.some.injEq] at e; exact e ▸ h
  | cons op ops ih =>
    simp only [exec] at e
    split at e
    · rename_i hp
      split at e
      · rename_i l1 h1
        exact ih (.step op ext h (preB_spec hp) h1) e
      · simp at e
    · simp at e

end Line
end Verif
