import Verif.Props.Validators

/-! # What validation says of the connections of a line cable (C129) -/

set_option linter.unusedSectionVars false

namespace Verif.Props

open Verif

/-- The connection `x` is made to an existing structure, with hardware of type `t`. -/
def Fitted (heap : Heap ℝ) (x : Connection) (t : HardwareType) : Prop :=
  ∃ s h, heap x.ptr = some s ∧ 0 ≤ x.attachment ∧ s.hardwares[x.attachment.toNat]? = some (some h) ∧ h.type = t

/-- The report about a connection at one of the ends. -/
def terminalReport : String := "Terminal line cable connection does not have dead-end type hardware"

/-- The report about a connection between the ends. -/
def interiorReport : String := "Interior line cable connection does not have suspension type hardware"

theorem fitted_iff {heap : Heap ℝ} {x : Connection} {t : HardwareType} :
    SectionCable.hardwareOf heap x = .val t ↔ Fitted heap x t := by
  unfold SectionCable.hardwareOf
  constructor
  · intro h
    split at h
    · cases h
    rename_i s hs
    split at h
    · rename_i hv
      split at h
      · rename_i g hg
        cases h
        exact ⟨s, g, hs, (validIndex_iff.1 hv).1, hg, rfl⟩
      · cases h
    · cases h
  · rintro ⟨s, g, h1, h2, h3, rfl⟩
    rw [h1]
    have : x.attachment.toNat < s.hardwares.length := (List.getElem?_eq_some_iff.1 h3).1
    have hv : validIndex x.attachment s.hardwares.length = true := validIndex_iff.2 ⟨h2, by omega⟩
    simp only [hv, if_true, h3]

theorem messages_iff {heap : Heap ℝ} {n : ℕ} : ∀ {cs : List Connection} {i : ℕ} {m : List String},
    SectionCable.connectionMessages heap n i cs = .val m →
    (∀ (j : ℕ) x, cs[j]? = some x → ∃ t, Fitted heap x t) ∧
    (terminalReport ∈ m ↔ ∃ (j : ℕ) (x : Connection) (t : HardwareType), cs[j]? = some x ∧ (i + j = 0 ∨ i + j = n - 1) ∧ Fitted heap x t ∧ t ≠ .deadEnd) ∧
    (interiorReport ∈ m ↔ ∃ (j : ℕ) (x : Connection) (t : HardwareType), cs[j]? = some x ∧ ¬ (i + j = 0 ∨ i + j = n - 1) ∧ Fitted heap x t ∧
      t ≠ .suspension) := by
  intro cs
  induction cs with
  | nil => intro i m h; cases h; simp
  | cons c cs ih =>
    intro i m h
    unfold SectionCable.connectionMessages at h
    cases hh : SectionCable.hardwareOf heap c with
    | throws => rw [hh] at h; cases h
    | ub => rw [hh] at h; cases h
    | val t =>
      rw [hh] at h
      cases hr : SectionCable.connectionMessages heap n (i + 1) cs with
      | throws => rw [hr] at h; cases h
      | ub => rw [hr] at h; cases h
      | val ms =>
        rw [hr] at h
        cases h
        obtain ⟨h0, h1, h2⟩ := ih hr
        have only : ∀ {u}, Fitted heap c u → u = t := by
          intro u hu
          have := fitted_iff.2 hu
          rw [hh] at this
          cases this
          rfl
        have shift : ∀ j, i + 1 + j = i + (j + 1) := fun j => by omega
        refine ⟨?_, ?_, ?_⟩
        · intro j x hx
          cases j with
          | zero => cases hx; exact ⟨t, fitted_iff.1 hh⟩
          | succ j => exact h0 j x hx
        · rw [List.mem_append, h1]
          constructor
          · rintro (h | ⟨j, x, u, e1, e2, e3⟩)
            · split_ifs at h with g1 g2 g3 <;> simp [terminalReport] at h
              exact ⟨0, c, t, rfl, g1, fitted_iff.1 hh, g2⟩
            · exact ⟨j + 1, x, u, e1, by rwa [shift] at e2, e3⟩
          · rintro ⟨j, x, u, e1, e2, e3, e4⟩
            cases j with
            | zero =>
              cases e1
              rw [only e3] at e4
              left
              have e2 : i = 0 ∨ i = n - 1 := e2
              rw [if_pos e2, if_pos e4]
              exact List.mem_singleton.2 rfl
            | succ j => exact Or.inr ⟨j, x, u, e1, by rwa [shift], e3, e4⟩
        · rw [List.mem_append, h2]
          constructor
          · rintro (h | ⟨j, x, u, e1, e2, e3⟩)
            · split_ifs at h with g1 g2 g3 <;> simp [interiorReport] at h
              exact ⟨0, c, t, rfl, g1, fitted_iff.1 hh, g3⟩
            · exact ⟨j + 1, x, u, e1, by rwa [shift] at e2, e3⟩
          · rintro ⟨j, x, u, e1, e2, e3, e4⟩
            cases j with
            | zero =>
              cases e1
              rw [only e3] at e4
              left
              have e2 : ¬ (i = 0 ∨ i = n - 1) := e2
              rw [if_neg e2, if_pos e4]
              exact List.mem_singleton.2 rfl
            | succ j => exact Or.inr ⟨j, x, u, e1, by rwa [shift], e3, e4⟩

/-- An accepted line cable reports exactly what its connections report. -/
theorem accepted_reports {heap : Heap ℝ} {c : SectionCable} {m : List String} (h : c.validate heap = .val (true, m)) :
    ∃ b, SectionCable.validateConnections heap c.connections = .val (b, m) := by
  have hm := honest_members c
  unfold SectionCable.validate at h
  simp only at h
  split at h
  · rename_i h0
    have := congrArg (fun r => match r with | .val r => r.1 | _ => false) h
    simp only at this
    rw [h0] at this
    cases this
  · rename_i h0
    have hm2 := hm.mp (by simpa using h0)
    split at h
    · rename_i k hk
      split at h
      · rename_i r hc
        simp only [Res.val.injEq, Prod.mk.injEq] at h
        obtain ⟨h1, h2⟩ := h
        rw [hm2, (honest_catenary3d k).mp h1] at h2
        simp only [List.nil_append] at h2
        exact ⟨r.1, by rw [hc, ← h2]⟩
      · cases h
      · cases h
    · cases h
    · cases h

/-- **C129** for an accepted line cable: with fewer than two connections this is the only report.  With more, every
connection is made to hardware of an existing structure; the report about the ends is given exactly if the first or
last connection is not a dead-end, the report about the interior exactly if one between them is not a suspension, and
there is no other report. -/
theorem C129_reports {heap : Heap ℝ} {c : SectionCable} {m : List String} (h : c.validate heap = .val (true, m)) :
    (c.connections.length < 2 → m = ["Not enough connections"]) ∧
    (2 ≤ c.connections.length →
      (∀ x ∈ c.connections, ∃ t, Fitted heap x t) ∧
      (∀ r ∈ m, r = terminalReport ∨ r = interiorReport) ∧
      (terminalReport ∈ m ↔ ∃ x t, (c.connections.head? = some x ∨ c.connections.getLast? = some x) ∧
        Fitted heap x t ∧ t ≠ .deadEnd) ∧
      (interiorReport ∈ m ↔ ∃ (i : ℕ) (x : Connection) (t : HardwareType), 0 < i ∧ i + 1 < c.connections.length ∧ c.connections[i]? = some x ∧
        Fitted heap x t ∧ t ≠ .suspension)) := by
  obtain ⟨b, hb⟩ := accepted_reports h
  have hall := connections_reports hb
  unfold SectionCable.validateConnections at hb
  constructor
  · intro hl
    rw [if_pos hl] at hb
    cases hb
    rfl
  · intro hl
    rw [if_neg (by omega)] at hb
    split at hb
    swap
    · cases hb
    swap
    · cases hb
    rename_i m' hm
    cases hb
    obtain ⟨h0, h1, h2⟩ := messages_iff hm
    have hno : "Not enough connections" ∉ m := by
      clear hall h0 h1 h2 h hl
      have : ∀ {cs : List Connection} {n i : ℕ} {m : List String},
          SectionCable.connectionMessages heap n i cs = .val m → "Not enough connections" ∉ m := by
        intro cs
        induction cs with
        | nil => intro n i m h; cases h; simp
        | cons c cs ih =>
          intro n i m h
          unfold SectionCable.connectionMessages at h
          cases hh : SectionCable.hardwareOf heap c with
          | throws => rw [hh] at h; cases h
          | ub => rw [hh] at h; cases h
          | val t =>
            rw [hh] at h
            cases hr : SectionCable.connectionMessages heap n (i + 1) cs with
            | throws => rw [hr] at h; cases h
            | ub => rw [hr] at h; cases h
            | val ms =>
              rw [hr] at h
              cases h
              rw [List.mem_append, not_or]
              refine ⟨?_, ih hr⟩
              split_ifs <;> simp
      exact this hm
    refine ⟨fun x hx => ?_, fun r hr => ?_, ?_, ?_⟩
    · obtain ⟨j, hj⟩ := List.mem_iff_getElem?.1 hx
      exact h0 j x hj
    · have := hall r hr
      simp only [connectionReports, List.mem_cons, List.not_mem_nil, or_false] at this
      rcases this with e | e | e
      · exact absurd (e ▸ hr) hno
      · exact Or.inl e
      · exact Or.inr e
    · rw [h1]
      constructor
      · rintro ⟨j, x, t, e1, e2, e3⟩
        refine ⟨x, t, ?_, e3⟩
        rw [List.head?_eq_getElem?, List.getLast?_eq_getElem?]
        rcases e2 with e2 | e2
        · have : j = 0 := by omega
          subst this
          exact Or.inl e1
        · have : j = c.connections.length - 1 := by omega
          subst this
          exact Or.inr e1
      · rintro ⟨x, t, e1, e3⟩
        rw [List.head?_eq_getElem?, List.getLast?_eq_getElem?] at e1
        rcases e1 with e1 | e1
        · exact ⟨0, x, t, e1, Or.inl rfl, e3⟩
        · exact ⟨_, x, t, e1, Or.inr (by omega), e3⟩
    · rw [h2]
      constructor
      · rintro ⟨j, x, t, e1, e2, e3⟩
        have := (List.getElem?_eq_some_iff.1 e1).1
        exact ⟨j, x, t, by omega, by omega, e1, e3⟩
      · rintro ⟨j, x, t, e0, e0', e1, e3⟩
        exact ⟨j, x, t, e1, by omega, e3⟩

/-- A line cable strung between three poles is accepted without a report. -/
example : ∃ c : SectionCable, c.connections.length = 3 ∧
    c.validate ((exRoute 20 0).line.heap noHeap) = .val (true, []) := by
  have hv : (levelSpan 100 1 70).validate.1 = true := level_valid (by norm_num) (by norm_num) (by norm_num)
  have hm : (exMembers.whole exStrung).validateMembers = (true, []) := hung_members
  have hs : (exMembers.whole exStrung).catenaryRulingSpan = .val (levelSpan 100 1 70) := exHung_ruling
  have hc : SectionCable.validateConnections ((exRoute 20 0).line.heap noHeap) exStrung.connections =
      .val (true, []) := by
    simp [SectionCable.validateConnections, SectionCable.connectionMessages, SectionCable.hardwareOf, exStrung,
      exRoute, exPoles, exPole, Line.heap, Line.lookup, validIndex]
  refine ⟨exMembers.whole exStrung, rfl, ?_⟩
  unfold SectionCable.validate
  rw [hm]
  simp only [Bool.true_eq_false, if_false]
  rw [hs]
  have : (exMembers.whole exStrung).connections = exStrung.connections := rfl
  simp only [this, hc, hv, (honest_catenary3d _).mp hv, List.append_nil]

/-- The loop stops at the first connection whose attachment index its structure does not have. -/
theorem messages_throw {heap : Heap ℝ} {n : ℕ} {x : Connection} {post : List Connection} {s : LineStructure ℝ}
    (hs : heap x.ptr = some s) (hx : x.attachment < 0 ∨ (s.hardwares.length : ℤ) ≤ x.attachment) :
    ∀ {pre : List Connection} {i : ℕ}, (∀ y ∈ pre, ∃ t, Fitted heap y t) →
    SectionCable.connectionMessages heap n i (pre ++ x :: post) = .throws := by
  intro pre
  induction pre with
  | nil =>
    intro i _
    have : SectionCable.hardwareOf heap x = .throws := by
      unfold SectionCable.hardwareOf
      rw [hs]
      have hv : ¬ validIndex x.attachment s.hardwares.length = true := by
        rw [validIndex_iff]
        omega
      simp only
      rw [if_neg hv]
    rw [List.nil_append]
    unfold SectionCable.connectionMessages
    rw [this]
  | cons c pre ih =>
    intro i h
    obtain ⟨t, ht⟩ := h c (by simp)
    rw [List.cons_append]
    unfold SectionCable.connectionMessages
    rw [fitted_iff.2 ht, ih fun y hy => h y (by simp [hy])]

/-- **C129** for a bad attachment: if the members of a line cable with at least two connections are valid, then an
attachment index which the structure does not have makes validation throw; it is not read. -/
theorem C129_throws {heap : Heap ℝ} {c : SectionCable} {pre post : List Connection} {x : Connection}
    {s : LineStructure ℝ} (hm : c.validateMembers.1 = true) (hc : c.connections = pre ++ x :: post)
    (hl : 2 ≤ c.connections.length) (hp : ∀ y ∈ pre, ∃ t, Fitted heap y t) (hs : heap x.ptr = some s)
    (hx : x.attachment < 0 ∨ (s.hardwares.length : ℤ) ≤ x.attachment) : c.validate heap = .throws := by
  obtain ⟨k, hk⟩ := ruling_defined hm
  unfold SectionCable.validate
  simp only
  rw [if_neg (by rw [hm]; decide), hk]
  simp only
  have : SectionCable.validateConnections heap c.connections = .throws := by
    unfold SectionCable.validateConnections
    rw [if_neg (by omega)]
    rw [show SectionCable.connectionMessages heap c.connections.length 0 c.connections = .throws by
      rw [hc]; exact messages_throw hs hx hp]
  rw [this]

/-- The second connection names an attachment that its pole does not have. -/
example : ∃ (c : SectionCable) (x : Connection) (s : LineStructure ℝ), c.validateMembers.1 = true ∧
    c.connections = [⟨1, 0⟩] ++ x :: [] ∧ 2 ≤ c.connections.length ∧
    (∀ y ∈ [(⟨1, 0⟩ : Connection)], ∃ t, Fitted ((exRoute 20 0).line.heap noHeap) y t) ∧
    (exRoute 20 0).line.heap noHeap x.ptr = some s ∧ (s.hardwares.length : ℤ) ≤ x.attachment := by
  have hm : (exMembers.whole ⟨[⟨1, 0⟩, ⟨2, 1⟩], 0⟩).validateMembers = (true, []) := hung_members
  refine ⟨exMembers.whole ⟨[⟨1, 0⟩, ⟨2, 1⟩], 0⟩, ⟨2, 1⟩, _, by rw [hm], rfl, by decide, ?_, rfl, ?_⟩
  · intro y hy
    cases List.mem_singleton.1 hy
    exact ⟨_, _, _, rfl, by decide, rfl, rfl⟩
  · simp [exPole]

end Verif.Props
