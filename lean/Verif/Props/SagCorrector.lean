import Verif.SagCorrectorLemmas
import Verif.Props.RulingSpan

/-! # Properties of the sag position corrector (C75, C110-C114) -/

set_option linter.unusedSectionVars false

namespace Verif.Props

open Catenary3d SagCorrector

/-! ## What a successful update leaves behind -/

theorem clippedSpans_facts (k : Catenary3d) (ps : List V3) :
    ∀ c ∈ clippedSpans k ps, c.Reachable ∧ c.weightUnit = k.weightUnit ∧ c.direction = .positive ∧
      c.tensionHorizontal = k.tensionHorizontal := by
  induction ps with
  | nil => intro c hc; cases hc
  | cons a ps ih =>
    cases ps with
    | nil => intro c hc; cases hc
    | cons b ps =>
      intro c hc
      rcases List.mem_cons.1 hc with rfl | hc
      · exact ⟨⟨[.setDirection .positive, .setSpacing ⟨b.x - a.x, b.y - a.y, b.z - a.z⟩,
          .setTension k.tensionHorizontal, .setWeight k.weightUnit], rfl⟩, rfl, rfl, rfl⟩
      · exact ih c hc

theorem clippedSpans_length (k : Catenary3d) (p : V3) (ps : List V3) :
    (clippedSpans k (p :: ps)).length = ps.length := by
  induction ps generalizing p with
  | nil => rfl
  | cons q ps ih => exact congrArg (· + 1) (ih q)

/-- The spans between the attachment points. -/
def spacings : List V3 → List V3
  | a :: b :: ps => ⟨b.x - a.x, b.y - a.y, b.z - a.z⟩ :: spacings (b :: ps)
  | _ => []

theorem clippedSpans_spacings (k : Catenary3d) (ps : List V3) :
    (clippedSpans k ps).map (·.spacing) = spacings ps := by
  induction ps with
  | nil => rfl
  | cons a ps ih =>
    cases ps with
    | nil => rfl
    | cons b ps => exact congrArg (_ :: ·) ih

/-- The clipped state. -/
def ClippedFrom (k : Catenary3d) (ps : List V3) (cs : List Catenary3d) : Prop :=
  cs = asked (clippedSpans k ps)

/-- The pulley state: the same spans, tensions matching at the pulleys, all catenaries up to date. -/
structure PulleyedFrom (cs ks : List Catenary3d) : Prop where
  spans : List.Forall₂ SameSpan cs ks
  chain : ks.IsChain Pulley
  asked : SagCorrector.asked ks = ks

theorem solved_from {cs : List Catenary3d} {w : V3} (h : ∀ k ∈ cs, k.Reachable ∧ k.weightUnit = w) (x : ℝ)
    {ks : List Catenary3d} (hs : List.Forall₂ SameSpan cs ks) (hok : (solvePulley x ks).1 = true) :
    PulleyedFrom cs (SagCorrector.asked (solvePulley x ks).2) := by
  have hr := sameSpan_right hs
  have hw : ∀ k ∈ ks, k.Reachable ∧ k.weightUnit = w := by
    intro k hk
    refine ⟨hr k hk, ?_⟩
    clear hok hr
    induction hs with
    | nil => cases hk
    | cons r _ ih =>
      rcases List.mem_cons.1 hk with rfl | hk
      · exact r.weight.trans (h _ List.mem_cons_self).2
      · exact ih (fun k hk => h k (List.mem_cons_of_mem _ hk))
          hk
  exact ⟨Forall₂.asked (forall₂_trans (fun _ _ _ a b => a.trans b) hs (solvePulley_sameSpan x hr)),
    asked_chain (sameSpan_right (solvePulley_sameSpan x hr)) (solvePulley_chain hw x hok), asked_asked _⟩

theorem loop_from {cs : List Catenary3d} {w : V3} (h : ∀ k ∈ cs, k.Reachable ∧ k.weightUnit = w) (target : ℝ) (n : ℕ)
    (st : SecantState) {ks : List Catenary3d} (hs : PulleyedFrom cs ks) {st' : SecantState}
    (hok : (pulleyLoop target n st ks).1 = some st') : PulleyedFrom cs (pulleyLoop target n st ks).2 := by
  induction n generalizing st ks with
  | zero => exact hs
  | succ n ih =>
    unfold pulleyLoop at hok ⊢
    split_ifs at hok ⊢ with h1
    · simp only at hok ⊢
      split_ifs at hok ⊢ with h2
      exact ih _ (solved_from h _ hs.spans (by simpa using h2)) hok
    · exact hs

/-- A successful update. -/
structure Updated (s s' : SagCorrector) : Prop where
  lineCable : s'.lineCable = s.lineCable
  points : s'.points = s.points
  flag : s'.isUpdated = true
  clipped : ∃ c k p ps, s.lineCable = some c ∧ c.catenaryRulingSpan = .val k ∧ k.validate.1 = true ∧
    s.points = some (p :: ps) ∧ ps ≠ [] ∧ s'.clipped = asked (clippedSpans k (p :: ps)) ∧
    s'.lengthClipped = lengthCatenaries (clippedSpans k (p :: ps))
  pulleyed : PulleyedFrom s'.clipped s'.pulleyed

theorem updateClipped_true {s s' : SagCorrector} (h : s.updateClipped = .ok s' true) :
    ∃ c k p ps, s.lineCable = some c ∧ c.catenaryRulingSpan = .val k ∧ k.validate.1 = true ∧
      s.points = some (p :: ps) ∧
      s' = { s with clipped := asked (clippedSpans k (p :: ps)),
                    lengthClipped := lengthCatenaries (clippedSpans k (p :: ps)) } := by
  unfold updateClipped at h
  simp only at h
  split at h
  · cases h
  · rename_i c hc
    split at h
    · cases h
    · cases h
    · rename_i k hk
      split_ifs at h with hv
      · cases h
      · split at h
        · cases h
        · cases h
        · rename_i p ps hp
          refine ⟨c, k, p, ps, hc, hk, by simpa using hv, hp, ?_⟩
          cases h
          rfl

theorem updateClipped_of {s : SagCorrector} {c : SectionCable} {k : Catenary3d} {p : V3} {ps : List V3}
    (hc : s.lineCable = some c) (hk : c.catenaryRulingSpan = .val k) (hv : k.validate.1 = true)
    (hp : s.points = some (p :: ps)) :
    s.updateClipped = .ok { s with clipped := asked (clippedSpans k (p :: ps)),
                                   lengthClipped := lengthCatenaries (clippedSpans k (p :: ps)) } true := by
  unfold updateClipped
  simp only [hc, hk, hv, hp]
  rfl

theorem asked_facts {k : Catenary3d} {ps : List V3} :
    ∀ c ∈ asked (clippedSpans k ps), c.Reachable ∧ c.weightUnit = k.weightUnit := by
  intro c hc
  obtain ⟨d, hd, rfl⟩ := List.mem_map.1 hc
  obtain ⟨h1, h2, _⟩ := clippedSpans_facts k ps d hd
  exact ⟨h1.step .query, (alike_query h1).weight.trans h2⟩

theorem updatePulley_ok {s s' : SagCorrector} {w : V3} (hc : ∀ k ∈ s.clipped, k.Reachable ∧ k.weightUnit = w)
    (h : s.updatePulley = .ok s' true) :
    s.clipped ≠ [] ∧ PulleyedFrom s.clipped s'.pulleyed ∧ s'.clipped = s.clipped ∧ s'.lineCable = s.lineCable ∧
      s'.points = s.points ∧ s'.lengthClipped = s.lengthClipped := by
  unfold updatePulley at h
  simp only at h
  split at h
  · cases h
  · rename_i k ks hk
    have hne : s.clipped ≠ [] := by rw [show s.clipped = k :: ks from hk]; exact List.cons_ne_nil _ _
    split_ifs at h with h1 h2
    · cases h
    · cases h
    · have hr := fun k hk => (hc k hk).1
      have P1 := solved_from hc k.tensionHorizontal (sameSpan_refl hr) (by simpa using h1)
      have P2 := solved_from hc (k.tensionHorizontal * 1.10) P1.spans (by simpa using h2)
      split at h
      · cases h
      · rename_i st hst
        split_ifs at h with h3
        · cases h
          exact ⟨hne, loop_from hc _ _ _ P2 hst, rfl, rfl, rfl, rfl⟩
        · cases h

theorem update_updated {s s' : SagCorrector} (h : s.update = .ok s' true) : Updated s s' := by
  unfold SagCorrector.update at h
  split at h
  · cases h
  · cases h
  · cases h
  · rename_i s1 hs1
    obtain ⟨c, k, p, ps, h1, h2, h3, h4, e⟩ := updateClipped_true hs1
    split at h
    · cases h
    · cases h
    · rename_i s2 b hs2
      cases h
      subst e
      obtain ⟨g1, g2, g3, g4, g5, g6⟩ := updatePulley_ok (asked_facts (k := k) (ps := p :: ps)) hs2
      refine ⟨g4, g5, rfl, ⟨c, k, p, ps, h1, h2, h3, h4, ?_, g3, g6⟩, ?_⟩
      · rintro rfl
        exact g1 rfl
      · show PulleyedFrom s2.clipped s2.pulleyed
        rw [g3]
        exact g2

/-! ## C110: no dependence on history -/

/-- What a call returns, without the state. -/
def resultOf {S A : Type} : Outcome S A → Res A
  | .ok _ a => .val a
  | .throws _ => .throws
  | .ub => .ub

/-- A new corrector with the same line cable and points. -/
noncomputable def freshCorrector (s : SagCorrector) : SagCorrector :=
  (SagCorrector.new.setLineCable s.lineCable).setPoints s.points

/-- How two updates compare. -/
def SameUpdate : Outcome SagCorrector Bool → Outcome SagCorrector Bool → Prop
  | .ub, .ub => True
  | .throws _, .throws _ => True
  | .ok _ false, .ok _ false => True
  | .ok a true, .ok b true => a = b
  | _, _ => False

theorem updatePulley_same {s t : SagCorrector} (h1 : s.lineCable = t.lineCable) (h2 : s.points = t.points)
    (h3 : s.clipped = t.clipped) (h4 : s.lengthClipped = t.lengthClipped) (h5 : s.isUpdated = t.isUpdated) :
    s.updatePulley = t.updatePulley := by
  obtain ⟨a1, a2, a3, a4, a5, a6, a7⟩ := s
  obtain ⟨b1, b2, b3, b4, b5, b6, b7⟩ := t
  cases h1; cases h2; cases h3; cases h4; cases h5
  rfl

theorem update_same_inputs {s t : SagCorrector} (h1 : s.lineCable = t.lineCable) (h2 : s.points = t.points) :
    SameUpdate s.update t.update := by
  unfold SagCorrector.update updateClipped
  simp only
  rw [← h1, ← h2]
  cases s.lineCable with
  | none => exact trivial
  | some c =>
    simp only
    cases c.catenaryRulingSpan with
    | ub => exact trivial
    | throws => exact trivial
    | val k =>
      simp only
      cases k.validate.1 with
      | false => exact trivial
      | true =>
        simp only [Bool.true_eq_false, if_false]
        match s.points with
        | none => exact trivial
        | some [] => exact trivial
        | some (p :: ps) =>
          simp only
          generalize e1 : SagCorrector.updatePulley _ = o1
          generalize e2 : SagCorrector.updatePulley _ = o2
          have e : o1 = o2 := by
            rw [← e1, ← e2]
            exact updatePulley_same rfl rfl rfl rfl rfl
          subst e
          cases o1 with
          | ub => exact trivial
          | throws => exact trivial
          | ok s' b =>
            cases b with
            | false => exact trivial
            | true => rfl

/-- The flag tells the truth. -/
def Current (s : SagCorrector) : Prop := s.isUpdated = true → (freshCorrector s).update = .ok s true

theorem update_fresh {s s' : SagCorrector} (h : s.update = .ok s' true) : (freshCorrector s').update = .ok s' true := by
  have U := update_updated h
  have h2 := update_same_inputs (s := s) (t := freshCorrector s') U.lineCable.symm U.points.symm
  rw [h] at h2
  match e : (freshCorrector s').update with
  | .ub => rw [e] at h2; exact h2.elim
  | .throws _ => rw [e] at h2; exact h2.elim
  | .ok _ false => rw [e] at h2; exact h2.elim
  | .ok a true => rw [e] at h2; rw [show s' = a from h2]

theorem updateClipped_keeps {s s' : SagCorrector} (h : s.updateClipped.state? = some s') :
    s'.lineCable = s.lineCable ∧ s'.points = s.points ∧ s'.isUpdated = s.isUpdated := by
  unfold updateClipped at h
  simp only at h
  repeat' split at h
  all_goals first
    | (cases h; exact ⟨rfl, rfl, rfl⟩)
    | cases h

theorem updatePulley_shape (s : SagCorrector) :
    s.updatePulley = .ub ∨ ∃ s' b, s.updatePulley = .ok s' b ∧ s'.lineCable = s.lineCable ∧ s'.points = s.points := by
  unfold updatePulley
  simp only
  repeat' split
  all_goals first
    | exact Or.inl rfl
    | exact Or.inr ⟨_, _, rfl, rfl, rfl⟩

theorem updatePulley_keeps {s s' : SagCorrector} (h : s.updatePulley.state? = some s') :
    s'.lineCable = s.lineCable ∧ s'.points = s.points ∧ ∃ b, s.updatePulley = .ok s' b := by
  rcases updatePulley_shape s with e | ⟨t, b, e, h1, h2⟩
  · rw [e] at h; cases h
  · rw [e] at h; cases h; exact ⟨h1, h2, b, e⟩

/-- An update keeps the pointers, and the flag afterwards tells the truth unless the update threw. -/
theorem update_keeps {s s' : SagCorrector} (h : s.update.state? = some s') :
    s'.lineCable = s.lineCable ∧ s'.points = s.points ∧
      ((∃ b, s.update = .ok s' b ∧ s'.isUpdated = b) ∨ s.update = .throws s' ∧ s'.isUpdated = s.isUpdated) := by
  unfold SagCorrector.update at h ⊢
  match e : s.updateClipped with
  | .ub => rw [e] at h; cases h
  | .throws t =>
    obtain ⟨a, b, c⟩ := updateClipped_keeps (s := s) (s' := t) (by rw [e]; rfl)
    rw [e] at h
    cases h
    exact ⟨a, b, Or.inr ⟨rfl, c⟩⟩
  | .ok t false =>
    obtain ⟨a, b, c⟩ := updateClipped_keeps (s := s) (s' := t) (by rw [e]; rfl)
    rw [e] at h
    cases h
    exact ⟨a, b, Or.inl ⟨false, rfl, rfl⟩⟩
  | .ok t true =>
    rw [e] at h
    obtain ⟨a, b, c⟩ := updateClipped_keeps (s := s) (s' := t) (by rw [e]; rfl)
    simp only at h ⊢
    match e2 : ({ t with isUpdated := true } : SagCorrector).updatePulley with
    | .ub => rw [e2] at h; cases h
    | .throws u =>
      obtain ⟨_, _, b, hb⟩ := updatePulley_keeps (s := { t with isUpdated := true }) (s' := u) (by rw [e2]; rfl)
      rw [e2] at hb; cases hb
    | .ok u b' =>
      rw [e2] at h
      cases h
      obtain ⟨a', b'', _⟩ := updatePulley_keeps (s := { t with isUpdated := true }) (s' := u) (by rw [e2]; rfl)
      exact ⟨a'.trans a, b''.trans b, Or.inl ⟨b', rfl, rfl⟩⟩

theorem update_current {s s' : SagCorrector} (hs : Current s) (h : s.update.state? = some s') : Current s' := by
  intro hu
  obtain ⟨h1, h2, ⟨b, e, hb⟩ | ⟨e, hb⟩⟩ := update_keeps h
  · rw [hu] at hb
    subst hb
    exact update_fresh e
  · have hf := hs (hb.symm.trans hu)
    have := update_same_inputs (s := s) (t := freshCorrector s) rfl rfl
    rw [e, hf] at this
    exact this.elim

theorem ensure_current {s s' : SagCorrector} (hs : Current s) (h : s.ensure.state? = some s') : Current s' := by
  unfold SagCorrector.ensure at h
  split_ifs at h
  · cases h; exact hs
  · exact update_current hs h

/-- An updated corrector answers without changing. -/
theorem asked_same {s : SagCorrector} (hs : Current s) (hu : s.isUpdated = true) :
    asked s.clipped = s.clipped ∧ asked s.pulleyed = s.pulleyed := by
  have U := update_updated (hs hu)
  obtain ⟨c, k, p, ps, _, _, _, _, _, e, _⟩ := U.clipped
  exact ⟨by rw [e, asked_asked], U.pulleyed.asked⟩

theorem ensure_true {s s' : SagCorrector} (hs : Current s) (h : s.ensure = .ok s' true) :
    s'.isUpdated = true ∧ (freshCorrector s).update = .ok s' true := by
  unfold SagCorrector.ensure at h
  split_ifs at h with hu
  · cases h
    exact ⟨hu, hs hu⟩
  · have U := update_updated h
    have := update_fresh h
    refine ⟨U.flag, ?_⟩
    have e : freshCorrector s' = freshCorrector s := by
      unfold freshCorrector
      rw [U.lineCable, U.points]
    rwa [e] at this

/-- Queries that leave an updated corrector as it is. -/
theorem ask_current {A : Type} {s s' : SagCorrector} (hs : Current s) (failed : A)
    (f : SagCorrector → SagCorrector × A) (hf : ∀ t, Current t → t.isUpdated = true → (f t).1 = t)
    (h : (s.ask failed f).state? = some s') : Current s' := by
  unfold SagCorrector.ask at h
  match e : s.ensure with
  | .ub => rw [e] at h; cases h
  | .throws t => rw [e] at h; cases h; exact ensure_current hs (by rw [e]; rfl)
  | .ok t false => rw [e] at h; cases h; exact ensure_current hs (by rw [e]; rfl)
  | .ok t true =>
    have ht : Current t := ensure_current hs (by rw [e]; rfl)
    rw [e] at h
    simp only [Outcome.state?, Option.some.injEq] at h
    rw [hf t ht (ensure_true hs e).1] at h
    rwa [← h]

theorem asked_unchanged {s : SagCorrector} (hs : Current s) (hu : s.isUpdated = true) :
    ({ s with clipped := asked s.clipped, pulleyed := asked s.pulleyed } : SagCorrector) = s := by
  obtain ⟨h1, h2⟩ := asked_same hs hu
  rw [h1, h2]

theorem reachable_current {s : SagCorrector} (R : s.Reachable) : Current s := by
  induction R with
  | new => intro h; cases h
  | @step s s' e _ h ih =>
    cases e with
    | setLineCable c => cases h; intro hu; cases hu
    | setPoints ps => cases h; intro hu; cases hu
    | clipped => exact ask_current ih _ _ (fun _ _ _ => rfl) h
    | pulleyed => exact ask_current ih _ _ (fun _ _ _ => rfl) h
    | offsets => exact ask_current ih _ _ (fun t ht hu => asked_unchanged ht hu) h
    | corrections => exact ask_current ih _ _ (fun t ht hu => asked_unchanged ht hu) h
    | validate heap =>
      have h : (s.validate heap).state? = some s' := h
      unfold SagCorrector.validate at h
      split at h
      · cases h
      · cases h; exact ih
      · simp only at h
        match e : s.update with
        | .ub => rw [e] at h; cases h
        | .throws t => rw [e] at h; cases h; exact update_current ih (by rw [e]; rfl)
        | .ok t true => rw [e] at h; cases h; exact update_current ih (by rw [e]; rfl)
        | .ok t false => rw [e] at h; cases h; exact update_current ih (by rw [e]; rfl)

/-- The questions to a corrector. -/
inductive CorrectorQuery : Type → Type 1 where
  | clipped : CorrectorQuery (Option (List Catenary3d))
  | pulleyed : CorrectorQuery (Option (List Catenary3d))
  | offsets : CorrectorQuery (List ℝ)
  | corrections : CorrectorQuery (List ℝ)
  | validate (heap : Heap ℝ) : CorrectorQuery (Bool × List String)

/-- Asking them. -/
noncomputable def CorrectorQuery.ask (s : SagCorrector) : {A : Type} → CorrectorQuery A → Outcome SagCorrector A
  | _, .clipped => s.catenariesClipped
  | _, .pulleyed => s.catenariesPulleyed
  | _, .offsets => s.clippingOffsets
  | _, .corrections => s.sagCorrections
  | _, .validate heap => s.validate heap

theorem ask_fresh {A : Type} {s : SagCorrector} (hs : Current s) (failed : A)
    (f : SagCorrector → SagCorrector × A) :
    resultOf (s.ask failed f) = resultOf ((freshCorrector s).ask failed f) := by
  have hu : (freshCorrector s).ensure = (freshCorrector s).update := if_neg (show ¬ false = true by decide)
  unfold SagCorrector.ask
  rw [hu]
  by_cases h : s.isUpdated = true
  · have : s.ensure = .ok s true := if_pos h
    rw [this, hs h]
  · have : s.ensure = s.update := if_neg h
    rw [this]
    have := update_same_inputs (s := s) (t := freshCorrector s) rfl rfl
    match e1 : s.update, e2 : (freshCorrector s).update with
    | .ub, .ub => rfl
    | .throws _, .throws _ => rfl
    | .ok _ false, .ok _ false => rfl
    | .ok a true, .ok b true => rw [e1, e2] at this; rw [show a = b from this]
    | .ub, .throws _ | .ub, .ok _ _ | .throws _, .ub | .throws _, .ok _ _ | .ok _ true, .ub | .ok _ false, .ub
    | .ok _ true, .throws _ | .ok _ false, .throws _ | .ok _ true, .ok _ false | .ok _ false, .ok _ true =>
      rw [e1, e2] at this; exact this.elim

/-- C110: every answer of a corrector, whatever was asked before, is that of a new corrector given the same line cable
and attachment points. -/
theorem C110_history {s : SagCorrector} (R : s.Reachable) {A : Type} (q : CorrectorQuery A) :
    resultOf (q.ask s) = resultOf (q.ask (freshCorrector s)) := by
  have hs := reachable_current R
  cases q with
  | clipped => exact ask_fresh hs _ _
  | pulleyed => exact ask_fresh hs _ _
  | offsets => exact ask_fresh hs _ _
  | corrections => exact ask_fresh hs _ _
  | validate heap =>
    have := update_same_inputs (s := s) (t := freshCorrector s) rfl rfl
    show resultOf (s.validate heap) = resultOf ((freshCorrector s).validate heap)
    unfold SagCorrector.validate
    show resultOf (match validateLineCable heap s.lineCable with | .ub => _ | .throws => _ | .val a => _) =
      resultOf (match validateLineCable heap s.lineCable with | .ub => _ | .throws => _ | .val a => _)
    cases validateLineCable heap s.lineCable with
    | ub => rfl
    | throws => rfl
    | val a =>
      match e1 : s.update, e2 : (freshCorrector s).update with
      | .ub, .ub => rfl
      | .throws _, .throws _ => rfl
      | .ok _ false, .ok _ false => rfl
      | .ok a true, .ok b true => rfl
      | .ub, .throws _ | .ub, .ok _ _ | .throws _, .ub | .throws _, .ok _ _ | .ok _ true, .ub | .ok _ false, .ub
      | .ok _ true, .throws _ | .ok _ false, .throws _ | .ok _ true, .ok _ false | .ok _ false, .ok _ true =>
        rw [e1, e2] at this; exact this.elim

/-! ## C75: clipping offsets and sag corrections -/

/-- Both states of a corrector that answers. -/
theorem states_of {s : SagCorrector} (R : s.Reachable) {cs ks : List Catenary3d}
    (h1 : resultOf s.catenariesClipped = .val (some cs)) (h2 : resultOf s.catenariesPulleyed = .val (some ks)) :
    ∃ t, s.ensure = .ok t true ∧ t.clipped = cs ∧ t.pulleyed = ks ∧ Updated (freshCorrector s) t := by
  have hs := reachable_current R
  unfold catenariesClipped catenariesPulleyed SagCorrector.ask at *
  match e : s.ensure with
  | .ub => rw [e] at h1; cases h1
  | .throws t => rw [e] at h1; cases h1
  | .ok t false => rw [e] at h1; cases h1
  | .ok t true =>
    rw [e] at h1 h2
    have e1 : t.clipped = cs := Option.some.inj (Res.val.inj h1)
    have e2 : t.pulleyed = ks := Option.some.inj (Res.val.inj h2)
    exact ⟨t, rfl, e1, e2, update_updated (ensure_true hs e).2⟩

/-- The length of the first `i` catenaries. -/
noncomputable def lengthUpTo (ks : List Catenary3d) (i : ℕ) : ℝ := ((ks.take i).map Catenary3d.length).sum

theorem lengthUpTo_succ {ks : List Catenary3d} {i : ℕ} (h : i < ks.length) :
    lengthUpTo ks (i + 1) = lengthUpTo ks i + ((ks[i]?).map Catenary3d.length).getD 0 := by
  unfold lengthUpTo
  rw [List.take_add_one, List.map_append, List.sum_append, List.getElem?_eq_getElem h]
  simp

theorem offsetsFrom_spec (s : SagCorrector) {n : ℕ} (hc : s.clipped.length = n) (hp : s.pulleyed.length = n)
    (fuel i : ℕ) (hi : i + 1 + fuel = n + 1) :
    (offsetsFrom s (n + 1) (i + 1) (lengthUpTo s.clipped i) (lengthUpTo s.pulleyed i) fuel).length = fuel ∧
    ∀ j, j < fuel → (offsetsFrom s (n + 1) (i + 1) (lengthUpTo s.clipped i) (lengthUpTo s.pulleyed i) fuel)[j]? =
      some (if i + 1 + j = n then 0 else lengthUpTo s.clipped (i + 1 + j) - lengthUpTo s.pulleyed (i + 1 + j)) := by
  induction fuel generalizing i with
  | zero => exact ⟨rfl, fun j hj => absurd hj (Nat.not_lt_zero j)⟩
  | succ fuel ih =>
    unfold offsetsFrom
    by_cases hl : i + 1 = n
    · have hf : fuel = 0 := by omega
      subst hf
      rw [if_pos (Or.inr (by omega))]
      refine ⟨rfl, fun j hj => ?_⟩
      have : j = 0 := by omega
      subst this
      rw [if_pos (by omega)]
      rfl
    · rw [if_neg (by omega)]
      simp only [Nat.add_sub_cancel]
      rw [← lengthUpTo_succ (by omega), ← lengthUpTo_succ (by omega)]
      obtain ⟨h1, h2⟩ := ih (i + 1) (by omega)
      refine ⟨by rw [List.length_cons, h1], fun j hj => ?_⟩
      cases j with
      | zero => rw [List.getElem?_cons_zero, if_neg (by omega)]
      | succ j =>
        rw [List.getElem?_cons_succ, h2 j (by omega), show i + 1 + (j + 1) = i + 1 + 1 + j by omega]

/-- C75: there is one clipping offset per attachment point, the first and the last are zero, and the others are the
cable length from the start in the clipped state minus that in the pulley state. -/
theorem C75_offsets {s : SagCorrector} (R : s.Reachable) {cs ks : List Catenary3d}
    (h1 : resultOf s.catenariesClipped = .val (some cs)) (h2 : resultOf s.catenariesPulleyed = .val (some ks)) :
    ∃ offs ps, resultOf s.clippingOffsets = .val offs ∧ s.points = some ps ∧ offs.length = ps.length ∧
      ks.length + 1 = ps.length ∧ cs.length + 1 = ps.length ∧ 2 ≤ ps.length ∧
      offs[0]? = some 0 ∧ offs[cs.length]? = some 0 ∧
      ∀ i, 0 < i → i < cs.length → offs[i]? = some
        (((cs.take i).map Catenary3d.length).sum - ((ks.take i).map Catenary3d.length).sum) := by
  obtain ⟨t, e, e1, e2, U⟩ := states_of R h1 h2
  obtain ⟨c, k, p, ps, _, _, _, hp, hne, hcl, _⟩ := U.clipped
  have hlen : cs.length = ps.length := by
    rw [← e1, hcl]
    unfold asked
    rw [List.length_map, clippedSpans_length]
  have hlen2 : ks.length = ps.length := by rw [← e2, ← U.pulleyed.spans.length_eq, e1, hlen]
  have hpos : 0 < ps.length := List.length_pos_iff.2 hne
  obtain ⟨f1, f2⟩ := offsetsFrom_spec t (n := cs.length) (by rw [e1]) (by rw [e2, hlen, hlen2]) cs.length 0 (by omega)
  refine ⟨offsetsFrom t (t.clipped.length + 1) 0 0 0 (t.clipped.length + 1), p :: ps, ?_, hp, ?_, ?_, ?_, ?_, ?_, ?_, ?_⟩
  · unfold clippingOffsets SagCorrector.ask
    rw [e]
    rfl
  all_goals try rw [e1]
  all_goals try (unfold offsetsFrom; rw [if_pos (Or.inl rfl)])
  · rw [List.length_cons, List.length_cons]
    have : lengthUpTo t.clipped 0 = 0 := by simp [lengthUpTo]
    rw [this] at f1
    have : lengthUpTo t.pulleyed 0 = 0 := by simp [lengthUpTo]
    rw [this] at f1
    rw [f1, hlen]
  · rw [List.length_cons, hlen2]
  · rw [List.length_cons, hlen]
  · rw [List.length_cons]; omega
  · rfl
  · have z1 : lengthUpTo t.clipped 0 = 0 := by simp [lengthUpTo]
    have z2 : lengthUpTo t.pulleyed 0 = 0 := by simp [lengthUpTo]
    rw [z1, z2] at f2
    obtain ⟨m, hm⟩ : ∃ m, cs.length = m + 1 := ⟨cs.length - 1, by omega⟩
    have := f2 m (by omega)
    rw [if_pos (by omega)] at this
    conv_lhs => rw [show cs.length = m + 1 from hm]
    rw [List.getElem?_cons_succ, ← hm]
    exact this
  · intro i hi hi2
    have z1 : lengthUpTo t.clipped 0 = 0 := by simp [lengthUpTo]
    have z2 : lengthUpTo t.pulleyed 0 = 0 := by simp [lengthUpTo]
    rw [z1, z2] at f2
    obtain ⟨m, rfl⟩ : ∃ m, i = m + 1 := ⟨i - 1, by omega⟩
    have := f2 m (by omega)
    rw [if_neg (by omega), show 0 + 1 + m = m + 1 by omega, e1, e2] at this
    rw [List.getElem?_cons_succ]
    exact this

/-- C75: there is one sag correction per span, the sag in the pulley state minus that in the clipped state. -/
theorem C75_corrections {s : SagCorrector} (R : s.Reachable) {cs ks : List Catenary3d}
    (h1 : resultOf s.catenariesClipped = .val (some cs)) (h2 : resultOf s.catenariesPulleyed = .val (some ks)) :
    ∃ corr, resultOf s.sagCorrections = .val corr ∧ corr.length = cs.length ∧
      ∀ i (hc : i < cs.length) (hk : i < ks.length), corr[i]? = some (ks[i].sag - cs[i].sag) := by
  obtain ⟨t, e, e1, e2, U⟩ := states_of R h1 h2
  have hl : cs.length = ks.length := by rw [← e1, ← e2]; exact U.pulleyed.spans.length_eq
  refine ⟨List.zipWith (fun c p => p.sag - c.sag) t.clipped t.pulleyed, ?_, ?_, ?_⟩
  · unfold sagCorrections SagCorrector.ask
    rw [e]
    rfl
  · rw [List.length_zipWith, e1, e2, hl, min_self]
  · intro i hc hk
    subst e1 e2
    rw [List.getElem?_eq_getElem (by rw [List.length_zipWith, hl, min_self]; exact hk), List.getElem_zipWith]

/-! ## C111: the two states -/

/-- C111: the clipped state has one catenary per span between consecutive attachment points, with the spacing of these
points and the horizontal tension and unit load of the ruling span catenary, which is valid; the pulley state has
the same spans and loads. -/
theorem C111_spans {s : SagCorrector} (R : s.Reachable) {cs ks : List Catenary3d}
    (h1 : resultOf s.catenariesClipped = .val (some cs)) (h2 : resultOf s.catenariesPulleyed = .val (some ks)) :
    ∃ c k ps, s.lineCable = some c ∧ c.catenaryRulingSpan = .val k ∧ k.validate.1 = true ∧ s.points = some ps ∧
      cs.map (·.spacing) = spacings ps ∧ ks.map (·.spacing) = spacings ps ∧
      (∀ a ∈ cs, a.tensionHorizontal = k.tensionHorizontal ∧ a.weightUnit = k.weightUnit ∧ a.direction = .positive) ∧
      ∀ a ∈ ks, a.weightUnit = k.weightUnit ∧ a.direction = .positive := by
  obtain ⟨t, e, e1, e2, U⟩ := states_of R h1 h2
  obtain ⟨c, k, p, ps, hc, hk, hv, hp, hne, hcl, _⟩ := U.clipped
  have facts : ∀ a ∈ cs, a.tensionHorizontal = k.tensionHorizontal ∧ a.weightUnit = k.weightUnit ∧
      a.direction = .positive := by
    intro a ha
    rw [← e1, hcl] at ha
    obtain ⟨d, hd, rfl⟩ := List.mem_map.1 ha
    obtain ⟨g1, g2, g3, g4⟩ := clippedSpans_facts k (p :: ps) d hd
    have A := alike_query g1
    exact ⟨A.tension.trans g4, A.weight.trans g2, A.direction.trans g3⟩
  have sp : cs.map (·.spacing) = spacings (p :: ps) := by
    rw [← e1, hcl, ← clippedSpans_spacings k]
    unfold asked
    rw [List.map_map]
    refine List.map_congr_left fun a ha => ?_
    exact (alike_query (clippedSpans_facts k (p :: ps) a ha).1).spacing
  have hS : List.Forall₂ SameSpan cs ks := by rw [← e1, ← e2]; exact U.pulleyed.spans
  have key : ks.map (·.spacing) = cs.map (·.spacing) ∧ ((∀ a ∈ cs, a.weightUnit = k.weightUnit ∧
      a.direction = .positive) → ∀ a ∈ ks, a.weightUnit = k.weightUnit ∧ a.direction = .positive) := by
    clear sp facts h1 h2 e1 e2
    induction hS with
    | nil => exact ⟨rfl, fun _ a ha => by cases ha⟩
    | cons r _ ih =>
      refine ⟨by rw [List.map_cons, List.map_cons, r.spacing, ih.1], fun h a ha => ?_⟩
      rcases List.mem_cons.1 ha with rfl | ha
      · obtain ⟨g1, g2⟩ := h _ List.mem_cons_self
        exact ⟨r.weight.trans g1, r.direction.trans g2⟩
      · exact ih.2 (fun a ha => h a (List.mem_cons_of_mem _ ha)) a ha
  exact ⟨c, k, p :: ps, hc, hk, hv, hp, sp, key.1.trans sp, facts, key.2 fun a ha => (facts a ha).2⟩

/-! ## C112: pulleys -/

/-- C112: in the pulley state the cable tensions before and after every pulley agree, up to 0.01 times the distance of
the end points of the span ahead over their horizontal distance; and every span after the first is valid. -/
theorem C112_pulleys {s : SagCorrector} (R : s.Reachable) {ks : List Catenary3d}
    (h2 : resultOf s.catenariesPulleyed = .val (some ks)) :
    ∀ i (hi : i + 1 < ks.length), ks[i + 1].validate.1 = true ∧
      |ks[i + 1].tension 0 - ks[i].tension 1| ≤ 0.01 * (ks[i + 1].spacing.magnitude / ks[i + 1].spacing.x) := by
  have hs := reachable_current R
  have h1 : ∃ cs, resultOf s.catenariesClipped = .val (some cs) := by
    unfold catenariesClipped catenariesPulleyed SagCorrector.ask at *
    match e : s.ensure with
    | .ub => rw [e] at h2; cases h2
    | .throws t => rw [e] at h2; cases h2
    | .ok t false => rw [e] at h2; cases h2
    | .ok t true => exact ⟨t.clipped, rfl⟩
  obtain ⟨cs, h1⟩ := h1
  obtain ⟨t, e, e1, e2, U⟩ := states_of R h1 h2
  have := U.pulleyed.chain
  rw [e2] at this
  intro i hi
  exact List.isChain_iff_getElem.1 this i hi

/-! ## C113: a single span -/

theorem zero_length (ks : List Catenary3d) : lengthCatenaries ks = (ks.map Catenary3d.length).sum := by
  unfold lengthCatenaries
  have : ∀ (x : ℝ), ks.foldl (fun l k => l + k.length) x = x + (ks.map Catenary3d.length).sum := by
    induction ks with
    | nil => intro x; simp
    | cons k ks ih => intro x; rw [List.foldl_cons, ih, List.map_cons, List.sum_cons]; ring
  rw [this, zero_add]

theorem span_length_pos {k : Catenary3d} (R : k.Reachable) (S : k.Span) (h0 : 0 < k.tensionHorizontal) :
    0 < k.length := by
  have hl := length_fam S (fam_refl R) h0
  have e : k.length = (k.setTension k.tensionHorizontal).length :=
    (Alike.ask ⟨R.step (.setTension _), R, rfl, rfl, rfl, rfl⟩ Query3.length)
  rw [e, hl]
  unfold lengthFn
  have hx := S.s2_pos
  have hw := S.w_pos
  have : 0 < k.tensionHorizontal / k.weightUnit.magnitude := div_pos h0 hw
  have h8 : 0 < Real.sinh (k.spacing2d.x / 2 / (k.tensionHorizontal / k.weightUnit.magnitude)) :=
    Real.sinh_pos_iff.2 (by positivity)
  positivity

theorem valid_length_pos {k : Catenary3d} (R : k.Reachable) (hv : k.validate.1 = true) : 0 < k.length := by
  obtain ⟨h0, h1, h2, h3, h4, h5, h6, h7⟩ := (C54_validate_3d R).1.1 hv
  exact span_length_pos R ⟨h1, h2, h4, h5, h6⟩ h0

/-- The loop on a single span. -/
theorem loop_single {H L y : ℝ} (h1 : 1 < H) (hL : 0 < L) {a : Catenary3d} (ha : (a.setTension H).length = L) :
    pulleyLoop L 101 ⟨⟨H, L⟩, ⟨H * 1.10, y⟩, ⟨-999999, -999999⟩, 0⟩ [a] =
      (some ⟨⟨H, L⟩, ⟨H * 1.10, y⟩, ⟨H, L⟩, 1⟩, asked [a.setTension H]) := by
  have e1 : 0.1 < |H - H * 1.10| := by
    rw [abs_of_neg (by linarith)]; linarith
  have e2 : (0.01 : ℝ) < |-999999 - L| := by
    rw [abs_of_neg (by linarith)]; linarith
  have ex : (⟨⟨H, L⟩, ⟨H * 1.10, y⟩, ⟨-999999, -999999⟩, 0⟩ : SecantState).next L = H := by
    show H + (L - L) / _ = H
    rw [sub_self, zero_div, add_zero]
  have el : lengthCatenaries [a.setTension H] = L := by
    rw [zero_length]; simp [ha]
  unfold pulleyLoop
  rw [if_pos ⟨e1, e2⟩]
  simp only [ex]
  rw [show solvePulley H [a] = (true, [a.setTension H]) from rfl]
  simp only [Bool.true_eq_false, if_false, el]
  have ea : (⟨⟨H, L⟩, ⟨H * 1.10, y⟩, ⟨-999999, -999999⟩, 0⟩ : SecantState).advance L ⟨H, L⟩ =
      ⟨⟨H, L⟩, ⟨H * 1.10, y⟩, ⟨H, L⟩, 1⟩ := by
    unfold SecantState.advance
    simp only
    rw [if_neg (lt_irrefl _), if_neg (fun h => lt_irrefl _ h.1), if_neg (by linarith)]
  rw [ea]
  unfold pulleyLoop
  rw [if_neg (by
    rintro ⟨_, h⟩
    simp only [sub_self, abs_zero] at h
    norm_num at h)]

/-- The update for a single span. -/
theorem update_single {s : SagCorrector} {c : SectionCable} {k : Catenary3d} {p q : V3}
    (hc : s.lineCable = some c) (hk : c.catenaryRulingSpan = .val k) (hv : k.validate.1 = true)
    (hp : s.points = some [p, q]) (hL : 0 < (clippedSpan k p q).length) (h1 : 1 < k.tensionHorizontal) :
    ∃ s', s.update = .ok s' true ∧ ∃ a b, s'.clipped = [a] ∧ s'.pulleyed = [b] ∧ Alike a b := by
  have R : (clippedSpan k p q).Reachable :=
    (clippedSpans_facts k [p, q] _ List.mem_cons_self).1
  set d := clippedSpan k p q with hd
  have A := alike_query R
  set a := Event.query.next d with ha
  have hH : a.tensionHorizontal = k.tensionHorizontal := A.tension
  have same : ∀ {b : Catenary3d}, SameSpan a b → Alike d (b.setTension k.tensionHorizontal) := fun hb =>
    ⟨R, hb.right.step (.setTension _), hb.direction.trans A.direction, hb.spacing.trans A.spacing,
      hb.weight.trans A.weight, rfl⟩
  have el : ∀ {b : Catenary3d}, SameSpan a b → (b.setTension k.tensionHorizontal).length = d.length :=
    fun hb => (same hb).ask Query3.length
  have S0 : SameSpan a a := ⟨A.right, A.right, rfl, rfl, rfl⟩
  have hu : s.updateClipped = .ok { s with clipped := [a], lengthClipped := lengthCatenaries [d] } true := by
    unfold updateClipped
    simp only [hc, hk, hv, hp]
    rfl
  have el0 : lengthCatenaries [d] = d.length := by rw [zero_length]; simp
  set s1 : SagCorrector := { s with clipped := [a], lengthClipped := lengthCatenaries [d], isUpdated := true } with hs1
  set b1 := Event.query.next (a.setTension k.tensionHorizontal) with hb1
  set b2 := Event.query.next (b1.setTension (k.tensionHorizontal * 1.10)) with hb2
  have S1 : SameSpan a b1 := (sameSpan_set A.right _).trans (alike_query (A.right.step (.setTension _))).sameSpan
  have S2 : SameSpan a b2 := S1.trans ((sameSpan_set S1.right _).trans
    (alike_query (S1.right.step (.setTension _))).sameSpan)
  have e1 : lengthCatenaries [a.setTension k.tensionHorizontal] = d.length := by
    rw [zero_length]; simp [el S0]
  have hl := loop_single (y := lengthCatenaries [b1.setTension (k.tensionHorizontal * 1.10)]) h1 hL (el S2)
  have hup : s1.updatePulley = .ok ⟨s.lineCable, s.points, [a], asked [b2.setTension k.tensionHorizontal],
      d.length, d.length, true⟩ true := by
    unfold updatePulley
    show (if _ then _ else if _ then _ else _) = _
    simp only
    show (if true = false then _ else if true = false then _ else _) = _
    simp only [Bool.true_eq_false, if_false]
    rw [show s1.lengthClipped = d.length from el0, hH]
    rw [show (solvePulley k.tensionHorizontal [a]).2 = [a.setTension k.tensionHorizontal] from rfl, e1]
    rw [show asked [a.setTension k.tensionHorizontal] = [b1] from rfl,
      show (solvePulley (k.tensionHorizontal * 1.10) [b1]).2 = [b1.setTension (k.tensionHorizontal * 1.10)] from rfl,
      show asked [b1.setTension (k.tensionHorizontal * 1.10)] = [b2] from rfl, hl]
    rfl
  refine ⟨⟨s.lineCable, s.points, [a], asked [b2.setTension k.tensionHorizontal],
      d.length, d.length, true⟩, ?_, a,
    Event.query.next (b2.setTension k.tensionHorizontal), rfl, rfl, ?_⟩
  · unfold SagCorrector.update
    rw [hu]
    show (match s1.updatePulley with | .ub => _ | .throws s => _ | .ok s b => _) = _
    rw [hup]
  · exact A.symm.trans ((same S2).trans (alike_query (S2.right.step (.setTension _))))

/-- C113: with a single, valid span and a horizontal tension above 1 clipped and pulley state agree: the sag correction
and both clipping offsets are zero. -/
theorem C113_single_partial {s : SagCorrector} (hs : s.Reachable) {c : SectionCable} {k : Catenary3d} {p q : V3}
    (hc : s.lineCable = some c) (hk : c.catenaryRulingSpan = .val k) (hv : k.validate.1 = true)
    (hp : s.points = some [p, q])
    (hspan : ((((Catenary3d.new.setDirection .positive).setSpacing ⟨q.x - p.x, q.y - p.y, q.z - p.z⟩).setTension
      k.tensionHorizontal).setWeight k.weightUnit).validate.1 = true) (h1 : 1 < k.tensionHorizontal) :
    resultOf s.sagCorrections = .val [0] ∧ resultOf s.clippingOffsets = .val [0, 0] ∧
    ∃ a b, resultOf s.catenariesClipped = .val (some [a]) ∧ resultOf s.catenariesPulleyed = .val (some [b]) ∧
      b.tensionHorizontal = a.tensionHorizontal ∧ b.length = a.length := by
  obtain ⟨s', h, a, b, e1, e2, A⟩ := update_single (s := freshCorrector s) hc hk hv hp
    (valid_length_pos (clippedSpans_facts k [p, q] _ List.mem_cons_self).1 hspan) h1
  have hf : (freshCorrector s).ensure = .ok s' true :=
    (if_neg (show ¬ false = true by decide)).trans h
  have q1 := C110_history hs CorrectorQuery.corrections
  have q2 := C110_history hs CorrectorQuery.offsets
  have q3 := C110_history hs CorrectorQuery.clipped
  have q4 := C110_history hs CorrectorQuery.pulleyed
  have hsag : b.sag = a.sag := A.ask Query3.sag
  have hlen : b.length = a.length := A.ask Query3.length
  refine ⟨q1.trans ?_, q2.trans ?_, a, b, q3.trans ?_, q4.trans ?_, A.tension, hlen⟩
  · show resultOf (SagCorrector.ask _ _ _) = _
    unfold SagCorrector.ask
    rw [hf]
    show Res.val (List.zipWith _ s'.clipped s'.pulleyed) = _
    rw [e1, e2]
    simp [hsag]
  · show resultOf (SagCorrector.ask _ _ _) = _
    unfold SagCorrector.ask
    rw [hf]
    show Res.val (offsetsFrom s' (s'.clipped.length + 1) 0 0 0 (s'.clipped.length + 1)) = _
    rw [e1]
    rfl
  · show resultOf (SagCorrector.ask _ _ _) = _
    unfold SagCorrector.ask
    rw [hf]
    show Res.val (some s'.clipped) = _
    rw [e1]
  · show resultOf (SagCorrector.ask _ _ _) = _
    unfold SagCorrector.ask
    rw [hf]
    show Res.val (some s'.pulleyed) = _
    rw [e2]

/-! ## Examples -/

/-- A line cable of unit weight `w` with horizontal tension `h` on a level ruling span of `l`, in still air. -/
noncomputable def exLevel (l w h : ℝ) : SectionCable :=
  ⟨some ⟨0, 1, ⟨0, 0, [], [], 0, 0, 0, 0, 1, 1⟩, ⟨0, 0, [], [], 0, 0, 0, 0, 1, 1⟩, 1, 0, [], 10000, 0, w⟩, [],
    ⟨some exCalm, .initial, h, .horizontalTension⟩, ⟨l, 0, 0⟩, some exCalm, some exCalm⟩

/-- Its ruling span catenary. -/
noncomputable def exLevelSpan (l w h : ℝ) : Catenary3d :=
  ((Catenary3d.new.setSpacing ⟨l, 0, 0⟩).setWeight ⟨0, 0, w⟩).setTension h

theorem exLevel_ruling (l w h : ℝ) : (exLevel l w h).catenaryRulingSpan = .val (exLevelSpan l w h) := by
  have : (exLevel l w h).loadUnit = .val ⟨0, 0, w⟩ := by
    show Res.val (⟨0, ((1:ℝ) + 2 * 0) * 1 * 0, w + (Cylinder.volume ⟨1 + 2 * 0, 1⟩ - Cylinder.volume ⟨1, 1⟩) * 0⟩ : V3) = _
    norm_num
  unfold SectionCable.catenaryRulingSpan
  rw [this]
  rfl

theorem exLevelSpan_reachable (l w h : ℝ) : (exLevelSpan l w h).Reachable :=
  ⟨[.setSpacing ⟨l, 0, 0⟩, .setWeight ⟨0, 0, w⟩, .setTension h], rfl⟩

theorem level_magnitude {l : ℝ} (hl : 0 < l) : (⟨l, 0, 0⟩ : V3).magnitude = l ∧ (⟨0, 0, l⟩ : V3).magnitude = l := by
  unfold V3.magnitude
  constructor <;> simp [Real.sqrt_sq hl.le]

theorem exLevelSpan_valid {l w h : ℝ} (hl : 0 < l) (hw : 0 < w) (hh : l / 2 * w ≤ h) :
    (exLevelSpan l w h).validate.1 = true := by
  rw [(C54_validate_3d (exLevelSpan_reachable l w h)).1]
  refine ⟨?_, hl, rfl, ?_, rfl, le_refl _, hw, ?_⟩
  · show 0 < h
    have : 0 < l / 2 * w := by positivity
    linarith
  · show |(0:ℝ)| < 2000; norm_num
  · show (⟨l, 0, 0⟩ : V3).magnitude / 2 ≤ h / (⟨0, 0, w⟩ : V3).magnitude
    rw [(level_magnitude hl).1, (level_magnitude hw).2, le_div_iff₀ hw]
    exact hh

theorem exLevel_validate (heap : Heap ℝ) {l w h : ℝ} (hl : 0 < l) (hw : 0 < w) (hh : l / 2 * w ≤ h) :
    (exLevel l w h).validate heap = .val (true, ["Not enough connections"]) := by
  have h0 : 0 < l / 2 * w := by positivity
  have hm : (exLevel l w h).validateMembers = (true, []) := by
    unfold SectionCable.validateMembers SectionCable.validateCable CableConstraint.validate validateWeather
      Cable.validate WeatherLoadCase.validate exLevel exCalm
    have e1 : ¬ w ≤ 0 := not_le.2 hw
    have e2 : ¬ h < 0 := by linarith
    have e3 : ¬ l ≤ 0 := not_le.2 hl
    simp only [e1, e2, e3]
    norm_num
    exact ⟨by decide, by decide⟩
  have hv := exLevelSpan_valid hl hw hh
  have hk2 : (exLevelSpan l w h).validate.2 = [] := (C54_validate_3d (exLevelSpan_reachable l w h)).2.1 hv
  unfold SectionCable.validate
  simp only [hm, exLevel_ruling]
  rw [hv, hk2]
  rfl

/-- The corrector for it and given points. -/
noncomputable def exCorrector (l w h : ℝ) (ps : List V3) : SagCorrector :=
  (SagCorrector.new.setLineCable (some (exLevel l w h))).setPoints (some ps)

theorem exCorrector_reachable (l w h : ℝ) (ps : List V3) : (exCorrector l w h ps).Reachable :=
  .step (.setPoints (some ps)) (.step (.setLineCable (some (exLevel l w h))) .new rfl) rfl

/-- A clipped span. -/
noncomputable def exSpanOf (l w h : ℝ) : Catenary3d :=
  (((Catenary3d.new.setDirection .positive).setSpacing ⟨l, 0, 0⟩).setTension h).setWeight ⟨0, 0, w⟩

theorem exSpanOf_reachable (l w h : ℝ) : (exSpanOf l w h).Reachable :=
  ⟨[.setDirection .positive, .setSpacing ⟨l, 0, 0⟩, .setTension h, .setWeight ⟨0, 0, w⟩], rfl⟩

theorem exSpanOf_valid {l w h : ℝ} (hl : 0 < l) (hw : 0 < w) (hh : l / 2 * w ≤ h) :
    (exSpanOf l w h).validate.1 = true := by
  have h1 := (C54_validate_3d (exLevelSpan_reachable l w h)).1.1 (exLevelSpan_valid hl hw hh)
  exact (C54_validate_3d (exSpanOf_reachable l w h)).1.2 h1

theorem exClipped (l w h : ℝ) {p q : V3} (hx : q.x - p.x = l) (hy : q.y - p.y = 0) (hz : q.z - p.z = 0) :
    clippedSpan (exLevelSpan l w h) p q = exSpanOf l w h := by
  unfold clippedSpan
  rw [hx, hy, hz]
  rfl

/-- The theorem C113 applies to a single span of 1000 with tension 6000. -/
example : resultOf (exCorrector 1000 1 6000 [⟨0, 0, 0⟩, ⟨1000, 0, 0⟩]).sagCorrections = .val [0] := by
  have hv := exLevelSpan_valid (l := 1000) (w := 1) (h := 6000) (by norm_num) (by norm_num) (by norm_num)
  refine (C113_single_partial (exCorrector_reachable _ _ _ _) rfl (exLevel_ruling _ _ _) hv rfl ?_
    (show (1:ℝ) < 6000 by norm_num)).1
  show (clippedSpan (exLevelSpan 1000 1 6000) ⟨0, 0, 0⟩ ⟨1000, 0, 0⟩).validate.1 = true
  rw [exClipped 1000 1 6000 (by norm_num) (by norm_num) (by norm_num)]
  exact exSpanOf_valid (by norm_num) (by norm_num) (by norm_num)

/-- C113: the full claim (a single span needs no correction) fails for horizontal tensions of at most 1: the search is
skipped and the tension of its second starting point, 1.10 times the right one, is kept, although `Validate` succeeds. -/
theorem C113_single_fails : ∃ s : SagCorrector, s.Reachable ∧
    (∀ heap, resultOf (s.validate heap) = .val (true, ["Not enough connections"])) ∧
    ∃ x, x ≠ 0 ∧ resultOf s.sagCorrections = .val [x] := by
  refine ⟨exCorrector 1 1 1 [⟨0, 0, 0⟩, ⟨1, 0, 0⟩], exCorrector_reachable _ _ _ _, ?_⟩
  have hv := exLevelSpan_valid (l := 1) (w := 1) (h := 1) (by norm_num) (by norm_num) (by norm_num)
  set k := exLevelSpan 1 1 1 with hk
  set d : Catenary3d := exSpanOf 1 1 1 with hd
  have hcl : clippedSpans k [⟨0, 0, 0⟩, ⟨1, 0, 0⟩] = [d] := by
    show [clippedSpan k _ _] = _
    rw [exClipped 1 1 1 (by norm_num) (by norm_num) (by norm_num)]
  have R : d.Reachable := exSpanOf_reachable 1 1 1
  have A := alike_query R
  set a := Event.query.next d with ha
  set s := exCorrector 1 1 1 [⟨0, 0, 0⟩, ⟨1, 0, 0⟩] with hs
  have hu : s.updateClipped = .ok { s with clipped := [a], lengthClipped := lengthCatenaries [d] } true := by
    rw [updateClipped_of (s := s) rfl (exLevel_ruling 1 1 1) hv rfl, ← hk, hcl]
    rfl
  set b1 := Event.query.next (a.setTension 1) with hb1
  set b2 := Event.query.next (b1.setTension (1 * 1.10)) with hb2
  have S1 : SameSpan d b1 := A.sameSpan.trans ((sameSpan_set A.right _).trans
    (alike_query (A.right.step (.setTension _))).sameSpan)
  have A2 := alike_query (S1.right.step (.setTension (1 * 1.10)))
  have hup : ({ s with clipped := [a], lengthClipped := lengthCatenaries [d], isUpdated := true } :
      SagCorrector).updatePulley = .ok ⟨s.lineCable, s.points, [a], [b2], lengthCatenaries [d], -999999, true⟩ true := by
    unfold updatePulley
    have hH : a.tensionHorizontal = 1 := A.tension
    simp only
    rw [hH]
    show (if true = false then _ else if true = false then _ else _) = _
    simp only [Bool.true_eq_false, if_false]
    have : ∀ (st : SecantState) ks t, st.left.x = 1 → st.right.x = 1 * 1.10 →
        pulleyLoop t 101 st ks = (some st, ks) := by
      intro st ks t h1 h2
      unfold pulleyLoop
      rw [if_neg]
      rw [h1, h2]
      rintro ⟨h, _⟩
      norm_num [abs_of_neg] at h
    rw [this _ _ _ rfl rfl]
    rfl
  have hup' : s.update = .ok ⟨s.lineCable, s.points, [a], [b2], lengthCatenaries [d], -999999, true⟩ true := by
    unfold SagCorrector.update
    rw [hu]
    simp only
    rw [hup]
  have he : s.ensure = s.update := if_neg (show ¬ false = true by decide)
  constructor
  · intro heap
    have hval := exLevel_validate heap (l := 1) (w := 1) (h := 1) (by norm_num) (by norm_num) (by norm_num)
    unfold SagCorrector.validate
    show resultOf (match validateLineCable heap (some (exLevel 1 1 1)) with | .ub => _ | .throws => _ | .val a => _) = _
    unfold validateLineCable
    simp only [hval]
    rw [hup']
    rfl
  · refine ⟨b2.sag - a.sag, ?_, ?_⟩
    · have hS : d.Span := ⟨one_pos, rfl, rfl, le_refl _, one_pos⟩
      have m1 : d.spacing.magnitude / 2 * d.weightUnit.magnitude = 1 / 2 := by
        show (⟨1, 0, 0⟩ : V3).magnitude / 2 * (⟨0, 0, 1⟩ : V3).magnitude = _
        rw [(level_magnitude one_pos).1, (level_magnitude one_pos).2]; norm_num
      have e1 : a.sag = d.sagFn 1 := by
        have := sagFn_fam hS (fam_refl R) one_pos
        rw [← this]
        exact (Alike.ask ⟨R.step (.setTension 1), A.right, A.direction, A.spacing, A.weight, A.tension⟩ Query3.sag)
      have F1 : Fam d b1 := ⟨S1.right, S1.spacing, S1.weight⟩
      have e2 : b2.sag = d.sagFn (1 * 1.10) := by
        rw [← sagFn_fam hS F1 (show (0:ℝ) < 1 * 1.10 by norm_num)]
        exact A2.ask Query3.sag
      have h1 := sagFn_supported hS (1 * 1.10) 1 (by rw [m1]; norm_num) (by rw [m1]; norm_num)
      have h2 := (sagFn_slope hS (h := 1 * 1.10) (by rw [m1]; norm_num)).1
      rw [e1, e2]
      intro h
      nlinarith
    · unfold sagCorrections SagCorrector.ask
      rw [he, hup']
      rfl

/-! ## C114: validity of the spans -/

/-- C114: every span of the pulley state but the first is a valid catenary. -/
theorem C114_valid_partial {s : SagCorrector} (R : s.Reachable) {ks : List Catenary3d}
    (h2 : resultOf s.catenariesPulleyed = .val (some ks)) {i : ℕ} (hi : i + 1 < ks.length) :
    ks[i + 1].validate.1 = true :=
  (C112_pulleys R h2 i hi).1

/-- C114: the full claim fails: the spans of the clipped state are not validated, so a span far too long for the tension
is accepted. -/
theorem C114_first_unchecked : ∃ s : SagCorrector, s.Reachable ∧
    (∀ heap, resultOf (s.validate heap) = .val (true, ["Not enough connections"])) ∧
    ∃ a b, resultOf s.catenariesClipped = .val (some [a]) ∧ resultOf s.catenariesPulleyed = .val (some [b]) ∧
      a.validate.1 = false ∧ b.validate.1 = false := by
  set s := exCorrector 100 1 60 [⟨0, 0, 0⟩, ⟨1000, 0, 0⟩] with hs
  have hv := exLevelSpan_valid (l := 100) (w := 1) (h := 60) (by norm_num) (by norm_num) (by norm_num)
  have ed : clippedSpan (exLevelSpan 100 1 60) ⟨0, 0, 0⟩ ⟨1000, 0, 0⟩ = exSpanOf 1000 1 60 := by
    show (((Catenary3d.new.setDirection .positive).setSpacing ⟨1000 - 0, 0 - 0, 0 - 0⟩).setTension 60).setWeight
      ⟨0, 0, 1⟩ = _
    rw [sub_zero, sub_zero]
    rfl
  have R := exSpanOf_reachable 1000 1 60
  have S : (exSpanOf 1000 1 60).Span :=
    ⟨show (0:ℝ) < 1000 by norm_num, rfl, rfl, le_refl _, one_pos⟩
  obtain ⟨s', h, a, b, e1, e2, A⟩ := update_single (s := s) rfl (exLevel_ruling 100 1 60) hv rfl
    (by rw [ed]; exact span_length_pos R S (show (0:ℝ) < 60 by norm_num)) (show (1:ℝ) < 60 by norm_num)
  have U := update_updated h
  obtain ⟨c, k, p, ps, hc, hk, _, hp, _, hcl, _⟩ := U.clipped
  have hek : k = exLevelSpan 100 1 60 := by
    cases hc
    exact Res.val.inj (hk.symm.trans (exLevel_ruling 100 1 60))
  have ea : a = Event.query.next (exSpanOf 1000 1 60) := by
    cases hp
    rw [hek] at hcl
    rw [e1] at hcl
    have : asked (clippedSpans (exLevelSpan 100 1 60) [⟨0, 0, 0⟩, ⟨1000, 0, 0⟩]) =
      [Event.query.next (clippedSpan (exLevelSpan 100 1 60) ⟨0, 0, 0⟩ ⟨1000, 0, 0⟩)] := rfl
    rw [this, ed] at hcl
    exact List.head_eq_of_cons_eq hcl
  have Aa : Alike (exSpanOf 1000 1 60) a := by rw [ea]; exact alike_query R
  have hbad : ∀ k, Alike (exSpanOf 1000 1 60) k → k.validate.1 = false := by
    intro k hk
    rw [show k.validate = (exSpanOf 1000 1 60).validate from hk.ask Query3.validate]
    by_contra hne
    have := ((C54_validate_3d R).1.1 (by simpa using hne)).2.2.2.2.2.2.2
    have h2 : (⟨1000, 0, 0⟩ : V3).magnitude / 2 ≤ 60 / (⟨0, 0, 1⟩ : V3).magnitude := this
    rw [(level_magnitude one_pos).2, (level_magnitude (l := 1000) (by norm_num)).1] at h2
    norm_num at h2
  have hf : s.ensure = .ok s' true := (if_neg (show ¬ false = true by decide)).trans h
  refine ⟨s, exCorrector_reachable _ _ _ _, ?_, a, b, ?_, ?_, hbad a Aa, hbad b (Aa.trans A)⟩
  · intro heap
    have hval := exLevel_validate heap (l := 100) (w := 1) (h := 60) (by norm_num) (by norm_num) (by norm_num)
    unfold SagCorrector.validate
    show resultOf (match validateLineCable heap (some (exLevel 100 1 60)) with | .ub => _ | .throws => _ | .val a => _) = _
    unfold validateLineCable
    simp only [hval]
    rw [h]
    rfl
  · unfold catenariesClipped SagCorrector.ask
    rw [hf]
    show Res.val (some s'.clipped) = _
    rw [e1]
  · unfold catenariesPulleyed SagCorrector.ask
    rw [hf]
    show Res.val (some s'.pulleyed) = _
    rw [e2]

/-! ## Example: two equal spans -/

/-- Two spans of 100 with a unit load of 100 and a tension near 6000, as one catenary. -/
noncomputable abbrev exTwoSpan : Catenary3d := exSpanOf 100 100 6000

theorem exTwo_span : exTwoSpan.Span :=
  ⟨show (0:ℝ) < 100 by norm_num, rfl, rfl, le_refl _, show (0:ℝ) < 100 by norm_num⟩

theorem exTwo_weight : exTwoSpan.weightUnit.magnitude = 100 := (level_magnitude (by norm_num)).2
theorem exTwo_spacing : exTwoSpan.spacing.magnitude = 100 := (level_magnitude (by norm_num)).1
theorem exTwo_least : exTwoSpan.spacing.magnitude / 2 * exTwoSpan.weightUnit.magnitude = 5000 := by
  rw [exTwo_weight, exTwo_spacing]; norm_num

theorem exTwo_tension {k : Catenary3d} (F : Fam exTwoSpan k) {h : ℝ} (hh : 0 < h) :
    (k.setTension h).tension 0 = exTwoSpan.levelTension h ∧ (k.setTension h).tension 1 = exTwoSpan.levelTension h ∧
      (k.setTension h).tensionMax = exTwoSpan.levelTension h := by
  have h1 := support_fam exTwo_span F hh
  have h2 := max_fam exTwo_span F hh
  have h3 := tension_fam exTwo_span F (show exTwoSpan.spacing.z = 0 from rfl) hh
  have hy : exTwoSpan.spacing2d.y = 0 := by
    show (0:ℝ) * _ = 0
    rw [zero_mul]
  rw [hy] at h1 h2
  simp only [mul_zero, zero_div, add_zero, sub_zero, abs_zero] at h1 h2
  rw [h3] at h2
  rw [h1.1, h1.2, h3, h2]
  exact ⟨rfl, rfl, rfl⟩

/-- Lipschitz bounds. -/
theorem exTwo_bounds {x y : ℝ} (hx : 5000 ≤ x) (hy : 5000 ≤ y) :
    0.36 * |x - y| ≤ |exTwoSpan.levelTension x - exTwoSpan.levelTension y| ∧
    |exTwoSpan.lengthFn x - exTwoSpan.lengthFn y| ≤ 0.0075 * |x - y| := by
  have key : ∀ x y : ℝ, 5000 ≤ x → x ≤ y →
      0.36 * (y - x) ≤ exTwoSpan.levelTension y - exTwoSpan.levelTension x ∧
      exTwoSpan.lengthFn x - exTwoSpan.lengthFn y ≤ 0.0075 * (y - x) ∧ exTwoSpan.lengthFn y ≤ exTwoSpan.lengthFn x := by
    intro x y hx hxy
    have mx : exTwoSpan.spacing.magnitude / 2 * exTwoSpan.weightUnit.magnitude ≤ x := by rw [exTwo_least]; exact hx
    have my : exTwoSpan.spacing.magnitude / 2 * exTwoSpan.weightUnit.magnitude ≤ y := by rw [exTwo_least]; linarith
    have h1 := tension_supported exTwo_span x y mx my
    have h2 := tension_slope_lower exTwo_span mx
    have h3 := length_supported exTwo_span x y mx my
    have h4 := (length_slope exTwo_span mx).2
    have h5 := length_supported exTwo_span y x my mx
    have h6 := (length_slope exTwo_span my).1
    rw [exTwo_weight] at h4
    norm_num at h4
    refine ⟨?_, ?_, ?_⟩ <;> nlinarith
  rcases le_total x y with h | h
  · obtain ⟨a, b, c⟩ := key x y hx h
    have : 0 ≤ y - x := by linarith
    rw [abs_sub_comm x y, abs_of_nonneg this, abs_sub_comm (exTwoSpan.levelTension x),
      abs_of_nonneg (a := exTwoSpan.levelTension y - exTwoSpan.levelTension x) (by linarith),
      abs_of_nonneg (a := exTwoSpan.lengthFn x - exTwoSpan.lengthFn y) (by linarith)]
    exact ⟨a, b⟩
  · obtain ⟨a, b, c⟩ := key y x hy h
    have : 0 ≤ x - y := by linarith
    rw [abs_of_nonneg this, abs_of_nonneg (a := exTwoSpan.levelTension x - exTwoSpan.levelTension y) (by linarith),
      abs_sub_comm (exTwoSpan.lengthFn x),
      abs_of_nonneg (a := exTwoSpan.lengthFn y - exTwoSpan.lengthFn x) (by linarith)]
    exact ⟨a, b⟩

theorem _root_.Verif.SagCorrector.SameSpan.fam {a b : Catenary3d} (h : SameSpan a b) : Fam a b := ⟨h.right, h.spacing, h.weight⟩

/-- Solving both spans for a given tension of the first. -/
theorem exTwo_solve {a b : Catenary3d} (ha : SameSpan exTwoSpan a) (hb : SameSpan exTwoSpan b) {x : ℝ}
    (h1 : 5100 ≤ x) (h2 : x ≤ 7000) :
    ∃ h, 5000 ≤ h ∧ |h - x| ≤ 0.028 ∧
      solvePulley x [a, b] = (true, [Event.query.next (a.setTension x), b.setTension h]) := by
  have x0 : 0 < x := by linarith
  set s := ((pulleySolver a.weightUnit).setSpacing b.spacing).setValueTarget ((a.setTension x).tension 1) with hs
  have hw : a.weightUnit = exTwoSpan.weightUnit := ha.weight
  have hsp : b.spacing = exTwoSpan.spacing := hb.spacing
  obtain ⟨_, ht, _⟩ := exTwo_tension ha.fam x0
  have R : s.Reachable := ((pulleySolver_ready a.weightUnit).reachable.next (.setSpacing b.spacing)).next
    (.setValueTarget _)
  have Fs : Fam exTwoSpan s.catenary := ⟨solver_catenary R, hsp, hw⟩
  have hc : s.catenary.spacing = ⟨100, 0, 0⟩ := hsp
  have hc2 : s.catenary.weightUnit = ⟨0, 0, 100⟩ := hw
  have hvt : s.valueTarget = exTwoSpan.levelTension x := ht
  have mx : exTwoSpan.spacing.magnitude / 2 * exTwoSpan.weightUnit.magnitude ≤ x := by rw [exTwo_least]; linarith
  have hge : x ≤ exTwoSpan.levelTension x := by
    unfold levelTension
    have := Real.one_le_cosh (exTwoSpan.spacing2d.x / 2 / (x / exTwoSpan.weightUnit.magnitude))
    nlinarith
  have hle : exTwoSpan.levelTension x ≤ 14000 := by
    unfold levelTension
    obtain ⟨_, _, z0, z1⟩ := exTwo_span.ratio mx
    have : Real.cosh (exTwoSpan.spacing2d.x / 2 / (x / exTwoSpan.weightUnit.magnitude)) ≤ Real.cosh 1 := by
      rw [Real.cosh_le_cosh, abs_of_pos z0, abs_one]; exact z1
    have h3 : Real.cosh 1 ≤ 2 := by
      rw [Real.cosh_eq]
      have e1 := Real.exp_one_lt_d9
      have e2 : Real.exp (-1) ≤ 1 := Real.exp_le_one_iff.2 (by norm_num)
      linarith
    nlinarith
  have hacc : s.validate.1 = true := by
    refine C106_accepted R ?_ rfl (Or.inr (Or.inl ⟨rfl, ?_⟩)) ?_ (m := 5000) ?_ ?_ ?_ ?_
    · refine ⟨Or.inr ?_, ?_, ?_, ?_, ?_, ?_, ?_, ?_, ?_⟩
      · show ¬ ((0:ℝ) < 0 ∨ (1:ℝ) < 0); norm_num
      · rw [hc]; norm_num
      · rw [hc]; norm_num
      · rw [hc]; norm_num
      · show ¬ TargetType.tension = .null; decide
      · rw [hvt]; linarith
      · rw [hc2]; norm_num
      · rw [hc2]; norm_num
      · rw [hc2]; norm_num
    · rw [hc]
    · rw [hc]; norm_num
    · rw [show s.catenary.spacing = exTwoSpan.spacing from hsp, show s.catenary.weightUnit = _ from hw, exTwo_least]
    · rw [(exTwo_tension Fs (by norm_num)).2.2, hvt]
      have := tension_supported exTwo_span 5000 x (by rw [exTwo_least]) mx
      have h3 := tension_slope_lower exTwo_span (h := 5000) (by rw [exTwo_least])
      nlinarith
    · rw [hvt]; linarith
    · rw [hvt]; linarith
  obtain ⟨P, hp1, hp2⟩ := pulley_step (pulleySolver_ready a.weightUnit) (prev := a.setTension x) hb.right
    (hb.weight.trans hw.symm) hacc
  set t := s.validate.2.tensionHorizontal with htt
  have hR : (b.setTension t.1).Reachable := hb.right.step (.setTension _)
  have hmin := ((C54_validate_3d hR).1.1 hp1).2.2.2.2.2.2.2
  have hpos := ((C54_validate_3d hR).1.1 hp1).1
  have ht5 : 5000 ≤ t.1 := by
    have : b.spacing.magnitude / 2 ≤ t.1 / b.weightUnit.magnitude := hmin
    rw [hsp, hb.weight, exTwo_weight, exTwo_spacing, le_div_iff₀ (by norm_num)] at this
    linarith
  refine ⟨t.1, ht5, ?_, ?_⟩
  · have hp2' : |(b.setTension t.1).tension 0 - (a.setTension x).tension 1| ≤
        0.01 * (b.spacing.magnitude / b.spacing.x) := hp2
    have e0 : (b.setTension t.1).tension 0 = exTwoSpan.levelTension t.1 :=
      (exTwo_tension hb.fam (show 0 < t.1 by linarith)).1
    rw [ht, e0, hsp, exTwo_spacing] at hp2'
    have := (exTwo_bounds ht5 (by linarith : 5000 ≤ x)).1
    have e : (0.01:ℝ) * (100 / exTwoSpan.spacing.x) = 0.01 := by
      show (0.01:ℝ) * (100 / 100) = 0.01; norm_num
    rw [e] at hp2'
    have hpos' : exTwoSpan.levelTension t.1 = exTwoSpan.levelTension t.1 := rfl
    have h3 := this.trans hp2'
    linarith
  · show pulleyRest (pulleySolver a.weightUnit) (a.setTension x) [b] = _
    unfold pulleyRest
    simp only
    rw [if_pos hacc]
    rfl

theorem exTwo_slope : exTwoSpan.lengthSlope 6600 ≤ -0.00112 := by
  have h1 := length_slope_ratio exTwo_span (r := 6600) (by rw [exTwo_least]; norm_num) (by rw [exTwo_least]; norm_num)
  rw [exTwo_least] at h1
  have hx : exTwoSpan.spacing2d.x = 100 := by
    show Real.sqrt (exTwoSpan.spacing.magnitude ^ 2 - (0 * _) ^ 2) = 100
    rw [exTwo_spacing, zero_mul, zero_pow (by norm_num), sub_zero, Real.sqrt_sq (by norm_num)]
  have hy : exTwoSpan.spacing2d.y = 0 := by
    show (0:ℝ) * _ = 0
    rw [zero_mul]
  have h2 : exTwoSpan.lengthSlope 5000 = 2 * (Real.sinh 1 - 1 * Real.cosh 1) / 100 := by
    unfold lengthSlope
    simp only
    rw [hx, hy, exTwo_weight]
    have hs : 0 < Real.sinh 1 := Real.sinh_pos_iff.2 one_pos
    have e : (100:ℝ) / 2 / (5000 / 100) = 1 := by norm_num
    rw [e, zero_pow (by norm_num), zero_add, Real.sqrt_sq (by positivity), div_self (by positivity), one_mul]
  have h3 : Real.cosh 1 - Real.sinh 1 = Real.exp (-1) := Real.cosh_sub_sinh 1
  have h4 : 0.36 ≤ Real.exp (-1) := by
    rw [Real.exp_neg, le_inv_comm₀ (by norm_num) (Real.exp_pos _)]
    have := Real.exp_one_lt_d9
    norm_num at this ⊢
    linarith
  rw [h2] at h1
  linarith

theorem exTwo_length {a b : Catenary3d} (ha : SameSpan exTwoSpan a) (hb : SameSpan exTwoSpan b) {x h : ℝ}
    (hx : 0 < x) (hh : 0 < h) :
    lengthCatenaries [Event.query.next (a.setTension x), b.setTension h] = exTwoSpan.lengthFn x + exTwoSpan.lengthFn h := by
  have e1 := length_fam exTwo_span ha.fam hx
  have e2 := length_fam exTwo_span hb.fam hh
  have e3 : (Event.query.next (a.setTension x)).length = (a.setTension x).length :=
    (alike_query (ha.right.step (.setTension x))).ask Query3.length
  rw [zero_length]
  simp only [List.map_cons, List.map_nil, List.sum_cons, List.sum_nil, add_zero]
  rw [e3, e1, e2]

theorem advance_current (s : SecantState) (t : ℝ) (c : V2) :
    (s.advance t c).current = c ∧ (s.advance t c).iter = s.iter + 1 := by
  unfold SecantState.advance
  split_ifs <;> exact ⟨rfl, rfl⟩

theorem exTwo_first {k : Catenary3d} (S : SameSpan exTwoSpan k) {x : ℝ} (hx : 5000 ≤ x) :
    (Event.query.next (Event.query.next (k.setTension x))).validate.1 = true := by
  have A := (alike_query (S.right.step (.setTension x))).trans
    (alike_query ((S.right.step (.setTension x)).step .query))
  obtain ⟨-, v1, v2, v3, v4, v5, v6, -⟩ := (C54_validate_3d (exSpanOf_reachable 100 100 6000)).1.1
    (exSpanOf_valid (by norm_num) (by norm_num) (by norm_num))
  have es := A.spacing.trans S.spacing
  have ew := A.weight.trans S.weight
  refine (C54_validate_3d A.right).1.2 ?_
  rw [es, ew, A.tension]
  refine ⟨?_, v1, v2, v3, v4, v5, v6, ?_⟩
  · show 0 < x
    linarith
  · rw [exTwo_weight, exTwo_spacing]
    show (100 : ℝ) / 2 ≤ x / 100
    linarith

/-- Two spans of 100 and a tension of 6000: the corrector succeeds with two spans in the pulley state, whose total length
is within 0.01 of the clipped length, and the first of which is accepted. -/
theorem exTwo_states : ∃ a b, resultOf (exCorrector 100 100 6000 [⟨0, 0, 0⟩, ⟨100, 0, 0⟩, ⟨200, 0, 0⟩]).catenariesPulleyed =
    .val (some [a, b]) ∧ |a.length + b.length - 2 * exTwoSpan.lengthFn 6000| ≤ 0.01 ∧
    a.validate.1 = true ∧
    ∃ c, resultOf (exCorrector 100 100 6000 [⟨0, 0, 0⟩, ⟨100, 0, 0⟩, ⟨200, 0, 0⟩]).catenariesClipped =
      .val (some [c, c]) := by
  set s := exCorrector 100 100 6000 [⟨0, 0, 0⟩, ⟨100, 0, 0⟩, ⟨200, 0, 0⟩] with hs
  set d := exTwoSpan with hd
  have hv := exLevelSpan_valid (l := 100) (w := 100) (h := 6000) (by norm_num) (by norm_num) (by norm_num)
  have hcl : clippedSpans (exLevelSpan 100 100 6000) [⟨0, 0, 0⟩, ⟨100, 0, 0⟩, ⟨200, 0, 0⟩] = [d, d] := by
    show [clippedSpan _ _ _, clippedSpan _ _ _] = _
    rw [exClipped 100 100 6000 (by norm_num) (by norm_num) (by norm_num),
      exClipped 100 100 6000 (by norm_num) (by norm_num) (by norm_num)]
  have R : d.Reachable := exSpanOf_reachable 100 100 6000
  set a := Event.query.next d with ha
  have A := alike_query R
  have Sa : SameSpan d a := A.sameSpan
  have hH : a.tensionHorizontal = 6000 := A.tension
  have hu := updateClipped_of (s := s) rfl (exLevel_ruling 100 100 6000) hv rfl
  rw [hcl] at hu
  have el : lengthCatenaries [d, d] = 2 * d.lengthFn 6000 := by
    have e1 : d.length = d.lengthFn 6000 := by
      rw [← length_fam exTwo_span (fam_refl R) (show (0:ℝ) < 6000 by norm_num)]
      exact (Alike.ask ⟨R.step (.setTension _), R, rfl, rfl, rfl, rfl⟩ Query3.length)
    rw [zero_length]
    simp only [List.map_cons, List.map_nil, List.sum_cons, List.sum_nil, add_zero]
    rw [e1]; ring
  obtain ⟨hl, l0, l1, le⟩ := exTwo_solve Sa Sa (x := 6000) (by norm_num) (by norm_num)
  set a1 := Event.query.next (Event.query.next (a.setTension 6000)) with ha1
  set b1 := Event.query.next (a.setTension hl) with hb1
  have Sa1 : SameSpan d a1 := Sa.trans ((sameSpan_set Sa.right _).trans ((alike_query (Sa.right.step (.setTension _))).trans
    (alike_query ((Sa.right.step (.setTension _)).step .query))).sameSpan)
  have Sb1 : SameSpan d b1 := Sa.trans ((sameSpan_set Sa.right _).trans (alike_query (Sa.right.step (.setTension _))).sameSpan)
  obtain ⟨hr, r0, r1, re⟩ := exTwo_solve Sa1 Sb1 (x := 6000 * 1.10) (by norm_num) (by norm_num)
  set a2 := Event.query.next (Event.query.next (a1.setTension (6000 * 1.10))) with ha2
  set b2 := Event.query.next (b1.setTension hr) with hb2
  have Sa2 : SameSpan d a2 := Sa1.trans ((sameSpan_set Sa1.right _).trans
    ((alike_query (Sa1.right.step (.setTension _))).trans
    (alike_query ((Sa1.right.step (.setTension _)).step .query))).sameSpan)
  have Sb2 : SameSpan d b2 := Sb1.trans ((sameSpan_set Sb1.right _).trans
    (alike_query (Sb1.right.step (.setTension _))).sameSpan)
  have yl : lengthCatenaries [Event.query.next (a.setTension 6000), a.setTension hl] = d.lengthFn 6000 + d.lengthFn hl :=
    exTwo_length Sa Sa (by norm_num) (by linarith)
  have yr : lengthCatenaries [Event.query.next (a1.setTension (6000 * 1.10)), b1.setTension hr] =
      d.lengthFn 6600 + d.lengthFn hr := by
    rw [exTwo_length Sa1 Sb1 (by norm_num) (by linarith), show (6000:ℝ) * 1.10 = 6600 by norm_num]
  -- bounds
  have c1 := (exTwo_bounds (x := 6000) (y := hl) (by norm_num) l0).2
  rw [abs_sub_comm 6000 hl] at c1
  have c2 := (exTwo_bounds (x := hr) (y := 6600) r0 (by norm_num)).2
  have r1' : |hr - 6600| ≤ 0.028 := by norm_num at r1 ⊢; exact r1
  have c3 := length_supported exTwo_span 6600 6000 (by rw [exTwo_least]; norm_num) (by rw [exTwo_least]; norm_num)
  have c4 := exTwo_slope
  have c1' : |d.lengthFn 6000 - d.lengthFn hl| ≤ 0.00021 := by
    refine c1.trans ?_
    linarith
  have c2' : |d.lengthFn hr - d.lengthFn 6600| ≤ 0.00021 := by
    refine c2.trans ?_
    linarith
  have hD : (d.lengthFn 6600 + d.lengthFn hr) - (d.lengthFn 6000 + d.lengthFn hl) ≤ -1.34 := by
    have q1 := (abs_le.1 c1').2
    have q2 := (abs_le.1 c2').2
    have c3' : d.lengthFn 6600 + d.lengthSlope 6600 * (6000 - 6600) ≤ d.lengthFn 6000 := c3
    have c4' : d.lengthSlope 6600 ≤ -0.00112 := c4
    nlinarith
  set st : SecantState := ⟨⟨6000, d.lengthFn 6000 + d.lengthFn hl⟩, ⟨6000 * 1.10, d.lengthFn 6600 + d.lengthFn hr⟩,
    ⟨-999999, -999999⟩, 0⟩ with hst
  set x := st.next (2 * d.lengthFn 6000) with hx
  have hx1 : |x - 6000| ≤ 0.1 := by
    have e : x - 6000 = (d.lengthFn 6000 - d.lengthFn hl) * 600 /
        ((d.lengthFn 6600 + d.lengthFn hr) - (d.lengthFn 6000 + d.lengthFn hl)) := by
      show 6000 + (2 * d.lengthFn 6000 - (d.lengthFn 6000 + d.lengthFn hl)) /
        (((d.lengthFn 6600 + d.lengthFn hr) - (d.lengthFn 6000 + d.lengthFn hl)) / (6000 * 1.10 - 6000)) - 6000 = _
      rw [div_div_eq_mul_div]
      norm_num
      ring
    have hn : (d.lengthFn 6600 + d.lengthFn hr) - (d.lengthFn 6000 + d.lengthFn hl) < 0 := by linarith
    rw [e, abs_div, abs_mul, div_le_iff₀ (abs_pos.2 hn.ne), abs_of_neg hn, abs_of_pos (by norm_num : (0:ℝ) < 600)]
    linarith
  have hx2 := abs_le.1 hx1
  obtain ⟨h3, m0, m1, me⟩ := exTwo_solve Sa2 Sb2 (x := x) (by linarith) (by linarith)
  have y3 := exTwo_length Sa2 Sb2 (x := x) (h := h3) (by linarith) (by linarith)
  have c5 := (exTwo_bounds (x := x) (y := 6000) (by linarith) (by norm_num)).2
  have c6 := (exTwo_bounds (x := h3) (y := x) m0 (by linarith)).2
  have hy : |(d.lengthFn x + d.lengthFn h3) - 2 * d.lengthFn 6000| ≤ 0.01 := by
    have c5' := abs_le.1 c5
    have c6' := abs_le.1 c6
    rw [abs_le]
    constructor <;> linarith [c5'.1, c5'.2, c6'.1, c6'.2]
  set a3 := Event.query.next (Event.query.next (a2.setTension x)) with ha3
  set b3 := Event.query.next (b2.setTension h3) with hb3
  have hpos : 0 < d.lengthFn 6000 := by
    rw [← length_fam exTwo_span (fam_refl R) (show (0:ℝ) < 6000 by norm_num)]
    exact span_length_pos (R.step (.setTension 6000)) exTwo_span (show (0:ℝ) < 6000 by norm_num)
  have hloop : (pulleyLoop (2 * d.lengthFn 6000) 101 st [a2, b2]) =
      (some (st.advance (2 * d.lengthFn 6000) ⟨x, d.lengthFn x + d.lengthFn h3⟩), [a3, b3]) := by
    unfold pulleyLoop
    rw [if_pos (by
      constructor
      · show 0.1 < |(6000:ℝ) - 6000 * 1.10|
        rw [abs_of_neg (by norm_num)]; norm_num
      · show 0.01 < |-999999 - 2 * d.lengthFn 6000|
        rw [abs_of_neg (by linarith)]; linarith)]
    simp only
    rw [← hx, me]
    simp only [Bool.true_eq_false, if_false, y3]
    obtain ⟨q1, q2⟩ := advance_current st (2 * d.lengthFn 6000) ⟨x, d.lengthFn x + d.lengthFn h3⟩
    unfold pulleyLoop
    rw [if_neg (by
      rintro ⟨_, h⟩
      rw [q1] at h
      exact absurd h (not_lt.2 hy))]
    rfl
  have hup : (⟨s.lineCable, s.points, [a, a], s.pulleyed, lengthCatenaries [d, d], s.lengthPulleyed, true⟩ :
      SagCorrector).updatePulley =
      .ok ⟨s.lineCable, s.points, [a, a], [a3, b3], 2 * d.lengthFn 6000, d.lengthFn x + d.lengthFn h3, true⟩ true := by
    unfold updatePulley
    simp only
    rw [hH, le]
    simp only [Bool.true_eq_false, if_false]
    rw [show asked [Event.query.next (a.setTension 6000), a.setTension hl] = [a1, b1] from rfl, re]
    simp only [Bool.true_eq_false, if_false]
    rw [show asked [Event.query.next (a1.setTension (6000 * 1.10)), b1.setTension hr] = [a2, b2] from rfl, yl, yr, el,
      hloop]
    obtain ⟨q1, q2⟩ := advance_current st (2 * d.lengthFn 6000) ⟨x, d.lengthFn x + d.lengthFn h3⟩
    simp only
    rw [q1, q2, if_pos (show 0 + 1 < 100 by norm_num)]
  have hup' : s.ensure =
      .ok ⟨s.lineCable, s.points, [a, a], [a3, b3], 2 * d.lengthFn 6000, d.lengthFn x + d.lengthFn h3, true⟩ true := by
    refine (if_neg (show ¬ false = true by decide)).trans ?_
    unfold SagCorrector.update
    rw [hu]
    show (match SagCorrector.updatePulley ⟨s.lineCable, s.points, [a, a], s.pulleyed, lengthCatenaries [d, d],
      s.lengthPulleyed, true⟩ with | .ub => Outcome.ub | .throws s => .throws s | .ok s b => .ok { s with isUpdated := b } b) = _
    rw [hup]
  have V3 : a3.validate.1 = true := exTwo_first Sa2 (by linarith)
  refine ⟨a3, b3, ?_, ?_, V3, a, ?_⟩
  · unfold catenariesPulleyed SagCorrector.ask
    rw [hup']
    rfl
  rotate_left
  · unfold catenariesClipped SagCorrector.ask
    rw [hup']
    rfl
  · have e1 : a3.length = d.lengthFn x := by
      rw [← length_fam exTwo_span Sa2.fam (show 0 < x by linarith)]
      exact ((alike_query (Sa2.right.step (.setTension x))).trans
        (alike_query ((Sa2.right.step (.setTension x)).step .query))).ask Query3.length
    have e2 : b3.length = d.lengthFn h3 := by
      rw [← length_fam exTwo_span Sb2.fam (show 0 < h3 by linarith)]
      exact (alike_query (Sb2.right.step (.setTension h3))).ask Query3.length
    rw [e1, e2]
    exact hy

theorem exTwo_succeeds : ∃ a b, resultOf (exCorrector 100 100 6000 [⟨0, 0, 0⟩, ⟨100, 0, 0⟩, ⟨200, 0, 0⟩]).catenariesPulleyed =
    .val (some [a, b]) ∧ |a.length + b.length - 2 * exTwoSpan.lengthFn 6000| ≤ 0.01 ∧
    ∃ c, resultOf (exCorrector 100 100 6000 [⟨0, 0, 0⟩, ⟨100, 0, 0⟩, ⟨200, 0, 0⟩]).catenariesClipped =
      .val (some [c, c]) := by
  obtain ⟨a, b, h1, h2, -, h3⟩ := exTwo_states
  exact ⟨a, b, h1, h2, h3⟩

/-- The theorem C112 applies to it. -/
example : ∃ a b, resultOf (exCorrector 100 100 6000 [⟨0, 0, 0⟩, ⟨100, 0, 0⟩, ⟨200, 0, 0⟩]).catenariesPulleyed =
    .val (some [a, b]) ∧ b.validate.1 = true ∧ |b.tension 0 - a.tension 1| ≤ 0.01 * (b.spacing.magnitude / b.spacing.x) := by
  obtain ⟨a, b, h, _, _⟩ := exTwo_succeeds
  have := C112_pulleys (exCorrector_reachable _ _ _ _) h 0 (by simp)
  exact ⟨a, b, h, this⟩

/-- The theorems C75 apply to it: three offsets, the middle one being a length difference, and two corrections. -/
example : ∃ a b c : Catenary3d, resultOf (exCorrector 100 100 6000 [⟨0, 0, 0⟩, ⟨100, 0, 0⟩, ⟨200, 0, 0⟩]).clippingOffsets =
      .val [0, c.length - a.length, 0] ∧
    resultOf (exCorrector 100 100 6000 [⟨0, 0, 0⟩, ⟨100, 0, 0⟩, ⟨200, 0, 0⟩]).sagCorrections =
      .val [a.sag - c.sag, b.sag - c.sag] := by
  obtain ⟨a, b, h, _, c, h'⟩ := exTwo_succeeds
  obtain ⟨offs, ps, e, _, l1, l2, _, _, z1, z2, m⟩ := C75_offsets (exCorrector_reachable _ _ _ _) h' h
  obtain ⟨corr, e', l3, m'⟩ := C75_corrections (exCorrector_reachable _ _ _ _) h' h
  refine ⟨a, b, c, ?_, ?_⟩
  · have := m 1 (by norm_num) (by simp)
    rw [e]
    simp at l2
    rw [← l2] at l1
    match offs, l1, z1, z2, this with
    | [x, y, z], _, z1, z2, this => simp at z1 z2 this; rw [z1, z2, this]
  · have q0 := m' 0 (by simp) (by simp)
    have q1 := m' 1 (by simp) (by simp)
    rw [e']
    match corr, l3, q0, q1 with
    | [x, y], _, q0, q1 => simp at q0 q1; rw [q0, q1]

end Verif.Props
