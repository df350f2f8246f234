import Verif.Props.SagCorrector
import Verif.Props.Validators

set_option linter.unusedSectionVars false

/-! # Validating a sag corrector with too few points (C80) -/

namespace Verif.Props

open Verif

/-- C80 fails for a sag corrector with a line cable that `Validate` accepts: with a single attachment point `Validate`
runs into undefined behaviour, without points it throws, though both are checked for. -/
theorem C80_few_points {heap : Heap ℝ} {c : SectionCable} {msgs : List String}
    (hc : c.validate heap = .val (true, msgs)) {s : SagCorrector} (hs : s.lineCable = some c) (p : V3) :
    (s.points = some [p] → s.validate heap = .ub) ∧ (s.points = some [] → ∃ t, s.validate heap = .throws t) := by
  obtain ⟨k, hk, hv⟩ : ∃ k, c.catenaryRulingSpan = .val k ∧ k.validate.1 = true := by
    unfold SectionCable.validate at hc
    simp only at hc
    split at hc
    · rename_i h
      injection hc with hc
      rw [hc] at h
      cases h
    split at hc
    · rename_i k hk
      split at hc
      · refine ⟨k, hk, ?_⟩
        injection hc with hc
        exact congrArg Prod.fst hc
      all_goals cases hc
    all_goals cases hc
  constructor
  · intro hp
    have hu : s.updateClipped = .ok { s with clipped := [], lengthClipped := SagCorrector.lengthCatenaries [] } true := by
      unfold SagCorrector.updateClipped
      rw [hs]
      simp only
      rw [hk]
      simp only
      rw [if_neg (by rw [hv]; decide), hp]
      rfl
    have hu : s.update = .ub := by
      unfold SagCorrector.update
      rw [hu]
      rfl
    unfold SagCorrector.validate
    have : SagCorrector.validateLineCable heap s.lineCable = .val (true, msgs) := by rw [hs]; exact hc
    rw [this]
    simp only
    rw [hu]
  · intro hp
    have hu : ∃ t, s.updateClipped = .throws t := by
      unfold SagCorrector.updateClipped
      rw [hs]
      simp only
      rw [hk]
      simp only
      rw [if_neg (by rw [hv]; decide), hp]
      exact ⟨_, rfl⟩
    obtain ⟨t, hu⟩ := hu
    have hu : ∃ t, s.update = .throws t := by
      unfold SagCorrector.update
      rw [hu]
      exact ⟨_, rfl⟩
    obtain ⟨t, hu⟩ := hu
    unfold SagCorrector.validate
    have : SagCorrector.validateLineCable heap s.lineCable = .val (true, msgs) := by rw [hs]; exact hc
    rw [this]
    simp only
    rw [hu]
    exact ⟨_, rfl⟩

/-- The line cable of the examples is accepted. -/
example (heap : Heap ℝ) : ((SagCorrector.new.setLineCable (some exHung)).setPoints (some [⟨0, 0, 0⟩])).validate heap =
    .ub := (C80_few_points (hung_accepted heap) rfl ⟨0, 0, 0⟩).1 rfl

end Verif.Props
