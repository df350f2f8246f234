import Verif.Props.SagCorrector
import Verif.Props.SolverOrder

/-!
# The sign of a sag correction tells which state of the span is tighter (C211)
-/

set_option linter.unusedSectionVars false

namespace Verif.Props

open Catenary3d SagCorrector

theorem sameSpan_at {cs ks : List Catenary3d} (h : List.Forall₂ SameSpan cs ks) :
    ∀ i (hc : i < cs.length) (hk : i < ks.length), SameSpan cs[i] ks[i] := by
  intro i hc hk
  exact List.Forall₂.get h hc hk

theorem states_spans {s : SagCorrector} (R : s.Reachable) {cs ks : List Catenary3d}
    (h1 : resultOf s.catenariesClipped = .val (some cs)) (h2 : resultOf s.catenariesPulleyed = .val (some ks)) :
    List.Forall₂ SameSpan cs ks := by
  obtain ⟨t, -, e1, e2, U⟩ := states_of R h1 h2
  rw [← e1, ← e2]
  exact U.pulleyed.spans

/-- The states of a span whose catenaries `Validate` accepts are ordered by their sags. -/
theorem sag_order {c k : Catenary3d} (S : SameSpan c k) (Vc : c.validate.1 = true) (Vk : k.validate.1 = true) :
    (c.sag < k.sag ↔ PulledTighter k c) ∧ (k.sag < c.sag ↔ PulledTighter c k) ∧
    (k.sag = c.sag ↔ k.tensionHorizontal = c.tensionHorizontal) := by
  have a : c.sag < k.sag ↔ PulledTighter k c :=
    ⟨fun h => tighter_of S.right S.left Vk Vc S.spacing.symm S.weight.symm (.inr (.inl h)), fun h => h.2.2.2.1⟩
  have b : k.sag < c.sag ↔ PulledTighter c k :=
    ⟨fun h => tighter_of S.left S.right Vc Vk S.spacing S.weight (.inr (.inl h)), fun h => h.2.2.2.1⟩
  refine ⟨a, b, fun h => ?_, fun h => ?_⟩
  · rcases lt_trichotomy k.tensionHorizontal c.tensionHorizontal with q | q | q
    · exact absurd h (C146_tighter S.right S.left Vk S.spacing.symm S.weight.symm q).2.2.1.ne'
    · exact q
    · exact absurd h (C146_tighter S.left S.right Vc S.spacing S.weight q).2.2.1.ne
  · rcases lt_trichotomy k.sag c.sag with q | q | q
    · exact absurd h (b.1 q).1.ne'
    · exact q
    · exact absurd h (a.1 q).1.ne

/-- **C211**. A sag corrector, whatever was called on it before, hands out both states.  In every span whose two
catenaries `Validate` accepts (for the pulley state it does so in all spans but perhaps the first), the sag correction is
positive exactly when the span is tighter clipped than in pulleys, negative exactly when it is slacker, and zero exactly
when the horizontal tensions agree. -/
theorem C211_sign {s : SagCorrector} (R : s.Reachable) {cs ks : List Catenary3d}
    (h1 : resultOf s.catenariesClipped = .val (some cs)) (h2 : resultOf s.catenariesPulleyed = .val (some ks)) :
    ∃ corr, resultOf s.sagCorrections = .val corr ∧
      ∀ i (hc : i < cs.length) (hk : i < ks.length), cs[i].validate.1 = true → (i = 0 → ks[i].validate.1 = true) →
        ∃ d, corr[i]? = some d ∧ (0 < d ↔ PulledTighter ks[i] cs[i]) ∧ (d < 0 ↔ PulledTighter cs[i] ks[i]) ∧
          (d = 0 ↔ ks[i].tensionHorizontal = cs[i].tensionHorizontal) := by
  obtain ⟨corr, e, -, m⟩ := C75_corrections R h1 h2
  refine ⟨corr, e, fun i hc hk Vc V0 => ⟨_, m i hc hk, ?_⟩⟩
  have Vk : ks[i].validate.1 = true := by
    cases i with
    | zero => exact V0 rfl
    | succ i => exact C114_valid_partial R h2 hk
  obtain ⟨a, b, c⟩ := sag_order (sameSpan_at (states_spans R h1 h2) i hc hk) Vc Vk
  rw [sub_pos, sub_neg, sub_eq_zero]
  exact ⟨a, b, c⟩

theorem sum_take_lt {cs ks : List Catenary3d} {i : ℕ} (h0 : 0 < i) (hc : i ≤ cs.length) (hk : i ≤ ks.length)
    (h : ∀ j (hj : j < i), (cs[j]'(by omega)).length < (ks[j]'(by omega)).length) :
    ((cs.take i).map Catenary3d.length).sum < ((ks.take i).map Catenary3d.length).sum := by
  have le : ∀ (i : ℕ) (cs ks : List Catenary3d) (hc : i ≤ cs.length) (hk : i ≤ ks.length),
      (∀ j (hj : j < i), (cs[j]'(by omega)).length < (ks[j]'(by omega)).length) →
      ((cs.take i).map Catenary3d.length).sum ≤ ((ks.take i).map Catenary3d.length).sum ∧
      (0 < i → ((cs.take i).map Catenary3d.length).sum < ((ks.take i).map Catenary3d.length).sum) := by
    intro i
    induction i with
    | zero => intro cs ks _ _ _; simp
    | succ i ih =>
      intro cs ks hc hk h
      match cs, ks, hc, hk, h with
      | c :: cs, k :: ks, hc, hk, h =>
        have q := h 0 (by omega)
        have r := (ih cs ks (by simpa using hc) (by simpa using hk) fun j hj => h (j + 1) (by omega)).1
        simp only [List.getElem_cons_zero] at q
        simp only [List.take_succ_cons, List.map_cons, List.sum_cons]
        constructor
        · linarith
        · intro _; linarith
  exact (le i cs ks hc hk h).2 h0

/-- **C211** for the clipping offsets: if the sag corrections of all spans before an inner attachment point are positive,
its clipping offset is negative; if they are all negative, it is positive. -/
theorem C211_offset {s : SagCorrector} (R : s.Reachable) {cs ks : List Catenary3d}
    (h1 : resultOf s.catenariesClipped = .val (some cs)) (h2 : resultOf s.catenariesPulleyed = .val (some ks))
    (Vc : ∀ c ∈ cs, c.validate.1 = true) (V0 : ∀ k, ks[0]? = some k → k.validate.1 = true) :
    ∃ corr offs, resultOf s.sagCorrections = .val corr ∧ resultOf s.clippingOffsets = .val offs ∧
      ∀ i, 0 < i → i < cs.length → ∃ o, offs[i]? = some o ∧
        ((∀ j < i, ∀ d, corr[j]? = some d → 0 < d) → o < 0) ∧ ((∀ j < i, ∀ d, corr[j]? = some d → d < 0) → 0 < o) := by
  obtain ⟨corr, e, m⟩ := C211_sign R h1 h2
  obtain ⟨offs, ps, e', -, -, l1, l2, -, -, -, n⟩ := C75_offsets R h1 h2
  refine ⟨corr, offs, e, e', fun i h0 hi => ⟨_, n i h0 hi, fun h => ?_, fun h => ?_⟩⟩
  · rw [sub_neg]
    refine sum_take_lt h0 hi.le (by omega) fun j hj => ?_
    obtain ⟨d, hd, p, -⟩ := m j (by omega) (by omega) (Vc _ (List.getElem_mem _)) (fun hz => by
      subst hz; exact V0 _ (List.getElem?_eq_getElem _))
    exact (p.1 (h j hj d hd)).2.1
  · rw [sub_pos]
    refine sum_take_lt h0 (by omega) hi.le fun j hj => ?_
    obtain ⟨d, hd, -, p, -⟩ := m j (by omega) (by omega) (Vc _ (List.getElem_mem _)) (fun hz => by
      subst hz; exact V0 _ (List.getElem?_eq_getElem _))
    exact (p.1 (h j hj d hd)).2.1

/-- They apply to two spans of 100 at a tension of 6000. -/
example : ∃ a b c : Catenary3d, ∃ d d' o : ℝ,
    resultOf (exCorrector 100 100 6000 [⟨0, 0, 0⟩, ⟨100, 0, 0⟩, ⟨200, 0, 0⟩]).sagCorrections = .val [d, d'] ∧
    resultOf (exCorrector 100 100 6000 [⟨0, 0, 0⟩, ⟨100, 0, 0⟩, ⟨200, 0, 0⟩]).clippingOffsets = .val [0, o, 0] ∧
    c.tensionHorizontal = 6000 ∧ (0 < d ↔ PulledTighter a c) ∧ (0 < d' ↔ PulledTighter b c) ∧ (0 < d → o < 0) := by
  obtain ⟨a, b, h, -, Va, c, h'⟩ := exTwo_states
  have R := exCorrector_reachable 100 100 6000 [⟨0, 0, 0⟩, ⟨100, 0, 0⟩, ⟨200, 0, 0⟩]
  obtain ⟨l, k, ps, g1, g2, g3, g4, g5, -, g6, -⟩ := C111_spans R h' h
  have S : SameSpan c b := sameSpan_at (states_spans R h' h) 1 (by simp) (by simp)
  have hl : l = exLevel 100 100 6000 := (Option.some.inj g1).symm
  have hp : ps = [⟨0, 0, 0⟩, ⟨100, 0, 0⟩, ⟨200, 0, 0⟩] := (Option.some.inj g4).symm
  have hk : k = exLevelSpan 100 100 6000 := by
    rw [hl, exLevel_ruling] at g2
    exact (Res.val.inj g2).symm
  obtain ⟨t, w, -⟩ := g6 c (by simp)
  have V : c.validate.1 = true := by
    have sp : c.spacing = ⟨100, 0, 0⟩ := by
      rw [hp] at g5
      simp [spacings] at g5
      exact g5.1
    have v := (C54_validate_3d (exLevelSpan_reachable 100 100 6000)).1.1 (hk ▸ g3)
    rw [(C54_validate_3d S.left).1, t, w, hk, sp]
    exact v
  obtain ⟨corr, e, m⟩ := C211_sign R h' h
  obtain ⟨corr', e2, l3, -⟩ := C75_corrections R h' h
  obtain ⟨corr2, offs, e3, e4, n⟩ := C211_offset R h' h (by simpa using V) (by
    intro q hq; simp at hq; rw [← hq]; exact Va)
  obtain ⟨offs', qs, e5, e6, l4, -, l5, -, z0, z1, -⟩ := C75_offsets R h' h
  obtain ⟨d, hd, p, -⟩ := m 0 (by simp) (by simp) V (fun _ => Va)
  obtain ⟨d', hd', p', -⟩ := m 1 (by simp) (by simp) V (by simp)
  obtain ⟨o, ho, u, -⟩ := n 1 (by norm_num) (by simp)
  have ec : corr' = corr := by rw [e] at e2; exact (Res.val.inj e2).symm
  have ec2 : corr2 = corr := by rw [e] at e3; exact (Res.val.inj e3).symm
  have eo : offs' = offs := by rw [e4] at e5; exact (Res.val.inj e5).symm
  rw [ec] at l3
  rw [ec2] at u
  rw [eo] at z0 z1 l4
  have l6 : offs.length = 3 := by rw [l4, ← l5]; rfl
  refine ⟨a, b, c, d, d', o, ?_, ?_, ?_, p, p', fun h => u fun j hj r hr => ?_⟩
  · rw [e]
    match corr, l3, hd, hd' with
    | [x, y], _, hd, hd' => simp at hd hd'; rw [hd, hd']
  · rw [e4]
    match offs, l6, z0, z1, ho with
    | [x, y, z], _, z0, z1, ho => simp at z0 z1 ho; rw [z0, z1, ho]
  · rw [t, hk]; rfl
  · have : j = 0 := by omega
    rw [this, hd] at hr
    rw [← Option.some.inj hr]; exact h

end Verif.Props
