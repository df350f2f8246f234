import Verif.SagCorrector
import Verif.Props.SolverTension

/-! # Facts about the sag position corrector -/

set_option linter.unusedSectionVars false

namespace Verif

open Catenary3d Verif.Props

namespace SagCorrector

/-- Two reachable catenaries with the same parameters: they give the same answers. -/
structure Alike (k k' : Catenary3d) : Prop where
  left : k.Reachable
  right : k'.Reachable
  direction : k'.direction = k.direction
  spacing : k'.spacing = k.spacing
  weight : k'.weightUnit = k.weightUnit
  tension : k'.tensionHorizontal = k.tensionHorizontal

theorem Alike.ask {k k' : Catenary3d} (h : Alike k k') {A : Type} (q : Query3 A) : q.ask k' = q.ask k := by
  rw [C50_history_3d h.left q, C50_history_3d h.right q, h.direction, h.spacing, h.weight, h.tension]

theorem Alike.refl {k : Catenary3d} (R : k.Reachable) : Alike k k := ⟨R, R, rfl, rfl, rfl, rfl⟩

theorem Alike.trans {a b c : Catenary3d} (h : Alike a b) (h' : Alike b c) : Alike a c :=
  ⟨h.left, h'.right, h'.direction.trans h.direction, h'.spacing.trans h.spacing, h'.weight.trans h.weight,
    h'.tension.trans h.tension⟩

theorem Alike.symm {a b : Catenary3d} (h : Alike a b) : Alike b a :=
  ⟨h.right, h.left, h.direction.symm, h.spacing.symm, h.weight.symm, h.tension.symm⟩

theorem alike_query {k : Catenary3d} (R : k.Reachable) : Alike k (Event.query.next k) := by
  obtain ⟨a, b, c, d⟩ := refresh_params k
  refine ⟨R, R.step .query, a, b, c, ?_⟩
  show k.refresh.catenary2d.refresh.tensionHorizontal = _
  rw [(Catenary2d.refresh_params _).1, d]

theorem query_query (k : Catenary3d) : Event.query.next (Event.query.next k) = Event.query.next k := by
  have h := refresh_isUpdated k
  have e : (Event.query.next k).refresh = Event.query.next k := by
    show (if k.refresh.isUpdated = false then _ else _) = _
    rw [h]; rfl
  show ({ (Event.query.next k).refresh with catenary2d := (Event.query.next k).refresh.catenary2d.refresh } : Catenary3d) = _
  rw [e]
  show ({ k.refresh with catenary2d := k.refresh.catenary2d.refresh.refresh } : Catenary3d) = _
  have : k.refresh.catenary2d.refresh.refresh = k.refresh.catenary2d.refresh := by
    generalize k.refresh.catenary2d = c
    by_cases hc : c.isUpdated = false
    · have : c.refresh.isUpdated = true := by unfold Catenary2d.refresh; rw [if_pos hc]; rfl
      show (if c.refresh.isUpdated = false then _ else _) = _
      rw [this]; rfl
    · have : c.refresh = c := by unfold Catenary2d.refresh; rw [if_neg hc]
      rw [this, this]
  rw [this]
  rfl

theorem asked_asked (ks : List Catenary3d) : asked (asked ks) = asked ks := by
  unfold asked
  rw [List.map_map]
  exact List.map_congr_left fun k _ => query_query k

theorem asked_alike {ks : List Catenary3d} (h : ∀ k ∈ ks, k.Reachable) : List.Forall₂ Alike ks (asked ks) := by
  induction ks with
  | nil => exact .nil
  | cons k ks ih =>
    exact .cons (alike_query (h k List.mem_cons_self)) (ih fun k hk => h k (List.mem_cons_of_mem _ hk))

/-- Reachable catenaries that differ in their tensions only. -/
structure SameSpan (k k' : Catenary3d) : Prop where
  left : k.Reachable
  right : k'.Reachable
  direction : k'.direction = k.direction
  spacing : k'.spacing = k.spacing
  weight : k'.weightUnit = k.weightUnit

theorem Alike.sameSpan {k k' : Catenary3d} (h : Alike k k') : SameSpan k k' :=
  ⟨h.left, h.right, h.direction, h.spacing, h.weight⟩

theorem SameSpan.trans {a b c : Catenary3d} (h : SameSpan a b) (h' : SameSpan b c) : SameSpan a c :=
  ⟨h.left, h'.right, h'.direction.trans h.direction, h'.spacing.trans h.spacing, h'.weight.trans h.weight⟩

theorem sameSpan_set {k : Catenary3d} (R : k.Reachable) (x : ℝ) : SameSpan k (k.setTension x) :=
  ⟨R, R.step (.setTension x), rfl, rfl, rfl⟩

theorem sameSpan_refl {ks : List Catenary3d} (h : ∀ k ∈ ks, k.Reachable) : List.Forall₂ SameSpan ks ks :=
  List.forall₂_same.2 fun k hk => (Alike.refl (h k hk)).sameSpan

theorem forall₂_trans {R S T : Catenary3d → Catenary3d → Prop} (h : ∀ a b c, R a b → S b c → T a c)
    {as bs cs : List Catenary3d} (h1 : List.Forall₂ R as bs) (h2 : List.Forall₂ S bs cs) : List.Forall₂ T as cs := by
  induction h1 generalizing cs with
  | nil => cases h2; exact .nil
  | cons r _ ih => cases h2 with | cons s t => exact .cons (h _ _ _ r s) (ih t)

theorem Forall₂.asked {as bs : List Catenary3d} (h : List.Forall₂ SameSpan as bs) :
    List.Forall₂ SameSpan as (SagCorrector.asked bs) := by
  have hb : ∀ k ∈ bs, k.Reachable := by
    intro k hk
    induction h with
    | nil => cases hk
    | cons r _ ih =>
      rcases List.mem_cons.1 hk with rfl | hk
      · exact r.right
      · exact ih hk
  exact forall₂_trans (fun _ _ _ r s => r.trans s.sameSpan) h (asked_alike hb)

theorem sameSpan_right {as bs : List Catenary3d} (h : List.Forall₂ SameSpan as bs) : ∀ k ∈ bs, k.Reachable := by
  intro k hk
  induction h with
  | nil => cases hk
  | cons r _ ih =>
    rcases List.mem_cons.1 hk with rfl | hk
    · exact r.right
    · exact ih hk

/-! ## Solving the spans -/

/-- The spans keep everything but their tensions. -/
theorem pulleyRest_sameSpan (solver : CatenarySolver) {prev : Catenary3d} (R : prev.Reachable)
    {ks : List Catenary3d} (h : ∀ k ∈ ks, k.Reachable) :
    List.Forall₂ SameSpan (prev :: ks) (pulleyRest solver prev ks).2 := by
  induction ks generalizing solver prev with
  | nil => exact .cons (Alike.refl R).sameSpan .nil
  | cons k ks ih =>
    have hk := h k List.mem_cons_self
    have hks : ∀ k ∈ ks, k.Reachable := fun k hk => h k (List.mem_cons_of_mem _ hk)
    unfold pulleyRest
    simp only
    split
    · refine .cons (alike_query R).sameSpan ?_
      have := ih (((solver.setSpacing k.spacing).setValueTarget (prev.tension 1)).validate.2.tensionHorizontal.2)
        (prev := k.setTension
          (((solver.setSpacing k.spacing).setValueTarget (prev.tension 1)).validate.2.tensionHorizontal.1))
        (hk.step (.setTension _)) hks
      revert this
      generalize (pulleyRest _ _ _).2 = r
      intro this
      cases this with
      | cons a b => exact .cons ((sameSpan_set hk _).trans a) b
    · exact .cons (alike_query R).sameSpan (sameSpan_refl h)

theorem solvePulley_sameSpan (x : ℝ) {ks : List Catenary3d} (h : ∀ k ∈ ks, k.Reachable) :
    List.Forall₂ SameSpan ks (solvePulley x ks).2 := by
  cases ks with
  | nil => exact .nil
  | cons k ks =>
    have hk := h k List.mem_cons_self
    have := pulleyRest_sameSpan (pulleySolver k.weightUnit) (prev := k.setTension x) (hk.step (.setTension x))
      (ks := ks) (fun k hk => h k (List.mem_cons_of_mem _ hk))
    show List.Forall₂ SameSpan _ (pulleyRest (pulleySolver k.weightUnit) (k.setTension x) ks).2
    revert this
    generalize (pulleyRest _ _ _).2 = r
    intro this
    cases this with
    | cons a b => exact .cons ((sameSpan_set hk _).trans a) b

/-- What a pulley requires of the spans before and after it. -/
def Pulley (a b : Catenary3d) : Prop :=
  b.validate.1 = true ∧ |b.tension 0 - a.tension 1| ≤ 0.01 * (b.spacing.magnitude / b.spacing.x)

theorem Pulley.alike {a b a' b' : Catenary3d} (h : Pulley a b) (ha : Alike a a') (hb : Alike b b') : Pulley a' b' := by
  have h1 : b'.validate = b.validate := hb.ask Query3.validate
  have h2 : b'.tension 0 = b.tension 0 := hb.ask (Query3.tension 0)
  have h3 : a'.tension 1 = a.tension 1 := ha.ask (Query3.tension 1)
  unfold Pulley
  rw [h1, h2, h3, hb.spacing]
  exact h

/-- The solver between two spans. -/
structure PulleyReady (w : V3) (s : CatenarySolver) : Prop where
  reachable : s.Reachable
  position : s.positionTarget = 0
  type : s.typeTarget = .tension
  weight : s.catenary.weightUnit = w

theorem _root_.Verif.CatenarySolver.Reachable.next {s : CatenarySolver} (h : s.Reachable) (e : CatenarySolver.Event) :
    (e.next s).Reachable := by
  obtain ⟨es, rfl⟩ := h
  exact ⟨es ++ [e], by rw [List.foldl_append]; rfl⟩

theorem pulleySolver_ready (w : V3) : PulleyReady w (pulleySolver w) :=
  ⟨⟨[.setPositionTarget 0, .setTypeTarget .tension, .setWeight w], rfl⟩, rfl, rfl, rfl⟩

/-- One accepted solve. -/
theorem pulley_step {w : V3} {s : CatenarySolver} (P : PulleyReady w s) {prev k : Catenary3d} (hk : k.Reachable)
    (hw : k.weightUnit = w) (hv : ((s.setSpacing k.spacing).setValueTarget (prev.tension 1)).validate.1 = true) :
    let t := ((s.setSpacing k.spacing).setValueTarget (prev.tension 1)).validate.2.tensionHorizontal
    PulleyReady w t.2 ∧ Pulley prev (k.setTension t.1) := by
  intro t
  set s1 := (s.setSpacing k.spacing).setValueTarget (prev.tension 1) with hs1
  have R1 : s1.Reachable := (P.reachable.next (.setSpacing k.spacing)).next (.setValueTarget (prev.tension 1))
  obtain ⟨hi, hu, hv2⟩ := validate_true hv
  obtain ⟨s', h1, h2, h3, h4⟩ := update_true hu
  have F := solve_frame (solver_catenary R1) h1
  have e1 : s1.update.2 = { s' with isUpdated := true, catenary := CatenarySolver.validated s'.catenary } := by
    unfold CatenarySolver.update
    rw [h1]
  have e2 : t = (s1.update.2.catenary.tensionHorizontal, s1.update.2) := by
    show s1.validate.2.tensionHorizontal = _
    rw [hv2]
    unfold CatenarySolver.tensionHorizontal
    rw [if_pos h4]
  have e3 : s1.update.2.catenary.tensionHorizontal = s'.catenary.tensionHorizontal := by
    rw [h3]; exact (refresh_params _).2.2.2
  refine ⟨?_, ?_⟩
  · rw [e2]
    refine ⟨?_, ?_, ?_, ?_⟩
    · show s1.update.2.Reachable
      rw [← hv2]
      exact R1.next .validate
    · show s1.update.2.positionTarget = 0
      rw [e1]
      exact F.2.1.trans P.position
    · show s1.update.2.typeTarget = _
      rw [e1]
      exact F.2.2.1.trans P.type
    · show s1.update.2.catenary.weightUnit = w
      rw [h3, (refresh_params _).2.2.1, F.1.2.2]
      exact P.weight
  · have hR : (k.setTension t.1).Reachable := hk.step (.setTension _)
    have ht : t.1 = s'.catenary.tensionHorizontal := by rw [e2]; exact e3
    have ew : s'.catenary.weightUnit = w := F.1.2.2.trans P.weight
    have es : s'.catenary.spacing = k.spacing := F.1.2.1
    constructor
    · have := (C54_validate_3d F.1.1).1.1 h2
      rw [(C54_validate_3d hR).1]
      rw [ew, es] at this
      show 0 < t.1 ∧ 0 < k.spacing.x ∧ k.spacing.y = 0 ∧ |k.spacing.z| < 2000 ∧ k.weightUnit.x = 0 ∧ 0 ≤ k.weightUnit.y ∧
        0 < k.weightUnit.z ∧ k.spacing.magnitude / 2 ≤ t.1 / k.weightUnit.magnitude
      rw [hw, ht]
      exact this
    · have h5 := (C105_tension R1 P.type (Or.inr (Or.inl P.position)) hv).2.2.2.1 P.position
      have e4 : s1.validate.2.catenaryQ.1 = s'.catenary.refresh := by
        rw [hv2]
        unfold CatenarySolver.catenaryQ
        rw [if_pos h4]
        exact h3
      rw [e4] at h5
      have e5 : (k.setTension t.1).tension 0 = s'.catenary.refresh.tension 0 := by
        refine (C50_history_3d hR (Query3.tension 0)).trans (Eq.trans ?_ ((ask_refresh F.1.1 (Query3.tension 0)).trans
          (C50_history_3d (F.1.1.step (.setTension s'.catenary.tensionHorizontal)) (Query3.tension 0))).symm)
        show (((((Catenary3d.new.setDirection k.direction).setSpacing k.spacing).setTension t.1).setWeight
          k.weightUnit).tension 0) = ((((Catenary3d.new.setDirection s'.catenary.direction).setSpacing
            s'.catenary.spacing).setTension s'.catenary.tensionHorizontal).setWeight s'.catenary.weightUnit).tension 0
        rw [ht, es, ew, hw]
        rfl
      rw [e5]
      exact h5

/-- When all spans were solved, the tensions agree at every pulley. -/
theorem pulleyRest_chain {w : V3} {s : CatenarySolver} (P : PulleyReady w s) {prev : Catenary3d} (R : prev.Reachable)
    {ks : List Catenary3d} (h : ∀ k ∈ ks, k.Reachable ∧ k.weightUnit = w)
    (hok : (pulleyRest s prev ks).1 = true) :
    ∃ b bs, (pulleyRest s prev ks).2 = b :: bs ∧ Alike prev b ∧ (b :: bs).IsChain Pulley := by
  induction ks generalizing s prev with
  | nil => exact ⟨prev, [], rfl, Alike.refl R, .singleton _⟩
  | cons k ks ih =>
    obtain ⟨hk, hw⟩ := h k List.mem_cons_self
    unfold pulleyRest at hok ⊢
    simp only at hok ⊢
    split at hok
    case isFalse => cases hok
    case isTrue hv =>
      rw [if_pos hv]
      obtain ⟨P', hp⟩ := pulley_step P hk hw hv
      obtain ⟨b, bs, e, ha, hc⟩ := ih P' (hk.step (.setTension _)) (fun k hk => h k (List.mem_cons_of_mem _ hk)) hok
      refine ⟨_, _, rfl, alike_query R, ?_⟩
      rw [show (pulleyRest _ (k.setTension _) ks).2 = b :: bs from e]
      exact .cons_cons (hp.alike (alike_query R) ha) hc

theorem solvePulley_chain {w : V3} {ks : List Catenary3d} (h : ∀ k ∈ ks, k.Reachable ∧ k.weightUnit = w) (x : ℝ)
    (hok : (solvePulley x ks).1 = true) : (solvePulley x ks).2.IsChain Pulley := by
  cases ks with
  | nil => cases hok
  | cons k ks =>
    obtain ⟨hk, hw⟩ := h k List.mem_cons_self
    have P := pulleySolver_ready k.weightUnit
    rw [hw] at P
    unfold solvePulley at hok ⊢
    simp only at hok ⊢
    rw [hw] at hok ⊢
    obtain ⟨b, bs, e, _, hc⟩ := pulleyRest_chain P (prev := k.setTension x) (hk.step (.setTension x))
      (fun k hk => h k (List.mem_cons_of_mem _ hk)) hok
    rw [e]
    exact hc

theorem asked_chain {ks : List Catenary3d} (h : ∀ k ∈ ks, k.Reachable) (hc : ks.IsChain Pulley) :
    (asked ks).IsChain Pulley := by
  unfold asked
  rw [List.isChain_map]
  have : ∀ ks : List Catenary3d, (∀ k ∈ ks, k.Reachable) → ks.IsChain Pulley →
      ks.IsChain (fun a b => Pulley (Event.query.next a) (Event.query.next b)) := by
    intro ks h hc
    induction hc with
    | nil => exact .nil
    | singleton => exact .singleton _
    | cons_cons r _ ih =>
      exact .cons_cons (r.alike (alike_query (h _ List.mem_cons_self))
        (alike_query (h _ (List.mem_cons_of_mem _ List.mem_cons_self)))) (ih fun k hk => h k (List.mem_cons_of_mem _ hk))
  exact this ks h hc

end SagCorrector
end Verif
