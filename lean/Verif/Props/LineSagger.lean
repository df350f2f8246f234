import Verif.LineSaggerLemmas
import Verif.Props.LineLoader

/-!
# Properties of the line cable sagger

C76: the controlling constraint gives the lowest tension.  C77: sagging twice changes nothing.  C119: the sagged line
cable has the tension of the controlling constraint.  C120: the answers describe the sagged line cable.
-/

set_option linter.unusedSectionVars false

namespace Verif.Props
open Verif Verif.CatenaryReloader Verif.ElongationModel

/-- The line cable `c` strung to another constraint `q`, and reloaded to the loading of its own constraint. -/
noncomputable def restrung (c : SectionCable) (q : CableConstraint) : LineReloader :=
  ((LineReloader.new.setLineCable (some { c with constraint := q })).setCondition
    c.constraint.condition).setWeather c.constraint.caseWeather

/-- The line cable `c` reloaded to the loading of another constraint `q`. -/
noncomputable def loadedAt (c : SectionCable) (q : CableConstraint) : LineReloader :=
  ((LineReloader.new.setLineCable (some c)).setCondition q.condition).setWeather q.caseWeather

/-- After a query that does not give its failure value the sagger is up to date. -/
theorem sagger_asked {A : Type} {s : Sagger} {heap : Heap ℝ} {d z : A} {f : Sagger → Run Sagger A}
    (h : (s.ask heap d f).result = some (.val z)) (hz : z ≠ d) :
    ∃ t, s.update heap = .ok t true ∧ (f t).result = some (.val z) ∧ s.ask heap d f = f t := by
  unfold Sagger.ask at h ⊢
  generalize hu : s.update heap = o at h ⊢
  match o with
  | .ok t true => exact ⟨t, rfl, h, rfl⟩
  | .ok t false => cases h; exact absurd rfl hz
  | .throws t => cases h
  | .ub => cases h
  | .nan => cases h

theorem sagger_updated {s t : Sagger} {heap : Heap ℝ} (h : s.update heap = .ok t true) : t.isUpdated = true := by
  unfold Sagger.update at h
  split_ifs at h with hu
  · cases h; exact hu
  obtain ⟨t1, b1, e1, h⟩ := Run.bind_ok h
  by_cases hb : b1 = false
  · rw [if_pos hb] at h; cases h
  rw [if_neg hb] at h
  obtain ⟨t2, b2, e2, h⟩ := Run.bind_ok h
  cases h
  rfl

/-- **C76**. Let a line cable sagger, with any history, report a controlling constraint.  It is one of the design
constraints, and stringing the line cable to it gives at most the horizontal tension, at the loading of the line cable's
constraint, that any other design constraint gives; less than those before it. -/
theorem C76_lowest {calls : List Sagger.Call} {s : Sagger} (h : Sagger.run .new calls = some s) {heap : Heap ℝ} {i : ℤ}
    (hi : (s.indexControlling heap).result = some (.val i)) (h0 : i ≠ -9999) :
    ∃ (qs : List CableConstraint) (c : SectionCable) (n : ℕ) (q : CableConstraint), s.constraints = some qs ∧
      s.lineCable = some c ∧ i = (n : ℤ) ∧ qs[n]? = some q ∧
      ∀ (j : ℕ) (q' : CableConstraint), qs[j]? = some q' → j ≠ n →
        ∃ t t', (restrung c q).tensionHorizontal.result = some (.val t) ∧
          (restrung c q').tensionHorizontal.result = some (.val t') ∧ t ≤ t' ∧ (j < n → t < t') := by
  have hs : s.Sound := Sagger.run_sound Sagger.new_sound calls h
  obtain ⟨t, hu, hf, -⟩ := sagger_asked hi h0
  have ht := sagger_updated hu
  obtain ⟨S, K⟩ := Sagger.update_sound hs t (by rw [hu]; rfl)
  obtain ⟨qs, c', e1, e2, ⟨n, e3, e4, e5⟩, -⟩ := S ht
  have hi : t.index = i := by cases hf; rfl
  rcases K with ⟨k1, ⟨-, k2⟩ | ⟨c, c'', k2, k3, k4⟩⟩
  · rw [e2] at k2; cases k2
  cases e2.symm.trans k3
  refine ⟨qs, c, n, qs[n], by rw [← k1]; exact e1, k2, by rw [← hi]; exact e3, List.getElem?_eq_getElem e4, ?_⟩
  intro j q' hj hjn
  have hl : qs.length ≠ 1 := by
    intro hl
    have := (List.getElem?_eq_some_iff.1 hj).1
    omega
  obtain ⟨q, t1, g1, g2, g3, g4⟩ := e5 hl
  rw [List.getElem?_eq_getElem e4] at g1
  cases g1
  rw [k4.tension] at g2 g4
  obtain ⟨t2, g5, g6, g7⟩ := g4 j q' hj
  exact ⟨t1, t2, g2, g5, g6, g7⟩

/-- What a successful sagging of a line cable does. -/
theorem sagger_facts {s t : Sagger} {heap : Heap ℝ} (hf : s.isUpdated = false) (h : s.update heap = .ok t true) :
    ∃ qs c i q k ks, s.constraints = some qs ∧ s.lineCable = some c ∧
      s.updateIndex = .ok { s with index := i } true ∧ Sagger.Controls c qs i ∧
      qs[i.toNat]? = some q ∧ validIndex i qs.length = true ∧
      Sagger.reloadChecked heap (reloaderOf { c with constraint := q } c.constraint.caseWeather c.constraint.condition) =
        some (.val (some k)) ∧
      Sagger.actualLoop (fun q => Sagger.reloadChecked heap (reloaderOf (Sagger.resag c k) q.caseWeather q.condition))
        qs [] = .ok ks true ∧
      t = ⟨some qs, some (Sagger.resag c k), ks, i, true⟩ := by
  unfold Sagger.update at h
  rw [if_neg (by rw [hf]; decide)] at h
  obtain ⟨t1, b1, e1, h⟩ := Run.bind_ok h
  by_cases hb : b1 = false
  · rw [if_pos hb] at h; cases h
  rw [if_neg hb] at h
  have hb : b1 = true := by simpa using hb
  subst hb
  obtain ⟨qs, c, i, q, k, g1, g2, g3, g4, g5, g6, g7, g8⟩ := Sagger.updateLimit_true e1
  subst g8
  obtain ⟨t2, b2, e2, h⟩ := Run.bind_ok h
  have hb2 : b2 = true := by cases h; rfl
  subst hb2
  unfold Sagger.updateActual at e2
  rw [g1] at e2
  simp only at e2
  generalize ha : Sagger.actualLoop (fun q => Sagger.reloadChecked heap
    (reloaderOf (Sagger.resag c k) q.caseWeather q.condition)) qs [] = o at e2
  match o with
  | .ok ks b =>
    cases e2
    cases h
    exact ⟨qs, c, i, q, k, ks, g1, g2, g3, g4, g5, g6, g7, ha, rfl⟩
  | .throws _ => cases e2
  | .ub => cases e2
  | .nan => cases e2

/-- A sagger whose settings are those of a sagged line cable does nothing to it. -/
theorem sagger_again {s t u : Sagger} {heap : Heap ℝ} (hf : s.isUpdated = false) (h : s.update heap = .ok t true)
    (hu : u.isUpdated = false) (hq : u.constraints = t.constraints) (hc : u.lineCable = t.lineCable) :
    u.update heap = .ok t true := by
  obtain ⟨qs, c, i, q, k, ks, e1, e2, e3, e4, e5, e6, e7, e8, rfl⟩ := sagger_facts hf h
  have hq : u.constraints = some qs := hq
  have hc : u.lineCable = some (Sagger.resag c k) := hc
  have a1 : u.updateIndex = .ok { u with index := i } true := by
    unfold Sagger.updateIndex at e3 ⊢
    rw [e1] at e3
    rw [hq]
    simp only at e3 ⊢
    by_cases hl : qs.length = 1
    · rw [if_pos hl] at e3 ⊢
      have : (({ s with index := 0 } : Sagger).index) = i := by cases e3; rfl
      have : (0:ℤ) = i := this
      rw [← this]
    · rw [if_neg hl] at e3 ⊢
      rw [e2] at e3
      rw [hc]
      simp only at e3 ⊢
      have : Sagger.tensionOf (Sagger.resag c k) = Sagger.tensionOf c := (Sagger.resag_kin c k).tension
      rw [this]
      generalize Sagger.controlLoop (Sagger.tensionOf c) qs 0 999999 (-9999) = o at e3
      match o with
      | .ok j b =>
        have hj : j = i ∧ b = true := by
          unfold Run.mapState at e3
          simp only [Run.ok.injEq] at e3
          exact ⟨congrArg Sagger.index e3.1, e3.2⟩
        rw [hj.1, hj.2]; rfl
      | .throws _ => cases e3
      | .ub => cases e3
      | .nan => cases e3
  have a2 : u.updateLimit heap = .ok { u with index := i } true := by
    unfold Sagger.updateLimit
    rw [a1]
    simp only [Run.bind]
    rw [if_neg (by decide), hq, hc]
    simp only
    rw [if_pos e6, e5]
    simp only
    have : reloaderOf { Sagger.resag c k with constraint := q } (Sagger.resag c k).constraint.caseWeather
      (Sagger.resag c k).constraint.condition =
      reloaderOf { c with constraint := q } c.constraint.caseWeather c.constraint.condition := rfl
    rw [this, e7]
    simp only
    rw [Sagger.resag_resag, ← hc]
  unfold Sagger.update
  rw [if_neg (by rw [hu]; decide), a2]
  simp only [Run.bind]
  rw [if_neg (by decide)]
  unfold Sagger.updateActual
  simp only
  rw [hq, hc]
  simp only
  rw [e8]
  rfl

/-- **C77**. Let the sagging of a line cable succeed, and let another sagger, with whatever history, be given the same
design constraints and the line cable as it is then.  It finds the same controlling constraint and reports the same
limit, and it leaves the line cable as it is. -/
theorem C77_again {s t u : Sagger} {c : SectionCable} {heap : Heap ℝ} {i : ℤ}
    (h : (s.setLineCable (some c)).indexControlling heap = .ok t i) (h0 : i ≠ -9999) :
    let n := (u.setConstraints t.constraints).setLineCable t.lineCable
    n.indexControlling heap = .ok t i ∧
      ∃ c', t.lineCable = some c' ∧ t.limitSagged heap = .ok t c'.constraint.limit ∧
        n.limitSagged heap = .ok t c'.constraint.limit := by
  intro n
  obtain ⟨t', hu, hr, hf⟩ := sagger_asked (s := s.setLineCable (some c)) (heap := heap) (d := (-9999 : ℤ)) (z := i)
    (f := fun s => .ok s s.index) (by
      have : (s.setLineCable (some c)).ask heap (-9999) (fun s => .ok s s.index) = .ok t i := h
      rw [this]; rfl) h0
  have e : t' = t ∧ t'.index = i := by
    have : (s.setLineCable (some c)).ask heap (-9999) (fun s => .ok s s.index) = .ok t i := h
    rw [hf] at this
    simpa using this
  obtain ⟨rfl, hi⟩ := e
  have hn : n.update heap = .ok t' true := sagger_again (u := n) rfl hu rfl rfl rfl
  obtain ⟨qs, c0, j, q, k, ks, -, -, -, -, -, -, -, -, ht⟩ := sagger_facts rfl hu
  have hc : t'.lineCable = some (Sagger.resag c0 k) := by rw [ht]
  refine ⟨?_, _, hc, ?_, ?_⟩
  · unfold Sagger.indexControlling Sagger.ask
    rw [hn]
    simp only [Run.bind]
    rw [if_pos trivial, hi]
  · have : t'.update heap = .ok t' true := by
      unfold Sagger.update
      rw [if_pos (sagger_updated hu)]
    unfold Sagger.limitSagged Sagger.ask
    rw [this]
    simp only [Run.bind]
    rw [if_pos trivial, hc]
  · unfold Sagger.limitSagged Sagger.ask
    rw [hn]
    simp only [Run.bind]
    rw [if_pos trivial, hc]

/-- The span and the unit load of a reloaded catenary. -/
theorem reloaded_span {t : LineReloader} (hs : t.Sound) (ht : t.isUpdated = true) {c : SectionCable}
    (hc : t.base.lineCable = some c) :
    t.catenary.spacing = c.spacing ∧ c.unitLoad t.weather = .val t.catenary.weightUnit ∧ t.catenary.Reachable ∧
      ∃ K, c.catenaryRulingSpan = .val K ∧ K.validate.1 = true := by
  unfold LineReloader.isUpdated at ht
  simp only [Bool.and_eq_true] at ht
  have hb : t.base.updatedStretch = true := by
    have := ht.1.1
    unfold LineLoader.isUpdated at this
    simp only [Bool.and_eq_true] at this
    exact this.2
  obtain ⟨c', k, w, a, b, f1, f2, f3, f4, f5, f6, f7, f8, -⟩ := LineLoader.update_facts (hs.base hb).2
  have f1 : t.base.lineCable = some c' := f1
  cases hc.symm.trans f1
  have hv := hs.cat ht.1.1 ht.2
  unfold LineReloader.catenaryValue at hv
  rw [hc] at hv
  simp only at hv
  split at hv
  · rename_i v hl
    split at hv
    · rename_i r hr
      have e : r.catenaryReloaded = t.catenary := by simpa using hv
      obtain ⟨x, p1, -, p3, p4, -, p6⟩ := C93_partial rfl rfl rfl (validate_update hr)
      have ex : x = t.catenary := by
        have h2 := validate_update hr
        unfold CatenaryReloader.catenaryQ at p1
        rw [h2] at p1
        simp only at p1
        rw [← e]
        injection p1 with _ p1
        exact p1.symm
      subst ex
      exact ⟨p3.trans (C107_limit f7 f8).1, by rw [hl, p4], p6, _, f7, f8⟩
    · cases hv
    · cases hv
    · cases hv
  · cases hv
  · cases hv

/-- **C119**. Let the sagging of a line cable succeed.  Then the ruling span of the line cable, as it is afterwards, has
the span and the unit load of the reloaded catenary of the controlling constraint; and it has its horizontal tension or
its catenary constant, if these are the kind of the line cable's limit, and its support tension within a hundredth of a
tension unit on a level span.

Not so for limits of the cable length and the sag: they are left as they were, although success is reported. -/
theorem C119_tension_partial {s t : Sagger} {c : SectionCable} {heap : Heap ℝ} {i : ℤ}
    (h : (s.setLineCable (some c)).indexControlling heap = .ok t i) (h0 : i ≠ -9999) :
    ∃ qs q k c' K, s.constraints = some qs ∧ qs[i.toNat]? = some q ∧
      (restrung c q).catenaryReloaded.result = some (.val k) ∧ t.lineCable = some c' ∧
      c'.catenaryRulingSpan = .val K ∧ K.validate.1 = true ∧
      K.spacing = k.spacing ∧ K.weightUnit = k.weightUnit ∧
      match c.constraint.typeLimit with
      | .null => False
      | .horizontalTension => K.tensionHorizontal = k.tensionHorizontal
      | .catenaryConstant => K.constant = k.constant
      | .supportTension => |K.tensionMax - k.tensionMax| ≤ 0.01 * (c.spacing.magnitude / c.spacing.x)
      | .length => c' = c
      | .sag => c' = c := by
  obtain ⟨t', hu, hr, hf⟩ := sagger_asked (s := s.setLineCable (some c)) (heap := heap) (d := (-9999 : ℤ)) (z := i)
    (f := fun s => .ok s s.index) (by
      have : (s.setLineCable (some c)).ask heap (-9999) (fun s => .ok s s.index) = .ok t i := h
      rw [this]; rfl) h0
  have e : t' = t ∧ t'.index = i := by
    have : (s.setLineCable (some c)).ask heap (-9999) (fun s => .ok s s.index) = .ok t i := h
    rw [hf] at this
    simpa using this
  obtain ⟨rfl, hi⟩ := e
  obtain ⟨qs, c0, j, q, k, ks, e1, e2, e3, e4, e5, e6, e7, e8, ht⟩ := sagger_facts rfl hu
  have e2 : some c = some c0 := e2
  cases e2
  have hj : j = i := by rw [← hi, ht]
  subst hj
  obtain ⟨g1, r, g2, g3, g4⟩ := Sagger.reloadChecked_some (Sagger.reloaderOf_sound _ _ _) e7
  obtain ⟨p1, p2, p3, -⟩ := reloaded_span g3.1 g2 (c := { c with constraint := q }) g3.2.1
  rw [g4] at p1 p2
  rw [g3.2.2.2] at p2
  have p1 : k.spacing = c.spacing := p1
  have p2 : c.unitLoad c.constraint.caseWeather = .val k.weightUnit := p2
  -- the first of the reloads afterwards
  have hne : ∃ q1 qs', qs = q1 :: qs' := by
    cases qs with
    | nil => simp at e5
    | cons q1 qs' => exact ⟨q1, qs', rfl⟩
  obtain ⟨q1, qs', rfl⟩ := hne
  have hk1 : ∃ k1, Sagger.reloadChecked heap (reloaderOf (Sagger.resag c k) q1.caseWeather q1.condition) =
      some (.val (some k1)) := by
    unfold Sagger.actualLoop at e8
    split at e8
    · rename_i k1 hk1; exact ⟨k1, hk1⟩
    all_goals cases e8
  obtain ⟨k1, hk1⟩ := hk1
  obtain ⟨-, r1, g5, g6, -⟩ := Sagger.reloadChecked_some (Sagger.reloaderOf_sound _ _ _) hk1
  obtain ⟨-, -, -, K, hK, hv⟩ := reloaded_span g6.1 g5 (c := Sagger.resag c k) g6.2.1
  obtain ⟨l1, l2, l3⟩ := C107_limit hK hv
  have l1 : K.spacing = c.spacing := l1
  have l2 : c.unitLoad c.constraint.caseWeather = .val K.weightUnit := l2
  have l3 : match c.constraint.typeLimit with
    | .null => False
    | .horizontalTension => K.tensionHorizontal = (Sagger.resag c k).constraint.limit
    | .catenaryConstant => K.constant = (Sagger.resag c k).constraint.limit
    | .length => |K.length - (Sagger.resag c k).constraint.limit| ≤ 0.0075 / K.weightUnit.magnitude
    | .sag => |K.sag - (Sagger.resag c k).constraint.limit| ≤
        0.015 * (c.spacing.magnitude / c.spacing.x) / K.weightUnit.magnitude
    | .supportTension => |K.tensionMax - (Sagger.resag c k).constraint.limit| ≤
        0.01 * (c.spacing.magnitude / c.spacing.x) := l3
  refine ⟨_, q, k, Sagger.resag c k, K, e1, e5, g1, by rw [ht], hK, hv, l1.trans p1.symm, ?_, ?_⟩
  · have := l2.symm.trans p2
    simpa using this
  · cases hty : c.constraint.typeLimit with
    | null => rw [hty] at l3; exact l3
    | horizontalTension =>
      rw [hty] at l3
      have e : (Sagger.resag c k).constraint.limit = k.tensionHorizontal := by
        unfold Sagger.resag Sagger.limitOf; simp only [hty]
      rw [← e]; exact l3
    | catenaryConstant =>
      rw [hty] at l3
      have e : (Sagger.resag c k).constraint.limit = k.constant := by
        unfold Sagger.resag Sagger.limitOf; simp only [hty]
      rw [← e]; exact l3
    | supportTension =>
      rw [hty] at l3
      have e : (Sagger.resag c k).constraint.limit = k.tensionMax := by
        unfold Sagger.resag Sagger.limitOf; simp only [hty]
      rw [← e]; exact l3
    | length =>
      show Sagger.resag c k = c
      have e : Sagger.limitOf k c.constraint.typeLimit c.constraint.limit = c.constraint.limit := by rw [hty]; rfl
      unfold Sagger.resag
      rw [e]
    | sag =>
      show Sagger.resag c k = c
      have e : Sagger.limitOf k c.constraint.typeLimit c.constraint.limit = c.constraint.limit := by rw [hty]; rfl
      unfold Sagger.resag
      rw [e]

/-- The catenary an up-to-date sagger keeps for a constraint. -/
theorem sagger_catenary {s : Sagger} (hs : s.Sound) (hu : s.isUpdated = true) {i : ℤ} {k : Catenary3d}
    (hk : s.catenaryAt i = .val k) : ∃ qs c q, s.constraints = some qs ∧ s.lineCable = some c ∧ 0 ≤ i ∧
      qs[i.toNat]? = some q ∧ (loadedAt c q).catenaryReloaded.result = some (.val k) := by
  obtain ⟨qs, c, e1, e2, -, -, ha⟩ := hs hu
  unfold Sagger.catenaryAt at hk
  split_ifs at hk with hv
  split at hk
  · rename_i k' hk'
    cases hk
    obtain ⟨q, g1, g2⟩ := ha _ _ hk'
    refine ⟨qs, c, q, e1, e2, ?_, g1, g2⟩
    unfold validIndex at hv
    simp at hv
    exact hv.1
  · cases hk

/-- **C120**. The tensions and the catenary constant reported for a design constraint, after any history, are those of
the line cable, as the query leaves it, when it is reloaded to the constraint's weather case and condition. -/
theorem C120_actual {calls : List Sagger.Call} {s : Sagger} (h : Sagger.run .new calls = some s) {heap : Heap ℝ} {i : ℤ}
    {a b d : ℝ} (ha : (s.tensionHorizontalActual heap i).result = some (.val a))
    (hb : (s.tensionSupportActual heap i).result = some (.val b))
    (hd : (s.constantActual heap i).result = some (.val d)) (h0 : a ≠ -999999) :
    ∃ t qs c q k, (s.tensionHorizontalActual heap i).state? = some t ∧ s.constraints = some qs ∧
      t.lineCable = some c ∧ 0 ≤ i ∧ qs[i.toNat]? = some q ∧
      (loadedAt c q).catenaryReloaded.result = some (.val k) ∧
      a = k.tensionHorizontal ∧ b = k.tensionMax ∧ d = k.constant := by
  have hs : s.Sound := Sagger.run_sound Sagger.new_sound calls h
  obtain ⟨t, hu, hf, he⟩ := sagger_asked ha h0
  obtain ⟨S, K⟩ := Sagger.update_sound hs t (by rw [hu]; rfl)
  have q : ∀ f : Catenary3d → ℝ, s.askActual heap i f = match t.catenaryAt i with
      | .val k => .ok t (f k)
      | .throws => .throws t
      | .ub => .ub := by
    intro f
    unfold Sagger.askActual Sagger.ask
    rw [hu]
    simp only [Run.bind]
    rw [if_pos trivial]
    rfl
  have ha : (s.askActual heap i fun k => k.tensionHorizontal).result = some (.val a) := ha
  have hb : (s.askActual heap i fun k => k.tensionMax).result = some (.val b) := hb
  have hd : (s.askActual heap i fun k => k.constant).result = some (.val d) := hd
  have est : (s.tensionHorizontalActual heap i).state? = (s.askActual heap i fun k => k.tensionHorizontal).state? := rfl
  rw [q] at ha hb hd
  rw [q] at est
  cases hc : t.catenaryAt i with
  | val k =>
    rw [hc] at ha hb hd est
    obtain ⟨qs, c, q', e1, e2, e3, e4, e5⟩ := sagger_catenary S (sagger_updated hu) hc
    refine ⟨t, qs, c, q', k, est, by rw [← K.1]; exact e1, e2, e3, e4, e5, ?_, ?_, ?_⟩
    · cases ha; rfl
    · cases hb; rfl
    · cases hd; rfl
  | throws => rw [hc] at ha; cases ha
  | ub => rw [hc] at ha; cases ha

/-- **C120**. The allowable capacity reported for a design constraint, after any history, is what the line cable has of
the constraint's kind of limit, when it is reloaded to the constraint's weather case and condition, as a fraction of the
limit. -/
theorem C120_capacity {calls : List Sagger.Call} {s : Sagger} (h : Sagger.run .new calls = some s) {heap : Heap ℝ}
    {i : ℤ} {x : ℝ} (hx : (s.capacityAllowable heap i).result = some (.val x)) (h0 : x ≠ -999999) :
    ∃ t qs c q k, (s.capacityAllowable heap i).state? = some t ∧ s.constraints = some qs ∧
      t.lineCable = some c ∧ 0 ≤ i ∧ qs[i.toNat]? = some q ∧
      (loadedAt c q).catenaryReloaded.result = some (.val k) ∧ q.limit ≠ 0 ∧
      match q.typeLimit with
      | .horizontalTension => x * q.limit = k.tensionHorizontal
      | .catenaryConstant => x * q.limit = k.constant
      | .supportTension => x * q.limit = k.tensionMax
      | _ => False := by
  have hs : s.Sound := Sagger.run_sound Sagger.new_sound calls h
  obtain ⟨t, hu, hf, he⟩ := sagger_asked hx h0
  obtain ⟨S, K⟩ := Sagger.update_sound hs t (by rw [hu]; rfl)
  have he : s.capacityAllowable heap i = _ := he
  rw [he]
  cases hq : t.constraints with
  | none => rw [hq] at hf; cases hf
  | some qs =>
    rw [hq] at hf
    simp only at hf ⊢
    by_cases hv : validIndex i qs.length = true
    swap
    · rw [if_neg hv] at hf; cases hf
    rw [if_pos hv] at hf ⊢
    cases hc : t.catenaryAt i with
    | throws => rw [hc] at hf; cases hg : qs[i.toNat]? <;> rw [hg] at hf <;> cases hf
    | ub => rw [hc] at hf; cases hg : qs[i.toNat]? <;> rw [hg] at hf <;> cases hf
    | val k =>
      obtain ⟨qs', c, q, e1, e2, e3, e4, e5⟩ := sagger_catenary S (sagger_updated hu) hc
      cases hq.symm.trans e1
      rw [hc, e4] at hf
      rw [e4]
      simp only at hf ⊢
      have fin : ∀ y : ℝ, (if q.limit = 0 then Run.nan else Run.ok t (y / q.limit)).result = some (.val x) →
          (if q.limit = 0 then Run.nan else Run.ok t (y / q.limit)).state? = some t ∧ q.limit ≠ 0 ∧ x * q.limit = y := by
        intro y hy
        by_cases hl : q.limit = 0
        · rw [if_pos hl] at hy; cases hy
        · rw [if_neg hl] at hy ⊢
          cases hy
          exact ⟨rfl, hl, by field_simp⟩
      cases hty : q.typeLimit with
      | horizontalTension =>
        rw [hty] at hf
        obtain ⟨g1, g2, g3⟩ := fin _ hf
        exact ⟨t, qs, c, q, k, g1, by rw [← K.1]; exact e1, e2, e3, e4, e5, g2, by rw [hty]; exact g3⟩
      | catenaryConstant =>
        rw [hty] at hf
        obtain ⟨g1, g2, g3⟩ := fin _ hf
        exact ⟨t, qs, c, q, k, g1, by rw [← K.1]; exact e1, e2, e3, e4, e5, g2, by rw [hty]; exact g3⟩
      | supportTension =>
        rw [hty] at hf
        obtain ⟨g1, g2, g3⟩ := fin _ hf
        exact ⟨t, qs, c, q, k, g1, by rw [← K.1]; exact e1, e2, e3, e4, e5, g2, by rw [hty]; exact g3⟩
      | null => rw [hty] at hf; cases hf; exact absurd rfl h0
      | length => rw [hty] at hf; cases hf; exact absurd rfl h0
      | sag => rw [hty] at hf; cases hf; exact absurd rfl h0

end Verif.Props
