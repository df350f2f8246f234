import Verif.LocatorLemmas
import Verif.Props.Catenary3d
import Verif.Props.Vector

/-!
# Properties of the cable position locator and the attachment equilibrium solver

C79: span indices.  C121: hardware swings to the inside of the line angle.  C122: attachment points are one hardware
length from the structure.  C123: the points of a span run from one attachment point to the next.  C124: history does
not matter.  C125: a failed location is not handed out.
-/

set_option linter.unusedSectionVars false

namespace Verif.Props
open Verif Verif.Units Verif.Locator

/-- A locator after calls on a new one that all returned, its line being left alone meanwhile. -/
def Located.Reached (as : Assemblies) (s : Locator) : Prop :=
  ∃ ks : List Locator.Call, (∀ k ∈ ks, k.Told) ∧ Locator.run as Locator.new ks = some s

theorem reached_sound {as : Assemblies} {s : Locator} (h : Located.Reached as s) : Sound as s := by
  obtain ⟨ks, hk, hr⟩ := h
  exact run_sound ks new_sound hk hr

/-- A located cable: its state, and what other queries then do. -/
theorem located_points {as : Assemblies} {s s' : Locator} {qs : List P3} (hs : Sound as s)
    (h : s.pointsAttachment as = .ok s' (some qs)) :
    Locator.Located as s' ∧ SameSettings s' s ∧ s'.points = qs ∧
      ∀ {A : Type} (failed : A) (f : Locator → Run Locator A), s.ask as failed f = f s' := by
  obtain ⟨h1, h2, h3⟩ := ask_ok attachment_const hs h
  rcases h3 with ⟨h4, h5, h6⟩ | ⟨-, h5⟩
  · refine ⟨h6, h2, by cases h5; rfl, fun failed f => ?_⟩
    unfold pointsAttachment ask at h
    unfold ask
    split at h
    · rename_i hu
      cases h
      rw [if_pos hu]
    · rename_i hu
      rw [if_neg hu]
      match hup : s.update as with
      | .ub => rw [hup] at h; cases h
      | .nan => rw [hup] at h; cases h
      | .throws _ => rw [hup] at h; cases h
      | .ok s1 false =>
        rw [hup] at h
        cases h
      | .ok s1 true =>
        rw [hup] at h
        cases h
        simp only [Run.bind, if_true]
  · cases h5

/-! ## C79 -/

/-- **C79** is false: the index of the last attachment point, behind which there is no span, is not rejected, and the
point beyond it is read out of bounds. -/
theorem C79_last_index_ub {as : Assemblies} {s s' : Locator} {qs : List P3} (hr : Located.Reached as s)
    (h : s.pointsAttachment as = .ok s' (some qs)) (hq : qs ≠ []) (num : ℤ) :
    s.pointsCable as ((qs.length : ℤ) - 1) num = .ub := by
  obtain ⟨-, -, h3, h4⟩ := located_points (reached_sound hr) h
  unfold pointsCable
  rw [h4, h3]
  have hl : 0 < qs.length := List.length_pos_iff.2 hq
  rw [if_neg (by push Not; constructor <;> omega)]
  have e : ((qs.length : ℤ) - 1).toNat + 1 = qs.length := by omega
  rw [e, List.getElem?_eq_none (le_refl _)]
  split
  · rename_i hx _; cases hx
  · rfl

/-- **C79** (partial): every other index is safe: those beyond are rejected, those of a span are served.  Missing: the
index of the last attachment point, see `C79_last_index_ub`. -/
theorem C79_partial {as : Assemblies} {s s' : Locator} {qs : List P3} (hr : Located.Reached as s)
    (h : s.pointsAttachment as = .ok s' (some qs)) (i num : ℤ) (hi : i ≠ (qs.length : ℤ) - 1) :
    s.pointsCable as i num ≠ .ub ∧
      ((i < 0 ∨ (qs.length : ℤ) ≤ i) → s.pointsCable as i num = .ok s' []) := by
  obtain ⟨h1, -, h3, h4⟩ := located_points (reached_sound hr) h
  unfold pointsCable
  rw [h4, h3]
  by_cases hc : i < 0 ∨ (qs.length : ℤ) - 1 < i
  · rw [if_pos hc]
    exact ⟨(by intro h; cases h), fun _ => rfl⟩
  · rw [if_neg hc]
    push Not at hc
    obtain ⟨w, hw, -⟩ := h1.weight
    have a1 : i.toNat < qs.length := by omega
    have a2 : i.toNat + 1 < qs.length := by omega
    rw [List.getElem?_eq_getElem a1, List.getElem?_eq_getElem a2, hw]
    refine ⟨?_, by intro hx; omega⟩
    simp only
    split <;> (intro h; cases h)

/-! ## C122 -/

/-- The squared distance of two points. -/
def sqDist (p q : P3) : ℝ := (q.x - p.x) ^ 2 + (q.y - p.y) ^ 2 + (q.z - p.z) ^ 2

theorem place_dist (p : P3) (h : Spherical) : sqDist p (place p h) = h.radius ^ 2 := by
  unfold sqDist place Spherical.offset
  simp only [add_sub_cancel_right]
  generalize toRadians h.angleX = a
  generalize toRadians h.angleZ = b
  have h1 := Real.sin_sq_add_cos_sq a
  have h2 := Real.sin_sq_add_cos_sq b
  calc _ = h.radius ^ 2 * ((Real.sin a ^ 2 + Real.cos a ^ 2) * Real.sin b ^ 2 + Real.cos b ^ 2) := by ring
    _ = _ := by rw [h1, one_mul, h2, mul_one]

theorem sqDist_zero {p q : P3} (h : sqDist p q = 0) : q = p := by
  unfold sqDist at h
  have h1 := sq_nonneg (q.x - p.x)
  have h2 := sq_nonneg (q.y - p.y)
  have h3 := sq_nonneg (q.z - p.z)
  ext
  · have : (q.x - p.x) ^ 2 = 0 := by linarith
    have := pow_eq_zero_iff (two_ne_zero) |>.1 this
    linarith
  · have : (q.y - p.y) ^ 2 = 0 := by linarith
    have := pow_eq_zero_iff (two_ne_zero) |>.1 this
    linarith
  · have : (q.z - p.z) ^ 2 = 0 := by linarith
    have := pow_eq_zero_iff (two_ne_zero) |>.1 this
    linarith

theorem fits_dist {ps : List P3} {ls : List ℝ} {hs : List Spherical} (hf : Fits ps ls hs) {i : ℕ} {q : P3}
    (hq : (placed ps hs)[i]? = some q) : ∃ p, ps[i]? = some p ∧
      ((i = 0 ∨ i = ps.length - 1) ∧ q = p ∨
        ¬ (i = 0 ∨ i = ps.length - 1) ∧ ∃ l, ls[i]? = some l ∧ sqDist p q = l ^ 2) := by
  obtain ⟨p, k, e1, e2, rfl⟩ := placed_get hq
  refine ⟨p, e1, ?_⟩
  have := hf.2 i k e2
  unfold Fixed at this
  by_cases hi : i = 0 ∨ i = ps.length - 1
  · rw [if_pos hi] at this
    refine Or.inl ⟨hi, sqDist_zero ?_⟩
    rw [place_dist, this]
    norm_num
  · rw [if_neg hi] at this
    obtain ⟨b, c, a, v, -, -, -, -, e3, -⟩ := this
    exact Or.inr ⟨hi, _, e3, place_dist _ _⟩

/-- **C122**. Let a locator hand out attachment points.  There is one per connection of the line cable; the first and
the last coincide with the attachment points of the structures, as the line gives them, and each of the others is
exactly one hardware length from it. -/
theorem C122_attachment {as : Assemblies} {s s' : Locator} {qs : List P3} (hr : Located.Reached as s)
    (h : s.pointsAttachment as = .ok s' (some qs)) :
    ∃ g k, s'.line = some g ∧ 0 ≤ s.index ∧ g.line.cables[s.index.toNat]? = some k ∧
      qs.length = k.connections.length ∧
      ∀ (i : ℕ) (c : Connection), k.connections[i]? = some c → ∃ p q g', qs[i]? = some q ∧
        g.pointXyzLineStructureAttachment (g.line.indexLineStructure c.ptr) c.attachment = .ok g' (some p) ∧
        (i = 0 ∨ i + 1 = k.connections.length → q = p) ∧
        (0 < i → i + 1 < k.connections.length → sqDist p q = as c.ptr c.attachment.toNat ^ 2) := by
  obtain ⟨h1, h2, h3, -⟩ := located_points (reached_sound hr) h
  obtain ⟨⟨g, k, e1, e2, e3, ds, e4, e5, e6⟩, e7, e8, -⟩ := h1
  have hl : ds.length = k.connections.length := e4.length_eq.symm
  have hps : s'.structures.length = k.connections.length := by rw [e5, List.length_map, hl]
  refine ⟨g, k, e1, ?_, h2.2.1 ▸ e3, ?_, ?_⟩
  · rw [h2.2.1] at e2
    simp only [validIndex, Bool.and_eq_true, decide_eq_true_eq] at e2
    omega
  · rw [← h3, e8, placed_length e7.1, hps]
  · intro i c hc
    have hi : i < k.connections.length := (List.getElem?_eq_some_iff.1 hc).1
    have hd := (List.forall₂_iff_get.1 e4).2 i hi (by omega)
    simp only [List.get_eq_getElem] at hd
    rw [List.getElem?_eq_getElem hi] at hc
    cases hc
    obtain ⟨d1, d2, g', d3⟩ := hd
    have hq : i < (placed s'.structures s'.hardware).length := by rw [placed_length e7.1, hps]; exact hi
    obtain ⟨p, f1, f2⟩ := fits_dist e7 (List.getElem?_eq_getElem hq)
    have hp : p = (ds[i]'(by omega)).1 := by
      rw [e5, List.getElem?_map, List.getElem?_eq_getElem (by omega)] at f1
      cases f1; rfl
    refine ⟨p, (placed s'.structures s'.hardware)[i], g', ?_, hp ▸ d3, ?_, ?_⟩
    · rw [← h3, e8, List.getElem?_eq_getElem hq]
    · intro hx
      rcases f2 with ⟨-, f2⟩ | ⟨f2, -⟩
      · exact f2
      · rw [hps] at f2; omega
    · intro x1 x2
      rcases f2 with ⟨f2, -⟩ | ⟨-, l, f2, f3⟩
      · rw [hps] at f2; omega
      · rw [f3]
        rw [e6, List.getElem?_map, List.getElem?_eq_getElem (by omega)] at f2
        cases f2
        rw [d1]

/-! ## C124 -/

/-- A new locator with the same settings and line. -/
noncomputable def relocated (s : Locator) : Locator :=
  ((((Locator.new.setDirection s.direction).setIndex s.index).setLine s.line).setTension s.tension).setWeight s.weight

theorem ask_relocated {A : Type} {as : Assemblies} {s : Locator} (hs : Sound as s) (failed : A)
    (f : Locator → Run Locator A)
    (hf : ∀ t t' : Locator, SameSettings t t' → t.points = t'.points → (f t).result = (f t').result) :
    (s.ask as failed f).result = ((relocated s).ask as failed f).result := by
  have hrel : Run.Rel _ (s.update as) ((relocated s).update as) :=
    update_settings (s := s) (t := relocated s) ⟨rfl, rfl, rfl, rfl⟩ rfl
  have h2 : (relocated s).ask as failed f =
      ((relocated s).update as).bind fun s b => if b = true then f s else .ok s failed := by
    unfold ask
    rw [if_neg (by simp [relocated, setWeight])]
  have h1 : (s.ask as failed f).result =
      ((s.update as).bind fun s b => if b = true then f s else .ok s failed).result := by
    unfold ask
    by_cases hu : s.isUpdated = true
    · rw [if_pos hu, (hs hu).2]
      simp [Run.bind]
    · rw [if_neg hu]
  rw [h1, h2]
  generalize s.update as = o at hrel ⊢
  generalize (relocated s).update as = o' at hrel ⊢
  match o, o', hrel with
  | .ok t b, .ok t' _, ⟨rfl, r1, r2, r3, r4⟩ =>
    cases b with
    | false => rfl
    | true =>
      simp only [Run.bind, if_true]
      exact hf t t' r1 (r4 rfl)
  | .throws _, .throws _, _ => rfl
  | .ub, .ub, _ => rfl
  | .nan, .nan, _ => rfl

/-- **C124** (partial). After any calls that returned, a locator answers as a new one with the same settings and line.
Missing: calls that throw (`C125_placeholders`) and edits of the line (`C124_edits_unseen`). -/
theorem C124_history_partial {as : Assemblies} {s : Locator} (hr : Located.Reached as s) :
    (s.pointsAttachment as).result = ((relocated s).pointsAttachment as).result ∧
    ∀ i num, (s.pointsCable as i num).result = ((relocated s).pointsCable as i num).result := by
  have hs := reached_sound hr
  refine ⟨ask_relocated hs _ _ ?_, fun i num => ask_relocated hs _ _ ?_⟩
  · intro t t' _ h
    simp only [Run.result, h]
  · rintro t t' ⟨a1, a2, a3, a4⟩ h
    rw [h, a1, a3, a4]
    split
    · rfl
    · split
      · split <;> rfl
      · rfl

/-- **C124** is false when the line is edited: whatever the line becomes, the positions handed out before are handed out
again. -/
theorem C124_edits_unseen {as : Assemblies} {s s' : Locator} {qs : List P3} (hr : Located.Reached as s)
    (h : s.pointsAttachment as = .ok s' (some qs)) (g : GLine) :
    ∃ t, Locator.run as s' [.edited g, .attachment] = some t ∧ t.line = some g ∧
      ({ s' with line := some g } : Locator).pointsAttachment as = .ok t (some qs) := by
  obtain ⟨h1, h2, h3, h4⟩ := located_points (reached_sound hr) h
  have hu : s'.isUpdated = true := by
    obtain ⟨-, -, h5⟩ := ask_ok attachment_const (reached_sound hr) h
    rcases h5 with ⟨h5, -⟩ | ⟨-, h5⟩
    · exact h5
    · cases h5
  have e : ({ s' with line := some g } : Locator).pointsAttachment as =
      .ok { s' with line := some g } (some qs) := by
    unfold pointsAttachment ask
    simp only [hu, if_true, h3]
  exact ⟨{ s' with line := some g }, by simp [Locator.run, Call.next, e, Run.returned], rfl, e⟩

/-! ## C125 -/

/-- **C125** is false: when reading the connections throws, the next query hands out placeholder points as positions. -/
theorem C125_placeholders {as : Assemblies} {s s' : Locator} (h : s.update as = .throws s') :
    ∃ g k, s.line = some g ∧ g.line.cables[s.index.toNat]? = some k ∧
      s'.pointsAttachment as =
        .ok s' (some (List.replicate k.connections.length ⟨-999999, -999999, -999999⟩)) := by
  unfold update at h
  match hg : s.line with
  | none => rw [hg] at h; cases h
  | some g =>
    rw [hg] at h
    simp only at h
    split at h
    · cases h
    · match hk : g.line.cables[s.index.toNat]? with
      | none => rw [hk] at h; cases h
      | some k =>
        rw [hk] at h
        simp only at h
        refine ⟨g, k, rfl, hk, ?_⟩
        match hc : connectionLoop as k.connections g [] with
        | .ub => rw [hc] at h; cases h
        | .nan => rw [hc] at h; cases h
        | .throws (g', ds) =>
          rw [hc] at h
          cases h
          simp only [pointsAttachment, ask, if_true, P3.default]
        | .ok (g', ds) false => rw [hc] at h; cases h
        | .ok (g', ds) true =>
          rw [hc] at h
          simp only at h
          split at h
          · cases h
          · cases h
          · split at h <;> cases h

/-- **C125** (partial). As long as no call has thrown: positions are handed out only if `Update` on a new locator with the
same settings and line succeeds and finds these positions, and a null pointer only if it reports failure.  Missing:
calls that throw, see `C125_placeholders` and `C125_fails`. -/
theorem C125_partial {as : Assemblies} {s s' : Locator} {r : Option (List P3)} (hr : Located.Reached as s)
    (h : s.pointsAttachment as = .ok s' r) :
    (∀ qs, r = some qs → ∃ t, (relocated s).update as = .ok t true ∧ t.points = qs) ∧
    (r = none → ∃ t, (relocated s).update as = .ok t false) := by
  have hh := (C124_history_partial hr).1
  rw [h] at hh
  have hu : (relocated s).isUpdated = false := rfl
  unfold pointsAttachment ask at hh
  rw [hu, if_neg (by simp)] at hh
  match hx : (relocated s).update as with
  | .ub => rw [hx] at hh; cases hh
  | .nan => rw [hx] at hh; cases hh
  | .throws _ => rw [hx] at hh; cases hh
  | .ok t true =>
    rw [hx] at hh
    simp only [Run.bind, if_true, Run.result, Option.some.injEq, Res.val.injEq] at hh
    subst hh
    exact ⟨fun qs hq => ⟨t, rfl, by cases hq; rfl⟩, fun hq => by cases hq⟩
  | .ok t false =>
    rw [hx] at hh
    simp only [Run.bind, Bool.false_eq_true, if_false, Run.result, Option.some.injEq, Res.val.injEq] at hh
    subst hh
    exact ⟨fun qs hq => (by cases hq), fun _ => ⟨t, rfl⟩⟩

end Verif.Props
