import Verif.LineSagger
import Verif.LineLoaderFacts

/-! # Lemmas about the line cable sagger -/

set_option linter.unusedSectionVars false

namespace Verif

open Run

namespace LineReloader

/-- A reloader that validates is up to date. -/
theorem validate_true (heap : Heap ℝ) {r r' : LineReloader} (h : r.Sound) (hv : r.validate heap = .ok r' true) :
    r'.isUpdated = true ∧ Keeps r r' := by
  have hk : Keeps r r' := validate_sound heap h r' (by rw [hv]; rfl)
  refine ⟨?_, hk⟩
  unfold validate at hv
  obtain ⟨x, b, h1, h2⟩ := bind_ok hv
  have hx : Keeps r x := by
    unfold validateBase at h1
    obtain ⟨y, b', h3, h4⟩ := bind_ok h1
    have : y = r := by
      cases hm : r.base.validMembers heap with
      | val a => rw [hm] at h3; cases h3; rfl
      | throws => rw [hm] at h3; cases h3
      | ub => rw [hm] at h3; cases h3
    subst this
    by_cases hb : b' = true
    · rw [if_pos hb] at h4
      exact (update_sound h).1 x (by rw [h4]; rfl)
    · rw [if_neg hb] at h4
      cases h4
      exact Keeps.rfl h
  split_ifs at h2
  · exact (update_sound hx.1).2 r' h2
  · cases h2

end LineReloader

namespace Sagger

theorem reloaderOf_sound (c : SectionCable) (w : Option WeatherLoadCase) (d : CableCondition) :
    (reloaderOf c w d).Sound := LineReloader.fresh_sound (reloaderOf c w d)

/-- What an accepted reload gives: the answer of the reloader, read from an object that is up to date. -/
theorem reloadChecked_some {heap : Heap ℝ} {r : LineReloader} (h : r.Sound) {k : Catenary3d}
    (hr : reloadChecked heap r = some (.val (some k))) :
    r.catenaryReloaded.result = some (.val k) ∧
      ∃ t, t.isUpdated = true ∧ LineReloader.Keeps r t ∧ t.catenary = k := by
  unfold reloadChecked at hr
  split at hr
  · rename_i r' hv
    obtain ⟨hu, hk⟩ := LineReloader.validate_true heap h hv
    have e : r'.catenaryReloaded.result = some (.val r'.catenary) := by
      unfold LineReloader.catenaryReloaded LineReloader.ask
      rw [if_pos hu]
      rfl
    rw [e] at hr
    cases hr
    refine ⟨?_, r', hu, hk, rfl⟩
    rw [← e]
    exact (LineReloader.ask_rel h hk.1 hk.2.1.symm hk.2.2.1.symm hk.2.2.2.symm _ _).result
  all_goals cases hr

/-- The constraint at position `n` has the lowest tension, and is the first such. -/
def Lowest (f : CableConstraint → Option (Res ℝ)) (qs : List CableConstraint) (n : ℕ) : Prop :=
  ∃ q t, qs[n]? = some q ∧ f q = some (.val t) ∧ t ≠ -999999 ∧
    ∀ j q', qs[j]? = some q' → ∃ t', f q' = some (.val t') ∧ t ≤ t' ∧ (j < n → t < t')

theorem controlLoop_true {f : CableConstraint → Option (Res ℝ)} {qs : List CableConstraint} {n : ℕ} {b : ℝ} {i j : ℤ}
    (h : controlLoop f qs n b i = .ok j true) :
    (j = i ∧ ∀ q ∈ qs, ∃ t, f q = some (.val t) ∧ t ≠ -999999 ∧ b ≤ t) ∨
      ∃ m, j = ((n + m : ℕ) : ℤ) ∧ Lowest f qs m ∧ ∃ q t, qs[m]? = some q ∧ f q = some (.val t) ∧ t < b := by
  induction qs generalizing n b i with
  | nil =>
    cases h
    exact Or.inl ⟨rfl, fun q hq => absurd hq (List.not_mem_nil)⟩
  | cons q qs ih =>
    unfold controlLoop at h
    split at h
    · rename_i t ht
      by_cases h1 : t = -999999
      · rw [if_pos h1] at h; cases h
      rw [if_neg h1] at h
      by_cases h2 : t < b
      · rw [if_pos h2] at h
        right
        rcases ih h with ⟨e, hall⟩ | ⟨m, e, ⟨q1, t1, g1, g2, g3, g4⟩, q2, t2, g5, g6, g7⟩
        · refine ⟨0, by rw [e]; simp, ⟨q, t, rfl, ht, h1, ?_⟩, q, t, rfl, ht, h2⟩
          intro j q' hj
          cases j with
          | zero => cases hj; exact ⟨t, ht, le_refl _, fun h => absurd h (Nat.lt_irrefl 0)⟩
          | succ j =>
            obtain ⟨t', e1, -, e3⟩ := hall q' (List.mem_of_getElem? hj)
            exact ⟨t', e1, e3, fun h => absurd h (Nat.not_lt_zero _)⟩
        · cases g1.symm.trans g5
          cases g2.symm.trans g6
          refine ⟨m + 1, by rw [e]; push_cast; ring, ⟨q1, t1, g1, g2, g3, ?_⟩, q1, t1, g1, g2, g7.trans h2⟩
          intro j q' hj
          cases j with
          | zero => cases hj; exact ⟨t, ht, g7.le, fun _ => g7⟩
          | succ j =>
            obtain ⟨t', e1, e2, e3⟩ := g4 j q' hj
            exact ⟨t', e1, e2, fun h => e3 (Nat.lt_of_succ_lt_succ h)⟩
      · rw [if_neg h2] at h
        rcases ih h with ⟨e, hall⟩ | ⟨m, e, ⟨q1, t1, g1, g2, g3, g4⟩, q2, t2, g5, g6, g7⟩
        · refine Or.inl ⟨e, fun q' hq => ?_⟩
          rcases List.mem_cons.1 hq with rfl | hq
          · exact ⟨t, ht, h1, not_lt.1 h2⟩
          · exact hall q' hq
        · cases g1.symm.trans g5
          cases g2.symm.trans g6
          refine Or.inr ⟨m + 1, by rw [e]; push_cast; ring, ⟨q1, t1, g1, g2, g3, ?_⟩, q1, t1, g1, g2, g7⟩
          intro j q' hj
          cases j with
          | zero => cases hj; exact ⟨t, ht, (g7.trans_le (not_lt.1 h2)).le, fun _ => g7.trans_le (not_lt.1 h2)⟩
          | succ j =>
            obtain ⟨t', e1, e2, e3⟩ := g4 j q' hj
            exact ⟨t', e1, e2, fun h => e3 (Nat.lt_of_succ_lt_succ h)⟩
    all_goals cases h

/-- The controlling constraint: the only one, or the first with the lowest tension. -/
def Controls (c : SectionCable) (qs : List CableConstraint) (i : ℤ) : Prop :=
  ∃ n : ℕ, i = (n : ℤ) ∧ n < qs.length ∧ (qs.length ≠ 1 → Lowest (tensionOf c) qs n)

theorem updateIndex_true {s t : Sagger} (h : s.updateIndex = .ok t true) :
    ∃ qs i, s.constraints = some qs ∧ t = { s with index := i } ∧
      (qs.length = 1 ∧ i = 0 ∨ qs.length ≠ 1 ∧ ∃ c, s.lineCable = some c ∧
        (i = -9999 ∨ ∃ n : ℕ, i = (n : ℤ) ∧ n < qs.length ∧ Lowest (tensionOf c) qs n)) := by
  unfold updateIndex at h
  split at h
  · cases h
  rename_i qs hq
  by_cases h1 : qs.length = 1
  · rw [if_pos h1] at h
    cases h
    exact ⟨qs, 0, hq, rfl, Or.inl ⟨h1, rfl⟩⟩
  rw [if_neg h1] at h
  split at h
  · cases h
  rename_i c hc
  generalize hl : controlLoop (tensionOf c) qs 0 999999 (-9999) = o at h
  match o with
  | .ok i b =>
    cases h
    refine ⟨qs, i, hq, rfl, Or.inr ⟨h1, c, hc, ?_⟩⟩
    rcases controlLoop_true hl with ⟨e, -⟩ | ⟨m, e, hL, -⟩
    · exact Or.inl e
    · refine Or.inr ⟨m, by rw [e]; simp, ?_, hL⟩
      obtain ⟨q, t, g, -⟩ := hL
      exact (List.getElem?_eq_some_iff.1 g).1
  | .throws i => cases h
  | .ub => cases h
  | .nan => cases h

theorem updateLimit_true {heap : Heap ℝ} {s t : Sagger} (h : s.updateLimit heap = .ok t true) :
    ∃ qs c i q k, s.constraints = some qs ∧ s.lineCable = some c ∧ s.updateIndex = .ok { s with index := i } true ∧
      Controls c qs i ∧ qs[i.toNat]? = some q ∧ validIndex i qs.length = true ∧
      reloadChecked heap (reloaderOf { c with constraint := q } c.constraint.caseWeather c.constraint.condition) =
        some (.val (some k)) ∧
      t = { s with index := i, lineCable := some (resag c k) } := by
  unfold updateLimit at h
  obtain ⟨x, b, h1, h2⟩ := bind_ok h
  by_cases hb : b = false
  · rw [if_pos hb] at h2; cases h2
  rw [if_neg hb] at h2
  have hb : b = true := by simpa using hb
  subst hb
  obtain ⟨qs, i, e1, e2, e3⟩ := updateIndex_true h1
  subst e2
  split at h2
  swap
  · cases h2
  rename_i qs' c hq hc
  have hq : s.constraints = some qs' := hq
  have hc : s.lineCable = some c := hc
  cases e1.symm.trans hq
  by_cases hv : validIndex i qs.length = true
  swap
  · rw [if_neg hv] at h2; cases h2
  rw [if_pos hv] at h2
  split at h2
  swap
  · cases h2
  rename_i q hq'
  split at h2
  · rename_i k hk
    cases h2
    refine ⟨qs, c, i, q, k, e1, hc, h1, ?_, hq', hv, hk, rfl⟩
    rcases e3 with ⟨h3, rfl⟩ | ⟨h3, c', hc', rfl | ⟨n, h4, h5, h6⟩⟩
    · exact ⟨0, rfl, by omega, fun h => absurd h3 h⟩
    · simp [validIndex] at hv
    · cases hc.symm.trans hc'
      exact ⟨n, h4, h5, fun _ => h6⟩
  all_goals cases h2

/-- The catenaries are those of the line cable at the loading of the constraints. -/
def Actual (c : SectionCable) (qs : List CableConstraint) (ks : List Catenary3d) : Prop :=
  ∀ (n : ℕ) (k : Catenary3d), ks[n]? = some k → ∃ q : CableConstraint, qs[n]? = some q ∧
    (reloaderOf c q.caseWeather q.condition).catenaryReloaded.result = some (.val k)

theorem actualLoop_all {f : CableConstraint → Option (Res (Option Catenary3d))} {qs : List CableConstraint}
    {ks : List Catenary3d} {P : CableConstraint → Catenary3d → Prop} (hf : ∀ q k, f q = some (.val (some k)) → P q k)
    (pre : List CableConstraint) (hl : pre.length = ks.length)
    (hp : ∀ (n : ℕ) (k : Catenary3d), ks[n]? = some k → ∃ q : CableConstraint, pre[n]? = some q ∧ P q k) :
    All (fun ks' : List Catenary3d => ∀ (n : ℕ) (k : Catenary3d), ks'[n]? = some k →
      ∃ q : CableConstraint, (pre ++ qs)[n]? = some q ∧ P q k) (actualLoop f qs ks) ∧
      ∀ ks', actualLoop f qs ks = .ok ks' true → ks'.length = (pre ++ qs).length := by
  induction qs generalizing ks pre with
  | nil =>
    refine ⟨?_, ?_⟩
    · intro t e; cases e; simpa using hp
    · intro ks' e; cases e; simp [hl]
  | cons q qs ih =>
    have base : ∀ (n : ℕ) (k : Catenary3d), ks[n]? = some k → ∃ q' : CableConstraint, (pre ++ q :: qs)[n]? = some q' ∧ P q' k := by
      intro n k hk
      obtain ⟨q', h1, h2⟩ := hp n k hk
      refine ⟨q', ?_, h2⟩
      rw [List.getElem?_append_left (List.getElem?_eq_some_iff.1 h1).1]
      exact h1
    unfold actualLoop
    split
    · rename_i k hk
      have := ih (ks := ks ++ [k]) (pre ++ [q]) (by simp [hl]) (by
        intro n k' hk'
        rcases lt_trichotomy n ks.length with h | h | h
        · rw [List.getElem?_append_left h] at hk'
          obtain ⟨q', h1, h2⟩ := hp n k' hk'
          exact ⟨q', by rw [List.getElem?_append_left (by omega)]; exact h1, h2⟩
        · subst h
          rw [List.getElem?_append_right (le_refl _)] at hk'
          simp at hk'
          subst hk'
          refine ⟨q, ?_, hf q k hk⟩
          rw [List.getElem?_append_right (by omega)]
          simp [hl]
        · rw [List.getElem?_eq_none (by simp; omega)] at hk'
          cases hk')
      rw [List.append_assoc, List.singleton_append] at this
      exact this
    · exact ⟨(by intro t e; cases e; exact base), (by intro ks' e; cases e)⟩
    · exact ⟨(by intro t e; cases e; exact base), (by intro ks' e; cases e)⟩
    · exact ⟨(by intro t e; cases e), (by intro ks' e; cases e)⟩
    · exact ⟨(by intro t e; cases e), (by intro ks' e; cases e)⟩

/-- The limit of the line cable is that of the controlling constraint. -/
def Limited (c : SectionCable) (qs : List CableConstraint) (i : ℤ) : Prop :=
  ∃ q k, qs[i.toNat]? = some q ∧
    (∃ t, t.isUpdated = true ∧ t.catenary = k ∧ LineReloader.Keeps
      (reloaderOf { c with constraint := q } c.constraint.caseWeather c.constraint.condition) t) ∧
    c.constraint.limit = limitOf k c.constraint.typeLimit c.constraint.limit

/-- What holds of the object after any history. -/
def Sound (s : Sagger) : Prop :=
  s.isUpdated = true → ∃ qs c, s.constraints = some qs ∧ s.lineCable = some c ∧ Controls c qs s.index ∧
    Limited c qs s.index ∧ Actual c qs s.catenaries

/-- The line cable as far as the sagger does not change it. -/
def Kin (c c' : SectionCable) : Prop := ∃ x, c' = { c with constraint := { c.constraint with limit := x } }

theorem Kin.tension {c c' : SectionCable} (h : Kin c c') : tensionOf c' = tensionOf c := by
  obtain ⟨x, rfl⟩ := h; rfl

theorem Kin.refl (c : SectionCable) : Kin c c := ⟨c.constraint.limit, rfl⟩

theorem resag_kin (c : SectionCable) (k : Catenary3d) : Kin c (resag c k) := ⟨_, rfl⟩

theorem limitOf_idem (k : Catenary3d) (t : LimitType) (x : ℝ) : limitOf k t (limitOf k t x) = limitOf k t x := by
  cases t <;> rfl

theorem resag_resag (c : SectionCable) (k : Catenary3d) : resag (resag c k) k = resag c k := by
  unfold resag
  simp only
  rw [limitOf_idem]

/-- The settings are kept, the line cable up to its limit. -/
def Keeps (s t : Sagger) : Prop :=
  t.constraints = s.constraints ∧
    ((s.lineCable = none ∧ t.lineCable = none) ∨ ∃ c c', s.lineCable = some c ∧ t.lineCable = some c' ∧ Kin c c')

theorem Keeps.refl (s : Sagger) : Keeps s s := by
  refine ⟨rfl, ?_⟩
  cases h : s.lineCable with
  | none => exact Or.inl ⟨rfl, rfl⟩
  | some c => exact Or.inr ⟨c, c, rfl, rfl, Kin.refl c⟩

theorem updateIndex_keeps (s : Sagger) : All (fun t => Keeps s t ∧ t.lineCable = s.lineCable ∧ t.isUpdated = s.isUpdated)
    s.updateIndex := by
  unfold updateIndex
  split
  · intro t e; cases e
  split_ifs
  · intro t e; cases e; exact ⟨Keeps.refl s, rfl, rfl⟩
  · split
    · intro t e; cases e
    · intro t e
      generalize controlLoop _ _ _ _ _ = o at e
      match o with
      | .ok i b => cases e; exact ⟨Keeps.refl s, rfl, rfl⟩
      | .throws i => cases e; exact ⟨Keeps.refl s, rfl, rfl⟩
      | .ub => cases e
      | .nan => cases e

theorem updateLimit_keeps (heap : Heap ℝ) (s : Sagger) : All (fun t => Keeps s t ∧ t.isUpdated = s.isUpdated)
    (s.updateLimit heap) := by
  unfold updateLimit
  refine All.bind (updateIndex_keeps s) (fun t h => ⟨h.1, h.2.2⟩) fun t b _ ht => ?_
  obtain ⟨h1, h2, h3⟩ := ht
  have same : ∀ u, some t = some u → Keeps s u ∧ u.isUpdated = s.isUpdated := by
    intro u e; cases e; exact ⟨h1, h3⟩
  by_cases hb : b = false
  · rw [if_pos hb]; exact same
  rw [if_neg hb]
  split
  · rename_i qs c hq hc
    split_ifs
    · split
      · split
        · intro u e
          cases e
          exact ⟨⟨h1.1, Or.inr ⟨c, _, by rw [← h2]; exact hc, rfl, resag_kin c _⟩⟩, h3⟩
        · exact same
        · exact same
        · intro u e; cases e
        · intro u e; cases e
      · exact same
    · exact same
  · intro u e; cases e

theorem Limited.of {heap : Heap ℝ} {c : SectionCable} {qs : List CableConstraint} {i : ℤ} {q : CableConstraint}
    {k : Catenary3d} (hq : qs[i.toNat]? = some q)
    (hk : reloadChecked heap (reloaderOf { c with constraint := q } c.constraint.caseWeather c.constraint.condition) =
      some (.val (some k))) : Limited (resag c k) qs i := by
  obtain ⟨-, t, h1, h2, h3⟩ := reloadChecked_some (reloaderOf_sound _ _ _) hk
  exact ⟨q, k, hq, ⟨t, h1, h3, h2⟩, (limitOf_idem k _ _).symm⟩

theorem update_sound {heap : Heap ℝ} {s : Sagger} (h : s.Sound) :
    All (fun t => Sound t ∧ Keeps s t) (s.update heap) := by
  unfold update
  split_ifs with hu
  · intro t e; cases e; exact ⟨h, Keeps.refl s⟩
  have hf : s.isUpdated = false := by simpa using hu
  refine All.bind (P := fun t => Keeps s t ∧ t.isUpdated = false) ?_ ?_ ?_
  · intro t e
    obtain ⟨h1, h2⟩ := updateLimit_keeps heap s t e
    exact ⟨h1, h2.trans hf⟩
  · rintro t ⟨h1, h2⟩
    exact ⟨fun e => absurd (h2.symm.trans e) (by decide), h1⟩
  · rintro t b e ⟨h1, h2⟩
    by_cases hb : b = false
    · rw [if_pos hb]
      intro u eu
      cases eu
      exact ⟨(fun e => by cases e), h1⟩
    rw [if_neg hb]
    have hb : b = true := by simpa using hb
    subst hb
    obtain ⟨qs, c, i, q, k, e1, e2, e3, e4, e5, e6, e7, e8⟩ := updateLimit_true e
    subst e8
    have e4' : Controls (resag c k) qs i := e4
    have e7' := Limited.of e5 e7
    -- the catenaries
    have hact : All (fun u : Sagger => u.constraints = some qs ∧ u.lineCable = some (resag c k) ∧ u.index = i ∧
        Actual (resag c k) qs u.catenaries) (({ s with
          index := i, lineCable := some (resag c k), isUpdated := true } : Sagger).updateActual heap) := by
      unfold updateActual
      rw [e1]
      simp only
      have := (actualLoop_all (f := fun q => reloadChecked heap (reloaderOf (resag c k) q.caseWeather q.condition))
        (qs := qs) (ks := []) (P := fun q k' => (reloaderOf (resag c k) q.caseWeather q.condition).catenaryReloaded.result =
          some (.val k')) (fun q k' hk => (reloadChecked_some (reloaderOf_sound _ _ _) hk).1) [] rfl
          (by intro n k' hk'; simp at hk')).1
      intro u eu
      generalize actualLoop _ _ _ = o at eu this
      match o with
      | .ok ks b => cases eu; exact ⟨rfl, rfl, rfl, this ks rfl⟩
      | .throws ks => cases eu; exact ⟨rfl, rfl, rfl, this ks rfl⟩
      | .ub => cases eu
      | .nan => cases eu
    have fin : ∀ u : Sagger, u.constraints = some qs → u.lineCable = some (resag c k) → u.index = i →
        Actual (resag c k) qs u.catenaries → Sound u ∧ Keeps s u := by
      intro u g1 g2 g3 g4
      refine ⟨fun _ => ⟨qs, resag c k, g1, g2, by rw [g3]; exact e4', by rw [g3]; exact e7', g4⟩, ?_⟩
      exact ⟨g1.trans e1.symm, Or.inr ⟨c, resag c k, e2, g2, resag_kin c k⟩⟩
    refine All.bind hact (fun u hu => fin u hu.1 hu.2.1 hu.2.2.1 hu.2.2.2) fun u b _ hu => ?_
    intro v ev
    cases ev
    exact fin _ hu.1 hu.2.1 hu.2.2.1 hu.2.2.2

theorem validate_sound {heap : Heap ℝ} {s : Sagger} (h : s.Sound) :
    All (fun t => Sound t ∧ Keeps s t) (s.validate heap) := by
  unfold validate
  refine All.bind (P := fun t => t = s) ?_ (fun t ht => by subst ht; exact ⟨h, Keeps.refl t⟩) fun t b _ ht => ?_
  · intro t ht
    cases hf : s.validMembers heap with
    | val a => rw [hf] at ht; cases ht; rfl
    | throws => rw [hf] at ht; cases ht; rfl
    | ub => rw [hf] at ht; cases ht
  · subst ht
    split_ifs
    · exact update_sound h
    · intro u hu; cases hu; exact ⟨h, Keeps.refl _⟩

theorem run_sound {s t : Sagger} (h : s.Sound) (ks : List Call) (hr : run s ks = some t) : t.Sound := by
  induction ks generalizing s with
  | nil => cases hr; exact h
  | cons k ks ih =>
    unfold run at hr
    rw [Option.bind_eq_some_iff] at hr
    obtain ⟨u, h1, h2⟩ := hr
    refine ih ?_ h2
    cases k with
    | setConstraints qs => cases h1; exact fun h => by cases h
    | setLineCable c => cases h1; exact fun h => by cases h
    | query heap => exact (update_sound h u h1).1
    | validate heap => exact (validate_sound h u h1).1

theorem new_sound : Sagger.new.Sound := fun h => by cases h

end Sagger

end Verif
