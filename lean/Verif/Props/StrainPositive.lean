import Verif.Props.LineLoader

/-! # Strains of tensions (C89, C118): no tension is below the loads the elongation model considers -/

set_option linter.unusedSectionVars false

namespace Verif.Props
open ElongationModel ComponentModel

/-- The moduli of a component are those of a real one. -/
def Elastic (c : CableComponent) : Prop := c.Enabled → 0 < c.modulusTension ∧ 0 ≤ c.modulusCompression

theorem read_regions {c : CableComponent} {t : ℝ} {s : CableState} {ss : CableStretchState} {th : ℝ} {r : Regions}
    (h : compRead c t s ss = .val (some (th, r))) : ∃ cs limit l, r = c.regions cs th limit l := by
  unfold compRead at h
  split_ifs at h with he
  · cases hs : spec c t s ss with
    | val o =>
      rw [hs] at h
      cases o with
      | none => cases h
      | some q =>
        obtain ⟨l, th', r'⟩ := q
        simp only [Res.val.injEq, Option.some.injEq, Prod.mk.injEq] at h
        obtain ⟨rfl, rfl⟩ := h
        unfold spec at hs
        cases h1 : stretchOf c t s ss with
        | val o =>
          rw [h1] at hs
          cases o with
          | none => cases hs
          | some l' =>
            simp only at hs
            cases h2 : regionsOf c t s l' with
            | val q =>
              obtain ⟨th2, r2⟩ := q
              rw [h2] at hs
              simp only [Res.val.injEq, Option.some.injEq, Prod.mk.injEq] at hs
              obtain ⟨rfl, rfl, rfl⟩ := hs
              unfold regionsOf updateState at h2
              cases hc : c.coefficients s.type with
              | none => simp [hc] at h2
              | some cs =>
                cases hm : c.limit s.type with
                | none => simp [hc, hm] at h2
                | some limit =>
                  by_cases hn : cs = []
                  · simp [hc, hm, hn] at h2
                  · simp only [hc, hm, if_neg hn, Res.val.injEq, Prod.mk.injEq] at h2
                    exact ⟨cs, limit, l', by rw [← h2.2, h2.1]⟩
            | throws => rw [h2] at hs; cases hs
            | ub => rw [h2] at hs; cases hs
        | throws => rw [h1] at hs; cases hs
        | ub => rw [h1] at hs; cases hs
    | throws => rw [hs] at h; cases h
    | ub => rw [hs] at h; cases h
  · cases h

/-- Below all its region points a component pushes or carries nothing. -/
theorem load_low {c : CableComponent} (he : c.Enabled) (E : Elastic c) (cs : List ℝ) (th limit l : ℝ) (type : PolynomialType)
    {x : ℝ} (h1 : x ≤ (c.regions cs th limit l).unloaded.x) (h2 : x ≤ (c.regions cs th limit l).start.x) :
    c.load type (c.regions cs th limit l) th x ≤ 0 := by
  obtain ⟨e1, e2⟩ := E he
  unfold CableComponent.load
  by_cases hx : x < (c.regions cs th limit l).unloaded.x
  · rw [if_pos hx]
    have : (c.regions cs th limit l).unloaded.y = 0 := rfl
    unfold CableComponent.loadLinear
    rw [this]
    nlinarith
  · rw [if_neg hx, if_pos ⟨not_lt.1 hx, h2⟩]
    have hu : (c.regions cs th limit l).unloaded.x = (c.regions cs th limit l).start.x + (0 - l) / c.modulusTension := rfl
    have hy : (c.regions cs th limit l).start.y = l := rfl
    have : x - (c.regions cs th limit l).start.x ≤ (0 - l) / c.modulusTension := by linarith
    have := mul_le_mul_of_nonneg_right this e1.le
    rw [div_mul_cancel₀ _ e1.ne'] at this
    unfold CableComponent.loadLinear
    rw [hy]
    linarith

theorem part_low {c : CableComponent} (E : Elastic c) {t : ℝ} {s : CableState} {ss : CableStretchState}
    {o : Option (ℝ × Regions)} (h : compRead c t s ss = .val o) {x : ℝ} (hx : ∀ y ∈ strainsOf c o, x ≤ y) :
    ansOf CableComponent.load c s o x ≤ 0 := by
  unfold ansOf
  by_cases he : c.Enabled
  · rw [if_pos he]
    cases o with
    | none => simp only; norm_num
    | some q =>
      obtain ⟨th, r⟩ := q
      obtain ⟨cs, limit, l, rfl⟩ := read_regions h
      unfold strainsOf at hx
      rw [if_pos he] at hx
      exact load_low he E cs th limit l s.type (hx _ (by simp)) (hx _ (by simp))
  · rw [if_neg he]

/-- The smallest load an elongation model considers is not a tension. -/
theorem least_point {k : Cable} (Ec : Elastic k.core) (Es : Elastic k.shell) {s : CableState} {ss : CableStretchState}
    {o : Option (ℝ × Regions) × Option (ℝ × Regions)} (h : knownOf k s ss = .val o) {p : V2}
    (hp : (pointsOf k s o).head? = some p) : p.y ≤ 0 := by
  unfold knownOf at h
  cases hl : loadsOf k ss with
  | val l =>
    rw [hl] at h
    simp only at h
    unfold readOf at h
    cases h1 : compRead k.core k.temperatureProperties s { ss with load := l.1 } with
    | val a =>
      cases h2 : compRead k.shell k.temperatureProperties s { ss with load := l.2 } with
      | val b =>
        rw [h1, h2] at h
        simp only [Res.val.injEq] at h
        subst h
        unfold pointsOf at hp
        rw [List.head?_map, Option.map_eq_some_iff] at hp
        obtain ⟨x, hx, rfl⟩ := hp
        have hs := List.pairwise_insertionSort (r := (· ≤ ·)) (strainsOf k.core a ++ strainsOf k.shell b)
        have least : ∀ y ∈ strainsOf k.core a ++ strainsOf k.shell b, x ≤ y := by
          intro y hy
          rw [← List.mem_insertionSort (r := (· ≤ ·))] at hy
          cases hq : (strainsOf k.core a ++ strainsOf k.shell b).insertionSort (· ≤ ·) with
          | nil => rw [hq] at hy; cases hy
          | cons z zs =>
            rw [hq] at hx hs hy
            simp only [List.head?_cons, Option.some.injEq] at hx
            subst hx
            rcases List.mem_cons.1 hy with rfl | hy
            · exact le_refl _
            · exact (List.pairwise_cons.1 hs).1 y hy
        have c1 := part_low Ec h1 (x := x) fun y hy => least y (List.mem_append_left _ hy)
        have c2 := part_low Es h2 (x := x) fun y hy => least y (List.mem_append_right _ hy)
        show ansOf CableComponent.load k.core s a x + ansOf CableComponent.load k.shell s b x ≤ 0
        linarith
      | throws => rw [h1, h2] at h; cases h
      | ub => rw [h1, h2] at h; cases h
    | throws => rw [h1] at h; cases h
    | ub => rw [h1] at h; cases h
  | throws => rw [hl] at h; cases h
  | ub => rw [hl] at h; cases h

/-- **C89**. For a tension the reported strain always reproduces it to within 0.01, unless the search has failed. -/
theorem C89_tension {k : Cable} (Ec : Elastic k.core) (Es : Elastic k.shell) (st : CableState) (z : CableStretchState)
    {l x : ℝ} (hl : 0 < l) {m' : ElongationModel} (h : (modelOf k st z).strain .combined l = .ok m' x)
    (hx : x ≠ -999999) : ∃ m'' y, m'.load .combined x = .ok m'' y ∧ |y - l| ≤ 0.01 := by
  have G : Good k (modelOf k st z) := good_flags_false (attach_att k ElongationModel.new k rfl) rfl rfl
  rcases G.strain rfl .combined l with ⟨o, x', m, h1, h2, h3, G', S⟩ | ⟨-, h3⟩ | ⟨-, h3⟩
  · rw [h] at h3
    simp only [Outcome.ok.injEq] at h3
    obtain ⟨rfl, rfl⟩ := h3
    rcases G'.ask S.1 CableComponent.load .combined x with ⟨o', m'', e1, e2, -⟩ | ⟨e1, -⟩
    · rw [S.2.1, S.2.2, h1] at e1
      cases e1
      rw [S.2.1] at e2
      refine ⟨m'', _, e2, ?_⟩
      rcases strainCombined_accurate h2 hx with e | ⟨p, e3, e4, -⟩
      · exact e
      · have := least_point Ec Es h1 e3
        linarith
    · rw [S.2.1, S.2.2, h1] at e1
      cases e1
  · rw [h] at h3; cases h3
  · rw [h] at h3; cases h3

/-- **C118**. For a cable whose components have moduli above zero, the average tension reported for the whole cable is
that of the reloaded catenary to within 0.01.

Not covered: a search for the strain that has failed (a strain of -999999). -/
theorem C118_tension_partial {ks : List LineReloader.Call} {s : LineReloader} (h : LineReloader.run .new ks = some s)
    {k : Cable} (hc : s.base.lineCable.bind (·.cable) = some k) (Ec : Elastic k.core) (Es : Elastic k.shell)
    {a : ℝ} (ha : (s.tensionAverageComponent .combined).result = some (.val a)) (h0 : a ≠ -999999) :
    ∃ K st zc zl, s.catenaryReloaded.result = some (.val K) ∧ s.stateReloaded.result = some (.val st) ∧
      s.stretchCreep.result = some (.val zc) ∧ s.stretchLoad.result = some (.val zl) ∧
      (0 < K.tensionAverage → |a - K.tensionAverage| ≤ 0.01 ∨
        ∃ m, (modelOf k st (conditionStretch s.condition zc zl)).strain .combined K.tensionAverage = .ok m (-999999)) := by
  have hs : s.Sound := LineReloader.run_sound (LineReloader.fresh_sound .new) ks h
  obtain ⟨t, hu, ht, hk, e⟩ := asked_updated hs ha h0
  obtain ⟨k', w, hc', -, hm⟩ := updated_model hk.1 ht
  have hkk : k' = k := by
    rw [hk.2.1, hc] at hc'
    exact (Option.some.inj hc').symm
  subst hkk
  refine ⟨t.catenary, t.model.state, t.base.stretchCreep, t.base.stretchLoad, updated_ask hu _ _, updated_ask hu _ _,
    updated_ask hu _ _, updated_ask hu _ _, fun hp => ?_⟩
  have hm' : modelOf k' t.model.state (conditionStretch s.condition t.base.stretchCreep t.base.stretchLoad) = t.model := by
    rw [← hk.2.2.1, hm]
    rfl
  rw [hm']
  have e : t.partLoad .combined = .val a := e
  unfold LineReloader.partLoad at e
  cases hx : t.model.strain .combined t.catenary.tensionAverage with
  | ok m x =>
    by_cases h9 : x = -999999
    · exact .inr ⟨m, by rw [h9]⟩
    · left
      have hx' := hx
      rw [← hm'] at hx'
      obtain ⟨m'', y, e1, e2⟩ := C89_tension Ec Es _ _ hp hx' h9
      rw [hx] at e
      simp only [e1, Res.val.injEq] at e
      rwa [← e]
  | throws m => rw [hx] at e; cases e
  | ub => rw [hx] at e; cases e

theorem hooke_elastic {e : ℝ} (he : 0 < e) : Elastic (hookeCable e).core ∧ Elastic (hookeCable e).shell :=
  by
  constructor <;> intro _ <;> constructor <;> simp [hookeCable, exComponent, he.le, he]

/-- The theorem C118_tension_partial applies to the example of C118. -/
example : ∃ K a, exReloader.catenaryReloaded.result = some (.val K) ∧ 0 < K.tensionAverage ∧
    (exReloader.tensionAverageComponent .combined).result = some (.val a) ∧
    (|a - K.tensionAverage| ≤ 0.01 ∨ ∃ m st z, (modelOf (hookeCable 1000000) st z).strain .combined K.tensionAverage =
      .ok m (-999999)) := by
  obtain ⟨K, a, h1, h2, h3, h4⟩ := hung_parts
  have hc : exReloader.base.lineCable.bind (·.cable) = some (hookeCable 1000000) := rfl
  obtain ⟨K', st, zc, zl, g1, -, -, -, g5⟩ := C118_tension_partial exReloader_run hc
    (hooke_elastic (by norm_num)).1 (hooke_elastic (by norm_num)).2 h2 (by linarith)
  rw [h1] at g1
  cases g1
  refine ⟨K, a, h1, h3 ▸ h4, h2, ?_⟩
  rcases g5 (h3 ▸ h4) with g | ⟨m, g⟩
  · exact .inl g
  · exact .inr ⟨m, st, _, g⟩

end Verif.Props
