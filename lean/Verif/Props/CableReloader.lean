import Verif.CableReloaderLemmas
import Verif.Props.CableElongation
import Verif.Props.Catenary3d
import Verif.CatenarySolverLemmas

set_option linter.unusedSectionVars false

/-!
# Properties of the strainer, the unloader and the catenary reloader: C60, C61, C92, C93, C94
-/

namespace Verif.Props

open Verif Verif.CatenaryReloader Verif.ElongationModel

/-! ## The strains are functions

The model of the strainer asks the elongation models for a value and forgets the changed object.  That is
harmless: -/

/-- Asking an elongation model for a strain does not change any later answer. -/
theorem strain_again {m m' : ElongationModel} (G : ∀ k, m.cable = some k → Good k m) {l x : ℝ}
    (h : m.strain .combined l = .ok m' x) (q : CableQuery) : q.ask m' = q.ask m := by
  cases hk : m.cable with
  | none =>
    exfalso
    unfold ElongationModel.strain ElongationModel.updated ElongationModel.update at h
    by_cases hb : m.isUpdatedStretch = true ∧ m.isUpdatedState = true
    · rw [if_pos hb] at h
      simp only [hk] at h
      cases h
    · rw [if_neg hb, hk] at h
      cases h
  | some k =>
    rcases (G k hk).strain hk .combined l with ⟨o, y, m1, a1, a2, a3, a4, a5⟩ | ⟨-, a3⟩ | ⟨-, a3⟩
    · cases h.symm.trans a3
      refine (good_ask G ?_ a5 q).symm
      intro k' hk'
      cases (a5.1.trans hk).symm.trans hk'
      exact a4
    · cases h.symm.trans a3
    · cases h.symm.trans a3

/-! ## C60 -/

theorem elongate_back (l a b : ℝ) : CableStrainer.elongate (CableStrainer.elongate l a b) b a = l := by
  unfold CableStrainer.elongate
  simp only
  rcases lt_trichotomy a b with h | h | h
  · rw [if_pos (by linarith), if_neg (by linarith), abs_of_neg (by linarith)]
    have : (1 + -(a - b)) ≠ 0 := by linarith
    field_simp
    ring
  · subst h; simp
  · rw [if_neg (by linarith), if_pos (by linarith), abs_of_neg (by linarith)]
    have : (1 + -(b - a)) ≠ 0 := by linarith
    field_simp
    ring

theorem elongate_lt {l a b c : ℝ} (hl : 0 < l) (h : b < c) :
    CableStrainer.elongate l a b < CableStrainer.elongate l a c := by
  unfold CableStrainer.elongate
  simp only
  by_cases h1 : b - a < 0
  · rw [if_pos h1, abs_of_neg h1]
    by_cases h2 : c - a < 0
    · rw [if_pos h2, abs_of_neg h2]
      exact div_lt_div_of_pos_left hl (by linarith) (by linarith)
    · rw [if_neg h2, div_lt_iff₀ (by linarith)]
      have : 1 < (1 + (c - a)) * (1 + -(b - a)) := by nlinarith
      nlinarith
  · rw [if_neg h1, if_neg (by linarith)]
    exact mul_lt_mul_of_pos_left (by linarith) hl

/-- **C60**. Transfer a length from one state of a cable to another, then transfer the result back with the states
exchanged: the original length comes back. -/
theorem C60_round_trip {s : CableStrainer} {x : ℝ} (h : s.lengthFinish = .val x) :
    CableStrainer.lengthFinish ⟨x, s.loadStart, s.loadFinish, s.modelStart, s.modelFinish⟩ = .val s.lengthStart := by
  unfold CableStrainer.lengthFinish at h ⊢
  simp only
  cases ha : strainThrough s.modelStart s.loadStart with
  | val a =>
    rw [ha] at h
    cases hb : strainThrough s.modelFinish s.loadFinish with
    | val b =>
      rw [hb] at h
      cases h
      simp only
      rw [elongate_back]
    | throws => rw [hb] at h; cases h
    | ub => rw [hb] at h; cases h
  | throws => rw [ha] at h; cases h
  | ub => rw [ha] at h; cases h

/-- **C60**. For a positive length the finish length is strictly increasing in the strain the finish model gives at
the finish load. -/
theorem C60_increasing {s t : CableStrainer} {x y a b : ℝ} (hl : 0 < s.lengthStart) (e1 : t.lengthStart = s.lengthStart)
    (e2 : t.loadStart = s.loadStart) (e3 : t.modelStart = s.modelStart) (hs : s.lengthFinish = .val x)
    (ht : t.lengthFinish = .val y) (ha : strainThrough s.modelFinish s.loadFinish = .val a)
    (hb : strainThrough t.modelFinish t.loadFinish = .val b) : x < y ↔ a < b := by
  unfold CableStrainer.lengthFinish at hs ht
  rw [e2, e3] at ht
  cases h0 : strainThrough s.modelStart s.loadStart with
  | val z =>
    rw [h0, ha] at hs
    rw [h0, hb, e1] at ht
    cases hs
    cases ht
    constructor
    · intro h
      by_contra hn
      rcases (not_lt.1 hn).lt_or_eq with h' | h'
      · exact absurd (elongate_lt (a := z) hl h') (not_lt.2 h.le)
      · rw [h'] at h; exact lt_irrefl _ h
    · exact elongate_lt hl
  | throws => rw [h0] at hs; cases hs
  | ub => rw [h0] at hs; cases hs

/-- **C60**. The cable gets longer exactly if the strain grows, and a positive length stays positive. -/
theorem C60_sign {s : CableStrainer} {x a b : ℝ} (hl : 0 < s.lengthStart) (hs : s.lengthFinish = .val x)
    (ha : strainThrough s.modelStart s.loadStart = .val a) (hb : strainThrough s.modelFinish s.loadFinish = .val b) :
    0 < x ∧ (s.lengthStart < x ↔ a < b) ∧ (x = s.lengthStart ↔ a = b) := by
  unfold CableStrainer.lengthFinish at hs
  rw [ha, hb] at hs
  cases hs
  have e0 : CableStrainer.elongate s.lengthStart a a = s.lengthStart := by
    unfold CableStrainer.elongate; simp
  refine ⟨?_, ?_, ?_⟩
  · unfold CableStrainer.elongate
    simp only
    split_ifs with h
    · have := abs_nonneg (b - a)
      positivity
    · have : 0 < 1 + (b - a) := by linarith
      positivity
  · constructor
    · intro h
      by_contra hn
      rcases (not_lt.1 hn).lt_or_eq with h' | h'
      · have := elongate_lt (a := a) hl h'
        rw [e0] at this; linarith
      · rw [h', e0] at h; exact lt_irrefl _ h
    · intro h
      have := elongate_lt (a := a) hl h
      rw [e0] at this; exact this
  · constructor
    · intro h
      rcases lt_trichotomy a b with h' | h' | h'
      · have := elongate_lt (a := a) hl h'
        rw [e0] at this; linarith
      · exact h'
      · have := elongate_lt (a := a) hl h'
        rw [e0] at this; linarith
    · rintro rfl; exact e0

/-! ## A cable that obeys Hooke's law, for examples -/

/-- A cable whose core and shell are straight lines of slope `e`. -/
noncomputable def hookeCable (e : ℝ) : Cable := ⟨1, 1, exComponent e e, exComponent e e, 1, 1, [], 100, 0, 1⟩

/-- Its elongation model, without stretch. -/
noncomputable def hookeModel (e : ℝ) : ElongationModel :=
  ((ElongationModel.new.setCable (some (hookeCable e))).setStretch ⟨0, .loadStrain, 0⟩).setState ⟨0, .loadStrain⟩

theorem hooke_enabled {e : ℝ} (he : 0 < e) : (exComponent e e).Enabled := by
  refine ⟨⟨e, ?_, he.ne'⟩, ⟨e, ?_, he.ne'⟩⟩ <;> simp [exComponent]

/-- The points of a component. -/
noncomputable def hookePoints (e : ℝ) : Regions := ⟨⟨0, 0⟩, ⟨0, 0⟩, ⟨100 / e, 100⟩⟩

theorem hooke_read {e : ℝ} (he : 0 < e) {s : CableState} (hs : s.type ≠ .null) {ss : CableStretchState}
    (hl : ss.load = 0) : compRead (exComponent e e) 0 s ss = .val (some (0, hookePoints e)) := by
  have h3 : (exComponent e e).thermal 0 s.temperature = 0 := by
    unfold CableComponent.thermal exComponent; simp
  have hc : (exComponent e e).coefficients s.type = some [0, e, 0, 0, 0] := by
    cases ht : s.type with
    | null => exact absurd ht hs
    | creep => rfl
    | loadStrain => rfl
  have hm : (exComponent e e).limit s.type = some 100 := by
    cases ht : s.type with
    | null => exact absurd ht hs
    | creep => rfl
    | loadStrain => rfl
  have h1 : ComponentModel.spec (exComponent e e) 0 s ss = .val (some (0, 0, hookePoints e)) := by
    refine ComponentModel.spec_eq (by rw [ComponentModel.stretchOf_same (Or.inr hl), hl]) ?_
    rw [ComponentModel.regionsOf_eq hc (by simp) hm, h3, exRegions he.ne']
    unfold hookePoints
    norm_num
  unfold compRead
  rw [if_pos (hooke_enabled he), h1]

theorem hooke_known {e : ℝ} (he : 0 < e) {s : CableState} (hs : s.type ≠ .null) {ss : CableStretchState}
    (hl : ss.load = 0) : knownOf (hookeCable e) s ss = .val (some (0, hookePoints e), some (0, hookePoints e)) := by
  unfold knownOf loadsOf
  rw [if_pos hl]
  simp only
  unfold readOf
  simp only [hookeCable]
  rw [hooke_read he hs rfl]

theorem hooke_load {e x : ℝ} (he : 0 < e) {t : PolynomialType} (ht : t ≠ .null) (h0 : 0 ≤ x) (h1 : x ≤ 100 / e) :
    (exComponent e e).load t (hookePoints e) 0 x = e * x := by
  unfold CableComponent.load hookePoints
  simp only
  rw [if_neg (by linarith)]
  rcases h0.lt_or_eq with h0 | h0
  · rw [if_neg (by rintro ⟨_, h⟩; linarith)]
    rcases h1.lt_or_eq with h1 | h1
    · rw [if_pos ⟨h0, h1⟩]
      have hc : (exComponent e e).coefficients t = some [0, e, 0, 0, 0] := by
        cases t with
        | null => exact absurd rfl ht
        | creep => rfl
        | loadStrain => rfl
      rw [hc]
      show (exComponent e e).loadPolynomial [0, e, 0, 0, 0] 0 x = e * x
      rw [exPolynomial]; ring
    · rw [if_neg (by rintro ⟨_, h⟩; linarith), if_pos (by linarith), if_neg ht]
      show 100 + (x - 100 / e) * _ = _
      rw [h1]
      field_simp
      ring
  · subst h0
    rw [if_pos ⟨le_refl _, le_refl _⟩]
    show 0 + (0 - 0) * _ = _
    ring

theorem hooke_both {e x : ℝ} (he : 0 < e) {s : CableState} (hs : s.type ≠ .null) (h0 : 0 ≤ x) (h1 : x ≤ 100 / e) :
    bothOf CableComponent.load (hookeCable e) s (some (0, hookePoints e), some (0, hookePoints e)) x =
      2 * (e * x) := by
  have ha : ansOf CableComponent.load (exComponent e e) s (some (0, hookePoints e)) x = e * x := by
    unfold ansOf
    rw [if_pos (hooke_enabled he)]
    exact hooke_load he hs h0 h1
  show ansOf CableComponent.load (exComponent e e) s (some (0, hookePoints e)) x +
    ansOf CableComponent.load (exComponent e e) s (some (0, hookePoints e)) x = _
  rw [ha]
  ring

theorem hooke_points {e : ℝ} (he : 0 < e) {s : CableState} (hs : s.type ≠ .null) :
    pointsOf (hookeCable e) s (some (0, hookePoints e), some (0, hookePoints e)) =
      [⟨0, 0⟩, ⟨0, 0⟩, ⟨0, 0⟩, ⟨0, 0⟩, ⟨100 / e, 200⟩, ⟨100 / e, 200⟩] := by
  have hst : strainsOf (exComponent e e) (some (0, hookePoints e)) = [0, 0, 100 / e] := by
    unfold strainsOf hookePoints
    rw [if_pos (hooke_enabled he)]
  have hp : 0 < 100 / e := by positivity
  have h0 := hooke_both he hs (le_refl 0) hp.le
  have h1 := hooke_both he hs hp.le (le_refl _)
  have h2 : 2 * (e * (100 / e)) = 200 := by field_simp; norm_num
  rw [h2] at h1
  rw [mul_zero, mul_zero] at h0
  unfold pointsOf
  simp only [hookeCable] at *
  rw [hst]
  have hsort : ([0, 0, 100 / e] ++ [0, 0, 100 / e] : List ℝ).insertionSort (· ≤ ·) = [0, 0, 0, 0, 100 / e, 100 / e] := by
    simp [List.insertionSort, List.orderedInsert, hp.le, not_le.2 hp]
  rw [hsort]
  simp [h0, h1]

theorem hooke_answer {e l : ℝ} (he : 0 < e) {m : ElongationModel} (hk : m.cable = some (hookeCable e))
    (hG : Good (hookeCable e) m) (hs : m.state.type ≠ .null) (hl : m.stretch.load = 0) (h0 : 0 ≤ l) (h1 : l < 200) :
    strainThrough (some m) l = .val (l / (2 * e)) := by
  have key : strainOf (hookeCable e) m.state (some (0, hookePoints e), some (0, hookePoints e)) l .combined =
      .val (l / (2 * e)) := by
    show strainCombined _ _ _ = _
    rw [hooke_points he hs]
    set f := bothOf CableComponent.load (hookeCable e) m.state
      (some (0, hookePoints e), some (0, hookePoints e)) with hf
    have hp : 0 < 100 / e := by positivity
    unfold strainCombined strainStart
    simp only [List.head?_cons, List.getLast?_cons_cons, List.getLast?_singleton]
    rcases h0.lt_or_eq with h0 | h0
    · have hfr : findRegion l [⟨0, 0⟩, ⟨0, 0⟩, ⟨0, 0⟩, ⟨0, 0⟩, ⟨100 / e, 200⟩, ⟨100 / e, 200⟩] =
          some (⟨0, 0⟩, ⟨100 / e, 200⟩) := by
        unfold findRegion
        rw [if_neg (by rintro ⟨_, h⟩; linarith)]
        unfold findRegion
        rw [if_neg (by rintro ⟨_, h⟩; linarith)]
        unfold findRegion
        rw [if_neg (by rintro ⟨_, h⟩; linarith)]
        unfold findRegion
        rw [if_pos ⟨h0.le, h1.le⟩]
      rw [if_neg (by linarith), if_neg (by linarith), hfr]
      simp only
      have hle : l / (2 * e) ≤ 100 / e := by
        rw [div_le_div_iff₀ (by positivity) he]; nlinarith
      have hl0 : 0 ≤ l / (2 * e) := by positivity
      have hfx : f (l / (2 * e)) = l := by
        rw [hf, hooke_both he hs hl0 hle]; field_simp
      have hx : (0:ℝ) + (l - 0) / ((200 - 0) / (100 / e - 0)) = l / (2 * e) := by
        field_simp; ring
      have hst : StrainSearch.step f l ⟨⟨0, 0⟩, ⟨100 / e, 200⟩, ⟨-999999, -999999⟩, 1⟩ =
          ⟨⟨0, 0⟩, ⟨100 / e, 200⟩, ⟨l / (2 * e), l⟩, 2⟩ := by
        unfold StrainSearch.step
        simp only
        rw [hx, hfx, if_neg (by linarith), if_pos ⟨hl0, hle⟩, if_neg (lt_irrefl _), if_neg (lt_irrefl _)]
      have hlo : strainLoop f l 99 ⟨⟨0, 0⟩, ⟨100 / e, 200⟩, ⟨-999999, -999999⟩, 1⟩ =
          ⟨⟨0, 0⟩, ⟨100 / e, 200⟩, ⟨l / (2 * e), l⟩, 2⟩ := by
        rw [strainLoop, if_pos (by simp only; rw [abs_of_neg (by linarith)]; norm_num; linarith), hst, strainLoop,
          if_neg (by norm_num)]
      rw [hlo]
      norm_num
    · subst h0
      rw [if_pos (le_refl _)]
      simp
  rcases hG.strain hk .combined l with ⟨o, x, m', a1, a2, a3, -⟩ | ⟨⟨o, a1, a2⟩, -⟩ | ⟨a1, -⟩
  · cases (hooke_known he hs hl).symm.trans a1
    cases a2.symm.trans key
    unfold strainThrough
    simp only
    rw [a3]
  · cases (hooke_known he hs hl).symm.trans a1
    cases a2.symm.trans key
  · cases (hooke_known he hs hl).symm.trans a1

theorem hooke_strain {e l : ℝ} (he : 0 < e) (h0 : 0 ≤ l) (h1 : l < 200) :
    strainThrough (some (hookeModel e)) l = .val (l / (2 * e)) :=
  hooke_answer he rfl (good_flags_false (attach_att (hookeCable e) ElongationModel.new (hookeCable e) rfl) rfl rfl)
    (by rintro ⟨⟩) rfl h0 h1

/-- The hypotheses of C60 are met: a cable of stiffness `2e6` between loads 100 and 50. -/
example : ∃ x, CableStrainer.lengthFinish
    ⟨1000, 50, 100, some (hookeModel 1000000), some (hookeModel 1000000)⟩ = .val x ∧ 0 < x ∧ x < 1000 := by
  have h1 := hooke_strain (e := 1000000) (l := 50) (by norm_num) (by norm_num) (by norm_num)
  have h2 := hooke_strain (e := 1000000) (l := 100) (by norm_num) (by norm_num) (by norm_num)
  have hx : CableStrainer.lengthFinish ⟨1000, 50, 100, some (hookeModel 1000000), some (hookeModel 1000000)⟩ =
      .val (CableStrainer.elongate 1000 (100 / (2 * 1000000)) (50 / (2 * 1000000))) := by
    unfold CableStrainer.lengthFinish
    simp only
    rw [h1, h2]
  refine ⟨_, hx, ?_⟩
  obtain ⟨p, q, r⟩ := C60_sign (by norm_num) hx h2 h1
  refine ⟨p, ?_⟩
  rcases lt_trichotomy (CableStrainer.elongate 1000 (100 / (2 * 1000000)) (50 / (2 * 1000000))) 1000 with h | h | h
  · exact h
  · exact absurd (r.1 h) (by norm_num)
  · exact absurd (q.1 h) (by norm_num)

/-! ## Level spans -/

/-- A catenary over a level span `s` under the vertical load `w` with horizontal tension `h`. -/
noncomputable def levelSpan (s w h : ℝ) : Catenary3d :=
  ((Catenary3d.new.setSpacing ⟨s, 0, 0⟩).setTension h).setWeight ⟨0, 0, w⟩

theorem levelSpan_reachable (s w h : ℝ) : (levelSpan s w h).Reachable :=
  ⟨[.setSpacing ⟨s, 0, 0⟩, .setTension h, .setWeight ⟨0, 0, w⟩], rfl⟩

theorem magnitude_z {w : ℝ} (hw : 0 ≤ w) : (V3.mk 0 0 w).magnitude = w := by
  unfold V3.magnitude
  simp only
  rw [show (0:ℝ) ^ 2 + 0 ^ 2 + w ^ 2 = w ^ 2 by ring, Real.sqrt_sq hw]

theorem magnitude_x {w : ℝ} (hw : 0 ≤ w) : (V3.mk w 0 0).magnitude = w := by
  unfold V3.magnitude
  simp only
  rw [show w ^ 2 + (0:ℝ) ^ 2 + 0 ^ 2 = w ^ 2 by ring, Real.sqrt_sq hw]

theorem levelSpan_facts {s w h : ℝ} (hs : 0 < s) (hw : 0 < w) (hh : 0 < h) :
    (levelSpan s w h).length = 2 * (h / w) * Real.sinh (s * w / (2 * h)) ∧
    (levelSpan s w h).tensionAverage = h / 2 * (Real.cosh (s * w / (2 * h)) +
      s * w / (2 * h) / Real.sinh (s * w / (2 * h))) := by
  set k := levelSpan s w h with hk
  obtain ⟨r1, s1, w1⟩ := (levelSpan_reachable s w h).inner
  have P : k.Physical := ⟨hh, hs, rfl, rfl, le_refl _, hw⟩
  have P2 := P.inner_positive (levelSpan_reachable s w h)
  rw [← hk] at r1 s1 w1
  have h1 : k.refresh.catenary2d.tensionHorizontal = h := (Catenary3d.refresh_params k).2.2.2
  have w2 : k.refresh.catenary2d.weightUnit = w := w1.trans (magnitude_z hw.le)
  have s2 : k.refresh.catenary2d.spacing = ⟨s, 0⟩ := by
    rw [s1]
    unfold Catenary3d.spacing2d
    have e1 : k.spacing = ⟨s, 0, 0⟩ := rfl
    simp only [e1, magnitude_x hs.le]
    congr 1
    · rw [show s ^ 2 - ((0:ℝ) * (|k.weightUnit.z| / k.weightUnit.magnitude)) ^ 2 = s ^ 2 by ring, Real.sqrt_sq hs.le]
    · ring
  set c := k.refresh.catenary2d with hc
  have hz : c.z = s * w / (2 * h) := by
    unfold Catenary2d.z
    rw [s2, h1, w2]
    field_simp
  have hm : c.mid = 0 := by
    unfold Catenary2d.mid
    rw [s2]; simp
  have hL : c.update.length = 2 * (h / w) * Real.sinh (s * w / (2 * h)) := by
    rw [Catenary2d.length_eq P2, hm, hz, h1, w2, Real.cosh_zero]; ring
  have hz0 : 0 < s * w / (2 * h) := by positivity
  have hsz := Real.sinh_pos_iff.2 hz0
  refine ⟨?_, ?_⟩
  · show c.refresh.length = _
    rw [r1.refresh_eq, hL]
  · show c.refresh.tensionAverageBody 0 = _
    rw [r1.refresh_eq]
    unfold Catenary2d.tensionAverageBody
    rw [if_pos rfl]
    simp only [Catenary2d.update_h, Catenary2d.update_w]
    rw [sub_div, Catenary2d.left_div P2, Catenary2d.right_div P2, hL, hm, hz, h1, w2]
    simp only [zero_add, zero_sub, Real.sinh_neg, Real.cosh_neg]
    field_simp
    ring

theorem sinh_div_lt {u v : ℝ} (hu : 0 < u) (h : u < v) : Real.sinh u / u < Real.sinh v / v := by
  have hv : 0 < v := hu.trans h
  have t1 := sinh_tangent_strict hu.le hv.le h.ne
  have t2 := sinh_tangent hu.le (le_refl 0)
  rw [Real.sinh_zero] at t2
  rw [div_lt_div_iff₀ hu hv]
  nlinarith

theorem cosh_div_lt {u v : ℝ} (hu : 0 < u) (h : u < v) (h1 : v ≤ 1) : Real.cosh v / v < Real.cosh u / u := by
  have hv : 0 < v := hu.trans h
  have t1 := cosh_tangent v u
  have t2 : Real.sinh v < Real.cosh v := Real.sinh_lt_cosh v
  have t3 : 0 < Real.sinh v := Real.sinh_pos_iff.2 hv
  rw [div_lt_div_iff₀ hv hu]
  have t4 : 0 < Real.cosh v - v * Real.sinh v := by nlinarith
  nlinarith

/-- Over a level span the length falls and the average tension grows with the horizontal tension. -/
theorem levelSpan_mono {s w h h' : ℝ} (hs : 0 < s) (hw : 0 < w) (hh : s / 2 * w ≤ h) (h1 : h < h') :
    (levelSpan s w h').length < (levelSpan s w h).length ∧
    (levelSpan s w h).tensionAverage < (levelSpan s w h').tensionAverage := by
  have p : 0 < h := lt_of_lt_of_le (by positivity) hh
  have p' : 0 < h' := p.trans h1
  have hu : 0 < s * w / (2 * h') := by positivity
  have huv : s * w / (2 * h') < s * w / (2 * h) := by
    apply div_lt_div_of_pos_left (by positivity) (by positivity) (by linarith)
  have hv1 : s * w / (2 * h) ≤ 1 := by
    rw [div_le_one (by positivity)]; linarith
  obtain ⟨l1, t1⟩ := levelSpan_facts hs hw p
  obtain ⟨l2, t2⟩ := levelSpan_facts hs hw p'
  have a1 := sinh_div_lt hu huv
  have a2 := cosh_div_lt hu huv hv1
  have s1 : 0 < Real.sinh (s * w / (2 * h')) := Real.sinh_pos_iff.2 hu
  have s2 := Real.sinh_lt_sinh.2 huv
  have a3 : 1 / Real.sinh (s * w / (2 * h)) < 1 / Real.sinh (s * w / (2 * h')) :=
    one_div_lt_one_div_of_lt s1 s2
  have e : ∀ x, 0 < x → 2 * (x / w) * Real.sinh (s * w / (2 * x)) =
      s * (Real.sinh (s * w / (2 * x)) / (s * w / (2 * x))) := by
    intro x hx; field_simp
  have e' : ∀ x, 0 < x → x / 2 * (Real.cosh (s * w / (2 * x)) + s * w / (2 * x) / Real.sinh (s * w / (2 * x))) =
      s * w / 4 * (Real.cosh (s * w / (2 * x)) / (s * w / (2 * x)) + 1 / Real.sinh (s * w / (2 * x))) := by
    intro x hx
    have : 0 < Real.sinh (s * w / (2 * x)) := Real.sinh_pos_iff.2 (by positivity)
    field_simp
    ring
  rw [l1, l2, t1, t2, e h p, e h' p', e' h p, e' h' p']
  constructor
  · exact mul_lt_mul_of_pos_left a1 hs
  · exact mul_lt_mul_of_pos_left (by linarith) (by positivity)

theorem levelSpan_tension {s w h : ℝ} (hs : 0 < s) (hw : 0 < w) (hh : s / 2 * w ≤ h) :
    h ≤ (levelSpan s w h).tensionAverage ∧ (levelSpan s w h).tensionAverage ≤ 1.6 * h := by
  have p : 0 < h := lt_of_lt_of_le (by positivity) hh
  obtain ⟨-, t⟩ := levelSpan_facts hs hw p
  have P : (levelSpan s w h).Physical := ⟨p, hs, rfl, rfl, le_refl _, hw⟩
  have hz : 0 < s * w / (2 * h) := by positivity
  have hz1 : s * w / (2 * h) ≤ 1 := by
    rw [div_le_one (by positivity)]; linarith
  refine ⟨?_, ?_⟩
  · have := (C46_average_bounds (levelSpan_reachable s w h).inner.1 (P.inner_positive (levelSpan_reachable s w h))).1
    rw [(Catenary3d.refresh_params _).2.2.2] at this
    exact this
  · rw [t]
    have c1 : Real.cosh (s * w / (2 * h)) ≤ 2 := by
      have : Real.cosh (s * w / (2 * h)) ≤ Real.cosh 1 := by
        rw [Real.cosh_le_cosh, abs_of_pos hz, abs_of_pos one_pos]; exact hz1
      have h2 : Real.cosh 1 ≤ 2 := by
        rw [Real.cosh_eq]
        have a := Real.exp_one_lt_d9
        have b : Real.exp (-1) ≤ 1 := Real.exp_le_one_iff.2 (by norm_num)
        linarith
      linarith
    have s1 : s * w / (2 * h) / Real.sinh (s * w / (2 * h)) ≤ 1 := by
      rw [div_le_one (Real.sinh_pos_iff.2 hz)]
      exact (Real.self_lt_sinh_iff.2 hz).le
    nlinarith

/-! ## C61 -/

theorem update_found {r : CatenaryReloader} {k : Catenary3d} {w : V3} (hk : r.catenary = some k)
    (hw : r.weight = some w) (hu : r.isUpdated = false) {r' : CatenaryReloader} {b : Bool}
    (h : r.update = .ok r' b) :
    ∃ x, r.found k w = .ok x b ∧ r'.catenaryReloaded = trial k w x ∧ r'.isUpdated = b ∧ r'.catenary = r.catenary ∧
      r'.modelReference = r.modelReference ∧ r'.modelReloaded = r.modelReloaded ∧ r'.weight = r.weight := by
  unfold CatenaryReloader.update at h
  rw [if_neg (by rw [hu]; decide), solve_eq hk hw] at h
  cases hf : r.found k w with
  | ok x b' =>
    rw [hf] at h
    cases h
    exact ⟨x, rfl, rfl, rfl, rfl, rfl, rfl, rfl⟩
  | throws x => rw [hf] at h; cases h
  | ub => rw [hf] at h; cases h

theorem trial_tension (k : Catenary3d) (w : V3) (h : ℝ) : (trial k w h).tensionHorizontal = h := rfl

/-- **C61** (partial). If the least tension tried exceeds 0.01 (half the chord times the load per length), a reloader
that reports success has found a state where the catenary is less than 0.1 longer than the cable.

Missing: the other side, and spans with a smaller least tension; there success is reported whatever the lengths are
(`C61_unmatched`). -/
theorem C61_partial {r r' : CatenaryReloader} {k : Catenary3d} {w : V3} (hk : r.catenary = some k)
    (hw : r.weight = some w) (hu : r.isUpdated = false) (hx : 0.01 < k.spacing.magnitude / 2 * w.magnitude)
    (h : r.update = .ok r' true) :
    ∃ y, gap k r.modelReference r.modelReloaded w r'.catenaryReloaded.tensionHorizontal = .val y ∧ y < 0.1 := by
  obtain ⟨x, hf, hc, -⟩ := update_found hk hw hu h
  rw [hc, trial_tension]
  unfold CatenaryReloader.found searchOn at hf
  set f := gap k r.modelReference r.modelReloaded w with hfd
  have ex : tensionLeast k w = k.spacing.magnitude / 2 * w.magnitude := rfl
  rw [ex] at hf
  set x0 := k.spacing.magnitude / 2 * w.magnitude
  cases h1 : f x0 with
  | val yl =>
    rw [h1] at hf
    cases h2 : f (2 * x0) with
    | val yr =>
      rw [h2] at hf
      simp only at hf
      cases h3 : loopOn f 100 (2 * x0) ⟨⟨x0, yl⟩, ⟨2 * x0, yr⟩, ⟨-999999, -999999⟩, 0⟩ with
      | ok h' s =>
        rw [h3] at hf
        simp only [Outcome.ok.injEq] at hf
        obtain ⟨e1, e2⟩ := hf
        subst e1
        have := loopOn_current f 100 _ _ _ _ h3 (Or.inr ⟨by decide, by
          simp only
          rw [show x0 - 2 * x0 = -x0 by ring, abs_neg, abs_of_pos (by linarith)]
          exact hx⟩)
        refine ⟨_, this, ?_⟩
        split_ifs at e2
        exact of_decide_eq_true e2
      | throws h' => rw [h3] at hf; cases hf
      | ub => rw [h3] at hf; cases hf
    | throws => rw [h2] at hf; cases hf
    | ub => rw [h2] at hf; cases hf
  | throws => rw [h1] at hf; cases hf
  | ub => rw [h1] at hf; cases hf

/-- The search between two tensions of opposite sign; `P` is any property kept by halving. -/
theorem reload_bracket {r : CatenaryReloader} {k : Catenary3d} {w : V3} (hk : r.catenary = some k)
    (hw : r.weight = some w) (hu : r.isUpdated = false) {g : ℝ → ℝ}
    (hg : ∀ h, k.spacing.magnitude / 2 * w.magnitude ≤ h → h ≤ 2 * (k.spacing.magnitude / 2 * w.magnitude) →
      gap k r.modelReference r.modelReloaded w h = .val (g h))
    (h0 : 0 < k.spacing.magnitude / 2 * w.magnitude) (h1 : k.spacing.magnitude / 2 * w.magnitude ≤ 2 ^ 90)
    (hl : 0 < g (k.spacing.magnitude / 2 * w.magnitude))
    (hr : g (2 * (k.spacing.magnitude / 2 * w.magnitude)) < 0)
    {P : ℝ → Prop} (hP : ∀ x y, P x → P y → P ((x + y) / 2)) (hP1 : P (k.spacing.magnitude / 2 * w.magnitude))
    (hP2 : P (2 * (k.spacing.magnitude / 2 * w.magnitude))) :
    ∃ r' b, r.update = .ok r' b ∧ P r'.catenaryReloaded.tensionHorizontal ∧
      k.spacing.magnitude / 2 * w.magnitude ≤ r'.catenaryReloaded.tensionHorizontal ∧
      r'.catenaryReloaded.tensionHorizontal ≤ 2 * (k.spacing.magnitude / 2 * w.magnitude) ∧
      (b = true ∨ g r'.catenaryReloaded.tensionHorizontal ≠ 0 → ∃ lo hi, k.spacing.magnitude / 2 * w.magnitude ≤ lo ∧
        hi ≤ 2 * (k.spacing.magnitude / 2 * w.magnitude) ∧ 0 < g lo ∧ g hi < 0 ∧ lo < hi ∧ hi - lo ≤ 0.01 ∧
        (r'.catenaryReloaded.tensionHorizontal = lo ∨ r'.catenaryReloaded.tensionHorizontal = hi)) ∧
      (b = false → 0.1 ≤ g r'.catenaryReloaded.tensionHorizontal ∨ g r'.catenaryReloaded.tensionHorizontal = 0) := by
  set x0 := k.spacing.magnitude / 2 * w.magnitude with hx0
  have ex : tensionLeast k w = x0 := rfl
  set f := gap k r.modelReference r.modelReloaded w with hfd
  have e1 := hg x0 (le_refl _) (by linarith)
  have e2 := hg (2 * x0) (by linarith) (le_refl _)
  set s0 : ReloadSearch := ⟨⟨x0, g x0⟩, ⟨2 * x0, g (2 * x0)⟩, ⟨-999999, -999999⟩, 0⟩ with hs0
  obtain ⟨h', s', hloop, q0, q1, q2, q3⟩ := loopOn_bracket hg hP 100 99 (2 * x0) s0
    ⟨by show x0 < 2 * x0; linarith, rfl, rfl, hl, hr⟩ (le_refl _) (le_refl _) hP1 hP2 (Or.inr rfl)
    (by show 2 * x0 - x0 ≤ _; norm_num at h1 ⊢; linarith) (by norm_num)
  have hfound : r.found k w = .ok h' (if s'.iter < 100 then decide (s'.current.y < 0.1) else false) := by
    unfold CatenaryReloader.found searchOn
    rw [ex, ← hfd, e1]
    simp only
    rw [e2]
    simp only
    rw [hloop]
  refine ⟨{ r.trying k w h' with isUpdated := (if s'.iter < 100 then decide (s'.current.y < 0.1) else false) },
    (if s'.iter < 100 then decide (s'.current.y < 0.1) else false), ?_, q0, q1, q2, ?_, ?_⟩
  · unfold CatenaryReloader.update
    rw [if_neg (by rw [hu]; decide), solve_eq hk hw, hfound]
    rfl
  · intro hb
    rcases q3 with ⟨B, p2, p3, p4, p5, p6⟩ | ⟨p1, p2, p3⟩
    · exact ⟨s'.left.x, s'.right.x, p2, p3, B.lp, B.rn, B.lt, p4, p5⟩
    · rw [if_neg (by rw [p2]; simp only [hs0]; norm_num)] at hb
      rcases hb with hb | hb
      · cases hb
      · exact absurd p1 hb
  · intro hb
    rcases q3 with ⟨B, p2, p3, p4, p5, p6⟩ | ⟨p1, p2, p3⟩
    · left
      have hi : s'.iter < 100 := by simp only [hs0] at p6; omega
      rw [if_pos hi] at hb
      by_cases hx : (0.01 : ℝ) < |s0.left.x - s0.right.x|
      · have hc := loopOn_current f 100 _ _ _ _ hloop (Or.inr ⟨by decide, hx⟩)
        have := hg h' q1 q2
        rw [this] at hc
        have hc : g h' = s'.current.y := Res.val.inj hc
        show _ ≤ g h'
        rw [hc]
        exact not_lt.1 (of_decide_eq_false hb)
      · exfalso
        unfold loopOn at hloop
        rw [if_neg hx] at hloop
        cases hloop
        have := of_decide_eq_false hb
        simp only [hs0] at this
        norm_num at this
    · right
      exact p1

/-- **C61**. Let the lengths be defined between the least tension and twice the least tension, the catenary be the
longer one at the least tension and the cable be the longer one at twice that.  Then the search comes to an end.
If it reports success, the sign of the difference changes within 0.01 of the tension reported.  If it reports failure,
either the catenary is still at least 0.1 longer than the cable at the tension tried last, or the lengths match
exactly there. -/
theorem C61_bracket {r : CatenaryReloader} {k : Catenary3d} {w : V3} (hk : r.catenary = some k)
    (hw : r.weight = some w) (hu : r.isUpdated = false) {g : ℝ → ℝ}
    (hg : ∀ h, k.spacing.magnitude / 2 * w.magnitude ≤ h → h ≤ 2 * (k.spacing.magnitude / 2 * w.magnitude) →
      gap k r.modelReference r.modelReloaded w h = .val (g h))
    (h0 : 0 < k.spacing.magnitude / 2 * w.magnitude) (h1 : k.spacing.magnitude / 2 * w.magnitude ≤ 2 ^ 90)
    (hl : 0 < g (k.spacing.magnitude / 2 * w.magnitude))
    (hr : g (2 * (k.spacing.magnitude / 2 * w.magnitude)) < 0) :
    ∃ r' b, r.update = .ok r' b ∧
      k.spacing.magnitude / 2 * w.magnitude ≤ r'.catenaryReloaded.tensionHorizontal ∧
      r'.catenaryReloaded.tensionHorizontal ≤ 2 * (k.spacing.magnitude / 2 * w.magnitude) ∧
      (b = true → ∃ lo hi, k.spacing.magnitude / 2 * w.magnitude ≤ lo ∧
        hi ≤ 2 * (k.spacing.magnitude / 2 * w.magnitude) ∧ 0 < g lo ∧ g hi < 0 ∧ lo < hi ∧ hi - lo ≤ 0.01 ∧
        (r'.catenaryReloaded.tensionHorizontal = lo ∨ r'.catenaryReloaded.tensionHorizontal = hi)) ∧
      (b = false → 0.1 ≤ g r'.catenaryReloaded.tensionHorizontal ∨ g r'.catenaryReloaded.tensionHorizontal = 0) := by
  obtain ⟨r', b, a, -, c, d, e, f⟩ := reload_bracket hk hw hu hg h0 h1 hl hr (P := fun _ => True)
    (fun _ _ _ _ => trivial) trivial trivial
  exact ⟨r', b, a, c, d, fun h => e (Or.inl h), f⟩

/-! ### Examples over a level span -/

/-- The calls that set up a reloader for a level span, a Hooke cable and a vertical load. -/
noncomputable def levelCalls (e s w h v : ℝ) : List CatenaryReloader.Call :=
  [.setCatenary (some (levelSpan s w h)), .setModelReference (some (hookeModel e)),
    .setModelReloaded (some (hookeModel e)), .setWeight (some ⟨0, 0, v⟩)]

/-- The reloader after that. -/
noncomputable def levelReloader (e s w h v : ℝ) : CatenaryReloader :=
  ⟨some (levelSpan s w h), some (hookeModel e), some (hookeModel e), some ⟨0, 0, v⟩, .new, .new, false⟩

theorem level_run (e s w h v : ℝ) :
    CatenaryReloader.run CatenaryReloader.new (levelCalls e s w h v) = some (levelReloader e s w h v) := rfl

theorem level_trial (s w h v x : ℝ) : trial (levelSpan s w h) ⟨0, 0, v⟩ x = levelSpan s v x := rfl

/-- The difference of the lengths for it. -/
noncomputable def levelGap (e s w h v x : ℝ) : ℝ :=
  (levelSpan s v x).length - CableStrainer.elongate (levelSpan s w h).length
    ((levelSpan s w h).tensionAverage / (2 * e)) ((levelSpan s v x).tensionAverage / (2 * e))

/-- The model answers like a cable of stiffness `2e` up to the load 200. -/
def HookeLike (e : ℝ) (m : Option ElongationModel) : Prop :=
  ∀ l, 0 ≤ l → l < 200 → strainThrough m l = .val (l / (2 * e))

theorem level_gap_like {e s w h v x : ℝ} {m n : Option ElongationModel} (hm : HookeLike e m) (hn : HookeLike e n)
    (hs : 0 < s) (hw : 0 < w) (hh : s / 2 * w ≤ h) (hv : 0 < v)
    (hx : s / 2 * v ≤ x) (h1 : 1.6 * h < 200) (h2 : 1.6 * x < 200) :
    gap (levelSpan s w h) m n ⟨0, 0, v⟩ x = .val (levelGap e s w h v x) := by
  obtain ⟨a1, a2⟩ := levelSpan_tension hs hw hh
  obtain ⟨b1, b2⟩ := levelSpan_tension hs hv hx
  have p : 0 < s / 2 * w := by positivity
  have q : 0 < s / 2 * v := by positivity
  unfold gap trialStrainer CableStrainer.lengthFinish
  simp only [level_trial]
  rw [hm _ (by linarith) (by linarith), hn _ (by linarith) (by linarith)]
  rfl

theorem level_gap {e s w h v x : ℝ} (he : 0 < e) (hs : 0 < s) (hw : 0 < w) (hh : s / 2 * w ≤ h) (hv : 0 < v)
    (hx : s / 2 * v ≤ x) (h1 : 1.6 * h < 200) (h2 : 1.6 * x < 200) :
    gap (levelSpan s w h) (some (hookeModel e)) (some (hookeModel e)) ⟨0, 0, v⟩ x = .val (levelGap e s w h v x) :=
  level_gap_like (fun _ => hooke_strain he) (fun _ => hooke_strain he) hs hw hh hv hx h1 h2

theorem level_gap_anti {e s w h v x y : ℝ} (he : 0 < e) (hs : 0 < s) (hw : 0 < w) (hh : s / 2 * w ≤ h) (hv : 0 < v)
    (hx : s / 2 * v ≤ x) (hy : x < y) : levelGap e s w h v y < levelGap e s w h v x := by
  obtain ⟨a1, a2⟩ := levelSpan_mono hs hv hx hy
  have hl : 0 < (levelSpan s w h).length := by
    have ph : 0 < h := lt_of_lt_of_le (by positivity) hh
    rw [(levelSpan_facts hs hw ph).1]
    have := Real.sinh_pos_iff.2 (show 0 < s * w / (2 * h) by positivity)
    positivity
  have := elongate_lt (a := (levelSpan s w h).tensionAverage / (2 * e)) hl
    (div_lt_div_of_pos_right a2 (by positivity : 0 < 2 * e))
  unfold levelGap
  linarith

theorem level_gap_self {e s w h : ℝ} : levelGap e s w h w h = 0 := by
  unfold levelGap CableStrainer.elongate
  simp

theorem level_magnitudes {s v : ℝ} (hs : 0 < s) (hv : 0 < v) (w h : ℝ) :
    (levelSpan s w h).spacing.magnitude / 2 * (V3.mk 0 0 v).magnitude = s / 2 * v := by
  rw [magnitude_z hv.le]
  show (V3.mk s 0 0).magnitude / 2 * v = _
  rw [magnitude_x hs.le]

theorem level_valid {s w h : ℝ} (hs : 0 < s) (hw : 0 < w) (hh : s / 2 * w ≤ h) : (levelSpan s w h).validate.1 = true := by
  rw [(C54_validate_3d (levelSpan_reachable s w h)).1]
  have p : 0 < h := lt_of_lt_of_le (by positivity) hh
  refine ⟨p, hs, rfl, ?_, rfl, le_refl _, hw, ?_⟩
  · show |(0:ℝ)| < 2000
    norm_num
  · show (V3.mk s 0 0).magnitude / 2 ≤ h / (V3.mk 0 0 w).magnitude
    rw [magnitude_x hs.le, magnitude_z hw.le, le_div_iff₀ hw]
    exact hh

/-- The checks of the cable, the state and the stretch accept the Hooke cable. -/
theorem hooke_valid {e : ℝ} : (hookeCable e).validateSagTension.1 = true ∧
    (hookeModel e).state.validate.1 = true ∧ (hookeModel e).stretch.validate.1 = true := by
  refine ⟨?_, ?_, ?_⟩
  · unfold Cable.validateSagTension Cable.validate CableComponent.validate hookeCable exComponent
    norm_num
  · show (⟨0, .loadStrain⟩ : CableState).validate.1 = true
    unfold CableState.validate; norm_num; rintro ⟨⟩
  · show (⟨0, .loadStrain, 0⟩ : CableStretchState).validate.1 = true
    unfold CableStretchState.validate; norm_num

/-- The theorem C61_bracket applies, and the partial theorem's hypotheses are met: a level span of 100, a load of 1,
reloaded from the tension 70. -/
example : ∃ r' b, (levelReloader 1000000 100 1 70 1).update = .ok r' b ∧ 50 ≤ r'.catenaryReloaded.tensionHorizontal ∧
    r'.catenaryReloaded.tensionHorizontal ≤ 100 := by
  have hm := level_magnitudes (s := 100) (v := 1) (by norm_num) (by norm_num) 1 70
  have g1 := level_gap_anti (e := 1000000) (s := 100) (w := 1) (h := 70) (v := 1) (x := 50) (y := 70) (by norm_num)
    (by norm_num) (by norm_num) (by norm_num) (by norm_num) (by norm_num) (by norm_num)
  have g2 := level_gap_anti (e := 1000000) (s := 100) (w := 1) (h := 70) (v := 1) (x := 70) (y := 100) (by norm_num)
    (by norm_num) (by norm_num) (by norm_num) (by norm_num) (by norm_num) (by norm_num)
  rw [level_gap_self] at g1 g2
  have := C61_bracket (r := levelReloader 1000000 100 1 70 1) (k := levelSpan 100 1 70) (w := ⟨0, 0, 1⟩) rfl rfl rfl
    (g := levelGap 1000000 100 1 70 1) (by
      rw [hm]
      intro h h1 h2
      exact level_gap (by norm_num) (by norm_num) (by norm_num) (by norm_num) (by norm_num) (by linarith) (by norm_num)
        (by norm_num at h2; linarith)) (by rw [hm]; norm_num) (by rw [hm]; norm_num) (by rw [hm]; norm_num; exact g1)
      (by rw [hm]; norm_num; exact g2)
  rw [hm] at this
  obtain ⟨r', b, h1, h2, h3, -⟩ := this
  exact ⟨r', b, h1, by norm_num at h2; exact h2, by norm_num at h3; exact h3⟩

theorem level_light_gap {x : ℝ} (h1 : 0.005 ≤ x) (h2 : x ≤ 0.01) :
    gap (levelSpan 100 0.1 100) (some (hookeModel 1000000)) (some (hookeModel 1000000)) ⟨0, 0, 0.0001⟩ x =
      .val (levelGap 1000000 100 0.1 100 0.0001 x) :=
  level_gap (by norm_num) (by norm_num) (by norm_num) (by norm_num) (by norm_num) (by norm_num at h1 ⊢; linarith)
    (by norm_num) (by norm_num at h2 ⊢; linarith)

/-- With a very light load the search stops before its first step. -/
theorem level_light_found : (levelReloader 1000000 100 0.1 100 0.0001).found (levelSpan 100 0.1 100) ⟨0, 0, 0.0001⟩ =
    .ok 0.01 true := by
  have hm := level_magnitudes (s := 100) (v := 0.0001) (by norm_num) (by norm_num) 0.1 100
  have ht : tensionLeast (levelSpan 100 0.1 100) ⟨0, 0, 0.0001⟩ = 0.005 := by
    have : tensionLeast (levelSpan 100 0.1 100) ⟨0, 0, 0.0001⟩ =
      (levelSpan 100 0.1 100).spacing.magnitude / 2 * (V3.mk 0 0 0.0001).magnitude := rfl
    rw [this, hm]; norm_num
  have g := @level_light_gap
  unfold CatenaryReloader.found searchOn
  rw [ht]
  show (match gap (levelSpan 100 0.1 100) (some (hookeModel 1000000)) (some (hookeModel 1000000)) ⟨0, 0, 0.0001⟩
    0.005 with | .val yl => _ | .throws => _ | .ub => _) = _
  rw [g (le_refl _) (by norm_num)]
  show (match gap (levelSpan 100 0.1 100) (some (hookeModel 1000000)) (some (hookeModel 1000000)) ⟨0, 0, 0.0001⟩
    (2 * 0.005) with | .val yl => _ | .throws => _ | .ub => _) = _
  rw [show (2:ℝ) * 0.005 = 0.01 by norm_num, g (by norm_num) (le_refl _)]
  simp only
  rw [loopOn, if_neg (by norm_num [abs_of_neg])]
  norm_num

/-- **C61** fails in general: a valid level span of 100 with tension 100 and load 0.1 per length, reloaded to the load
0.0001, on a valid cable of stiffness 2000000.  The reloader reports success with a state in which the catenary is
more than 3 longer than the cable. -/
theorem C61_unmatched : ∃ (calls : List CatenaryReloader.Call) (r r' : CatenaryReloader) (k : Catenary3d)
    (m : ElongationModel) (c : Cable) (w : V3) (y : ℝ),
    CatenaryReloader.run .new calls = some r ∧ r.catenary = some k ∧ r.modelReference = some m ∧
    r.modelReloaded = some m ∧ r.weight = some w ∧ k.validate.1 = true ∧ m.cable = some c ∧
    c.validateSagTension.1 = true ∧ m.state.validate.1 = true ∧ m.stretch.validate.1 = true ∧
    (w.x = 0 ∧ 0 ≤ w.y ∧ 0 < w.z) ∧ r.update = .ok r' true ∧
    gap k r.modelReference r.modelReloaded w r'.catenaryReloaded.tensionHorizontal = .val y ∧ 3 < y := by
  have hv := hooke_valid (e := 1000000)
  have g := @level_light_gap
  have hfound := level_light_found
  refine ⟨levelCalls 1000000 100 0.1 100 0.0001, levelReloader 1000000 100 0.1 100 0.0001,
    { (levelReloader 1000000 100 0.1 100 0.0001).trying (levelSpan 100 0.1 100) ⟨0, 0, 0.0001⟩ 0.01 with
      isUpdated := true }, levelSpan 100 0.1 100, hookeModel 1000000, hookeCable 1000000, ⟨0, 0, 0.0001⟩,
    levelGap 1000000 100 0.1 100 0.0001 0.01, rfl, rfl, rfl, rfl, rfl,
    level_valid (by norm_num) (by norm_num) (by norm_num), rfl, hv.1, hv.2.1, hv.2.2,
    ⟨rfl, le_refl _, by norm_num⟩, ?_, ?_, ?_⟩
  · unfold CatenaryReloader.update
    rw [if_neg (by decide), solve_eq (k := levelSpan 100 0.1 100) (w := ⟨0, 0, 0.0001⟩) rfl rfl, hfound]
    rfl
  · exact g (x := 0.01) (by norm_num) (le_refl _)
  · have hL1 := (levelSpan_facts (s := 100) (w := 0.0001) (h := 0.01) (by norm_num) (by norm_num) (by norm_num)).1
    have hL2 := (levelSpan_facts (s := 100) (w := 0.1) (h := 100) (by norm_num) (by norm_num) (by norm_num)).1
    have ht1 := (levelSpan_tension (s := 100) (w := 0.0001) (h := 0.01) (by norm_num) (by norm_num) (by norm_num)).2
    have ht2 := (levelSpan_tension (s := 100) (w := 0.1) (h := 100) (by norm_num) (by norm_num) (by norm_num)).1
    have z1 : (100:ℝ) * 0.0001 / (2 * 0.01) = 1 / 2 := by norm_num
    have z2 : (100:ℝ) * 0.1 / (2 * 100) = 1 / 20 := by norm_num
    rw [z1] at hL1
    rw [z2] at hL2
    have s1 : 0.52 ≤ Real.sinh (1 / 2) := by
      have ha : Real.exp (1 / 2) * Real.exp (1 / 2) = Real.exp 1 := by rw [← Real.exp_add]; norm_num
      have hb : Real.exp (1 / 2) * Real.exp (-(1 / 2)) = 1 := by rw [← Real.exp_add]; norm_num
      have h1 := Real.exp_one_gt_d9
      have h2 := Real.exp_pos (1 / 2)
      have h3 : 1.648 < Real.exp (1 / 2) := by nlinarith
      have h4 : Real.exp (-(1 / 2)) < 0.607 := by nlinarith
      rw [Real.sinh_eq]
      norm_num at h3 h4 ⊢
      linarith
    have s2 : Real.sinh (1 / 20) ≤ 0.0505 := by
      have h1 := (sinh_slope (z := 1 / 20) (by norm_num) (by norm_num)).1
      have a := Real.add_one_le_exp (-(1 / 20 : ℝ))
      have b := Real.add_one_le_exp (1 / 20 : ℝ)
      have e : Real.exp (1 / 20) * Real.exp (-(1 / 20)) = 1 := by rw [← Real.exp_add]; norm_num
      have c := Real.exp_pos (1 / 20)
      have d := Real.exp_pos (-(1 / 20))
      have h2 : Real.exp (1 / 20) ≤ 1.0527 := by
        by_contra hn; nlinarith
      have h3 : Real.exp (-(1 / 20)) ≤ 0.9524 := by
        by_contra hn; nlinarith
      rw [Real.cosh_eq] at h1
      norm_num at h1 h2 h3 ⊢
      linarith
    have hpos : 0 < (levelSpan 100 0.1 100).length := by
      rw [hL2]
      have := Real.sinh_pos_iff.2 (show (0:ℝ) < 1 / 20 by norm_num)
      positivity
    have hlt := elongate_lt (a := (levelSpan 100 0.1 100).tensionAverage / (2 * 1000000)) hpos
      (show (levelSpan 100 0.0001 0.01).tensionAverage / (2 * 1000000) <
        (levelSpan 100 0.1 100).tensionAverage / (2 * 1000000) from
          div_lt_div_of_pos_right (by norm_num at ht1 ⊢; linarith) (by norm_num))
    have e0 : CableStrainer.elongate (levelSpan 100 0.1 100).length
        ((levelSpan 100 0.1 100).tensionAverage / (2 * 1000000))
        ((levelSpan 100 0.1 100).tensionAverage / (2 * 1000000)) = (levelSpan 100 0.1 100).length := by
      unfold CableStrainer.elongate; simp
    rw [e0] at hlt
    unfold levelGap
    rw [hL2] at hlt
    rw [hL1, hL2]
    norm_num at hlt s1 s2 ⊢
    linarith

/-! ## C92 -/

/-- The lengths match in the original state. -/
theorem gap_self {k : Catenary3d} (R : k.Reachable) {m : Option ElongationModel} {y : ℝ}
    (h : gap k m m k.weightUnit k.tensionHorizontal = .val y) : y = 0 := by
  have e1 : (trial k k.weightUnit k.tensionHorizontal).length = k.length := (C50_history_3d R Query3.length).symm
  have e2 : (trial k k.weightUnit k.tensionHorizontal).tensionAverage = k.tensionAverage :=
    (C50_history_3d R (Query3.tensionAverage 0)).symm
  unfold gap trialStrainer CableStrainer.lengthFinish at h
  simp only [e1, e2] at h
  cases hs : strainThrough m k.tensionAverage with
  | val a =>
    rw [hs] at h
    simp only [Res.val.injEq] at h
    rw [← h]
    unfold CableStrainer.elongate
    simp
  | throws => rw [hs] at h; cases h
  | ub => rw [hs] at h; cases h

/-- **C92** (partial). Reload a catenary under its own load on its own cable model.  If its tension lies between the
least tension and twice that and the difference of the lengths decreases there, the search comes to an end, and if it
reports success the tension found is within 0.01 of the original one.

Missing: that success is reported; it is not always (`C92_fails`). -/
theorem C92_partial {r : CatenaryReloader} {k : Catenary3d} (R : k.Reachable) (hk : r.catenary = some k)
    (hw : r.weight = some k.weightUnit) (hm : r.modelReloaded = r.modelReference) (hu : r.isUpdated = false) {g : ℝ → ℝ}
    (hg : ∀ h, k.spacing.magnitude / 2 * k.weightUnit.magnitude ≤ h →
      h ≤ 2 * (k.spacing.magnitude / 2 * k.weightUnit.magnitude) →
      gap k r.modelReference r.modelReloaded k.weightUnit h = .val (g h))
    (ha : ∀ h h', k.spacing.magnitude / 2 * k.weightUnit.magnitude ≤ h → h < h' →
      h' ≤ 2 * (k.spacing.magnitude / 2 * k.weightUnit.magnitude) → g h' < g h)
    (h1 : k.spacing.magnitude / 2 * k.weightUnit.magnitude ≤ 2 ^ 90)
    (hl : k.spacing.magnitude / 2 * k.weightUnit.magnitude < k.tensionHorizontal)
    (hr : k.tensionHorizontal < 2 * (k.spacing.magnitude / 2 * k.weightUnit.magnitude)) :
    ∃ r' b, r.update = .ok r' b ∧
      (b = true → |r'.catenaryReloaded.tensionHorizontal - k.tensionHorizontal| ≤ 0.01) := by
  have h0 : g k.tensionHorizontal = 0 := by
    have := hg _ hl.le hr.le
    rw [hm] at this
    exact gap_self R this
  have pl := ha _ _ (le_refl _) hl hr.le
  have pr := ha _ _ hl.le hr (le_refl _)
  rw [h0] at pl pr
  obtain ⟨r', b, q1, q2, q3, q4, -⟩ := C61_bracket hk hw hu hg (by linarith) h1 pl pr
  refine ⟨r', b, q1, fun hb => ?_⟩
  obtain ⟨lo, hi, a1, a2, a3, a4, a5, a6, a7⟩ := q4 hb
  have b1 : lo < k.tensionHorizontal := by
    by_contra hn
    rcases (not_lt.1 hn).lt_or_eq with h | h
    · have := ha _ _ hl.le h (by linarith)
      linarith
    · rw [h] at h0; linarith
  have b2 : k.tensionHorizontal < hi := by
    by_contra hn
    rcases (not_lt.1 hn).lt_or_eq with h | h
    · have := ha _ _ (by linarith) h hr.le
      linarith
    · rw [← h] at h0; linarith
  rw [abs_le]
  rcases a7 with e | e <;> rw [e] <;> constructor <;> linarith

example : ∃ r' b, (levelReloader 1000000 100 1 70 1).update = .ok r' b ∧
    (b = true → |r'.catenaryReloaded.tensionHorizontal - 70| ≤ 0.01) := by
  have hm := level_magnitudes (s := 100) (v := 1) (by norm_num) (by norm_num) 1 70
  have hm' : (levelSpan 100 1 70).spacing.magnitude / 2 * (levelSpan 100 1 70).weightUnit.magnitude = 100 / 2 * 1 := hm
  have e70 : (levelSpan 100 1 70).tensionHorizontal = 70 := rfl
  refine C92_partial (r := levelReloader 1000000 100 1 70 1) (k := levelSpan 100 1 70) (levelSpan_reachable _ _ _)
    rfl rfl rfl rfl (g := levelGap 1000000 100 1 70 1) ?_ ?_ ?_ ?_ ?_
  · rw [hm']
    intro h h1 h2
    exact level_gap (by norm_num) (by norm_num) (by norm_num) (by norm_num) (by norm_num) (by linarith) (by norm_num)
      (by norm_num at h2; linarith)
  · rw [hm']
    intro h h' h1 h2 _
    exact level_gap_anti (by norm_num) (by norm_num) (by norm_num) (by norm_num) (by norm_num) (by linarith) h2
  · rw [hm']; norm_num
  · rw [hm', e70]; norm_num
  · rw [hm', e70]; norm_num

/-- **C92** fails in general: a valid level span of 100 with load 1 per length and tension 75 on a valid cable of
stiffness 2000000, reloaded under the same load with the same model.  The search tries the tension 75, where the
lengths match exactly, ninety-nine times again and then reports failure. -/
theorem C92_fails : ∃ (calls : List CatenaryReloader.Call) (r r' : CatenaryReloader) (k : Catenary3d)
    (m : ElongationModel) (c : Cable),
    CatenaryReloader.run .new calls = some r ∧ r.catenary = some k ∧ r.modelReference = some m ∧
    r.modelReloaded = some m ∧ r.weight = some k.weightUnit ∧ k.validate.1 = true ∧ m.cable = some c ∧
    c.validateSagTension.1 = true ∧ m.state.validate.1 = true ∧ m.stretch.validate.1 = true ∧
    r.update = .ok r' false ∧ r'.catenaryReloaded.tensionHorizontal = k.tensionHorizontal ∧
    r.tensionHorizontal = .ok r' (-999999) := by
  have hv := hooke_valid (e := 1000000)
  have hm := level_magnitudes (s := 100) (v := 1) (by norm_num) (by norm_num) 1 75
  have ht : tensionLeast (levelSpan 100 1 75) ⟨0, 0, 1⟩ = 50 := by
    have : tensionLeast (levelSpan 100 1 75) ⟨0, 0, 1⟩ =
      (levelSpan 100 1 75).spacing.magnitude / 2 * (V3.mk 0 0 1).magnitude := rfl
    rw [this, hm]; norm_num
  have g : ∀ x, 50 ≤ x → x ≤ 100 →
      gap (levelSpan 100 1 75) (some (hookeModel 1000000)) (some (hookeModel 1000000)) ⟨0, 0, 1⟩ x =
        .val (levelGap 1000000 100 1 75 1 x) := by
    intro x h1 h2
    exact level_gap (by norm_num) (by norm_num) (by norm_num) (by norm_num) (by norm_num) (by linarith)
      (by norm_num) (by norm_num; linarith)
  have g1 := level_gap_anti (e := 1000000) (s := 100) (w := 1) (h := 75) (v := 1) (x := 50) (y := 75) (by norm_num)
    (by norm_num) (by norm_num) (by norm_num) (by norm_num) (by norm_num) (by norm_num)
  have g2 := level_gap_anti (e := 1000000) (s := 100) (w := 1) (h := 75) (v := 1) (x := 75) (y := 100) (by norm_num)
    (by norm_num) (by norm_num) (by norm_num) (by norm_num) (by norm_num) (by norm_num)
  rw [level_gap_self] at g1 g2
  set f := gap (levelSpan 100 1 75) (some (hookeModel 1000000)) (some (hookeModel 1000000)) ⟨0, 0, 1⟩ with hf
  set G := levelGap 1000000 100 1 75 1 with hG
  have g0 : G 75 = 0 := level_gap_self
  have B : Bracket G ⟨⟨50, G 50⟩, ⟨100, G 100⟩, ⟨-999999, -999999⟩, 0⟩ :=
    ⟨by norm_num, rfl, rfl, g1, g2⟩
  have ht75 := B.tension
  simp only at ht75
  norm_num at ht75
  have B' : Bracket G ⟨⟨50, G 50⟩, ⟨100, G 100⟩, ⟨75, 0⟩, 1⟩ := ⟨by norm_num, rfl, rfl, g1, g2⟩
  have ht75' := B'.tension
  simp only at ht75'
  norm_num at ht75'
  obtain ⟨s', e1, e2, e3⟩ := loopOn_stuck (f := f) 99 75 _ B' (by norm_num [abs_of_neg])
    (by rw [ht75', g 75 (by norm_num) (by norm_num), g0]) (by rw [ht75']) rfl
  have hplace : ReloadSearch.place ⟨⟨50, G 50⟩, ⟨100, G 100⟩, ⟨-999999, -999999⟩, 0⟩ ⟨75, 0⟩ =
      ⟨⟨50, G 50⟩, ⟨100, G 100⟩, ⟨75, 0⟩, 1⟩ := by
    unfold ReloadSearch.place
    norm_num
  have hfound : (levelReloader 1000000 100 1 75 1).found (levelSpan 100 1 75) ⟨0, 0, 1⟩ = .ok 75 false := by
    show searchOn f (tensionLeast (levelSpan 100 1 75) ⟨0, 0, 1⟩) = _
    unfold searchOn
    rw [ht, g 50 (le_refl _) (by norm_num)]
    simp only
    rw [show (2:ℝ) * 50 = 100 by norm_num, g 100 (by norm_num) (le_refl _)]
    simp only
    rw [loopOn, if_pos (by norm_num [abs_of_neg]), ht75, g 75 (by norm_num) (by norm_num), g0]
    simp only
    rw [hplace, e1, ht75']
    simp only [e2]
    norm_num
  have hupd : (levelReloader 1000000 100 1 75 1).update =
      .ok { (levelReloader 1000000 100 1 75 1).trying (levelSpan 100 1 75) ⟨0, 0, 1⟩ 75 with isUpdated := false }
        false := by
    unfold CatenaryReloader.update
    rw [if_neg (by decide), solve_eq (k := levelSpan 100 1 75) (w := ⟨0, 0, 1⟩) rfl rfl, hfound]
    rfl
  refine ⟨levelCalls 1000000 100 1 75 1, levelReloader 1000000 100 1 75 1, _, levelSpan 100 1 75, hookeModel 1000000,
    hookeCable 1000000, rfl, rfl, rfl, rfl, rfl,
    level_valid (by norm_num) (by norm_num) (by norm_num), rfl, hv.1, hv.2.1, hv.2.2, hupd, rfl, ?_⟩
  unfold CatenaryReloader.tensionHorizontal
  rw [hupd]

/-- The search finds a crossing `x` that it does not hit. -/
theorem reload_found {r : CatenaryReloader} {k : Catenary3d} {w : V3} (hk : r.catenary = some k)
    (hw : r.weight = some w) (hu : r.isUpdated = false) {g : ℝ → ℝ}
    (hg : ∀ h, k.spacing.magnitude / 2 * w.magnitude ≤ h → h ≤ 2 * (k.spacing.magnitude / 2 * w.magnitude) →
      gap k r.modelReference r.modelReloaded w h = .val (g h))
    (ha : ∀ h h', k.spacing.magnitude / 2 * w.magnitude ≤ h → h < h' →
      h' ≤ 2 * (k.spacing.magnitude / 2 * w.magnitude) → g h' < g h)
    (h1 : k.spacing.magnitude / 2 * w.magnitude ≤ 2 ^ 90) {x : ℝ} (h0 : g x = 0)
    (hl : k.spacing.magnitude / 2 * w.magnitude < x) (hr : x < 2 * (k.spacing.magnitude / 2 * w.magnitude))
    (hd : ∀ n i : ℕ, x ≠ k.spacing.magnitude / 2 * w.magnitude * (1 + i / 2 ^ n))
    (hs : ∀ h, |h - x| ≤ 0.01 → k.spacing.magnitude / 2 * w.magnitude ≤ h →
      h ≤ 2 * (k.spacing.magnitude / 2 * w.magnitude) → g h < 0.1) :
    ∃ r', r.update = .ok r' true ∧ |r'.catenaryReloaded.tensionHorizontal - x| ≤ 0.01 := by
  have pl := ha _ _ (le_refl _) hl hr.le
  have pr := ha _ _ hl.le hr (le_refl _)
  rw [h0] at pl pr
  obtain ⟨r', b, q1, q0, q2, q3, q4, q5⟩ := reload_bracket hk hw hu hg (by linarith) h1 pl pr
    (P := fun h => ∃ n i : ℕ, h = k.spacing.magnitude / 2 * w.magnitude * (1 + i / 2 ^ n)) (by
      rintro x y ⟨n, i, rfl⟩ ⟨m, j, rfl⟩
      refine ⟨n + m + 1, i * 2 ^ m + j * 2 ^ n, ?_⟩
      push_cast
      rw [pow_succ, pow_add]
      field_simp
      ring) ⟨0, 0, by norm_num⟩ ⟨0, 1, by norm_num; ring⟩
  have hne : g r'.catenaryReloaded.tensionHorizontal ≠ 0 := by
    intro hz
    obtain ⟨n, i, e⟩ := q0
    rcases lt_trichotomy r'.catenaryReloaded.tensionHorizontal x with h | h | h
    · have := ha _ _ q2 h hr.le
      linarith
    · exact hd n i (h.symm.trans e)
    · have := ha _ _ hl.le h q3
      linarith
  obtain ⟨lo, hi, a1, a2, a3, a4, a5, a6, a7⟩ := q4 (Or.inr hne)
  have b1 : lo < x := by
    by_contra hn
    rcases (not_lt.1 hn).lt_or_eq with h | h
    · have := ha _ _ hl.le h (by linarith)
      linarith
    · rw [h] at h0; linarith
  have b2 : x < hi := by
    by_contra hn
    rcases (not_lt.1 hn).lt_or_eq with h | h
    · have := ha _ _ (by linarith) h hr.le
      linarith
    · rw [← h] at h0; linarith
  have hclose : |r'.catenaryReloaded.tensionHorizontal - x| ≤ 0.01 := by
    rw [abs_le]
    rcases a7 with e | e <;> rw [e] <;> constructor <;> linarith
  cases b with
  | true => exact ⟨r', q1, hclose⟩
  | false =>
    exfalso
    rcases q5 rfl with h | h
    · exact absurd (hs _ hclose q2 q3) (not_lt.2 h)
    · exact hne h

/-- **C92** (partial). Reload a catenary under its own load on its own cable model.  Let its tension lie between the
least tension and twice that, not a dyadic fraction of the way; let the difference of the lengths decrease there and be
less than 0.1 within 0.01 of the tension.  Then the reload succeeds, and the tension found is within 0.01 of the
original one.

Missing: the tensions at a dyadic fraction of the way, for which it can fail (`C92_fails`), and those outside the range. -/
theorem C92_found_partial {r : CatenaryReloader} {k : Catenary3d} (R : k.Reachable) (hk : r.catenary = some k)
    (hw : r.weight = some k.weightUnit) (hm : r.modelReloaded = r.modelReference) (hu : r.isUpdated = false) {g : ℝ → ℝ}
    (hg : ∀ h, k.spacing.magnitude / 2 * k.weightUnit.magnitude ≤ h →
      h ≤ 2 * (k.spacing.magnitude / 2 * k.weightUnit.magnitude) →
      gap k r.modelReference r.modelReloaded k.weightUnit h = .val (g h))
    (ha : ∀ h h', k.spacing.magnitude / 2 * k.weightUnit.magnitude ≤ h → h < h' →
      h' ≤ 2 * (k.spacing.magnitude / 2 * k.weightUnit.magnitude) → g h' < g h)
    (h1 : k.spacing.magnitude / 2 * k.weightUnit.magnitude ≤ 2 ^ 90)
    (hl : k.spacing.magnitude / 2 * k.weightUnit.magnitude < k.tensionHorizontal)
    (hr : k.tensionHorizontal < 2 * (k.spacing.magnitude / 2 * k.weightUnit.magnitude))
    (hd : ∀ n i : ℕ, k.tensionHorizontal ≠ k.spacing.magnitude / 2 * k.weightUnit.magnitude * (1 + i / 2 ^ n))
    (hs : ∀ h, |h - k.tensionHorizontal| ≤ 0.01 → k.spacing.magnitude / 2 * k.weightUnit.magnitude ≤ h →
      h ≤ 2 * (k.spacing.magnitude / 2 * k.weightUnit.magnitude) → g h < 0.1) :
    ∃ r', r.update = .ok r' true ∧ |r'.catenaryReloaded.tensionHorizontal - k.tensionHorizontal| ≤ 0.01 := by
  refine reload_found hk hw hu hg ha h1 ?_ hl hr hd hs
  have := hg _ hl.le hr.le
  rw [hm] at this
  exact gap_self R this

/-- The tension 70 is two fifths of the way from 50 to 100. -/
theorem seventy_off_grid (n i : ℕ) : (70:ℝ) ≠ 50 * (1 + i / 2 ^ n) := by
  intro h
  have h2 : (2:ℝ) ^ n ≠ 0 := by positivity
  have h3 : (2:ℝ) * 2 ^ n = 5 * i := by field_simp at h; linarith
  have h4 : 2 * 2 ^ n = 5 * i := by exact_mod_cast h3
  have h5 : 5 ∣ 2 ^ (n + 1) := ⟨i, by rw [pow_succ]; omega⟩
  have := Nat.Prime.dvd_of_dvd_pow Nat.prime_five h5
  omega

/-- Near the tension 70 the lengths of the level span of 100 differ by less than 0.1. -/
theorem level_gap_small {x : ℝ} (h1 : |x - 70| ≤ 0.01) : levelGap 1000000 100 1 70 1 x < 0.1 := by
  obtain ⟨a, b⟩ := abs_le.1 h1
  rcases lt_or_ge 70 x with h | h
  · have := level_gap_anti (e := 1000000) (s := 100) (w := 1) (h := 70) (v := 1) (x := 70) (y := x) (by norm_num)
      (by norm_num) (by norm_num) (by norm_num) (by norm_num) (by norm_num) h
    rw [level_gap_self] at this
    linarith
  · rcases h.lt_or_eq with h | h
    swap
    · rw [h, level_gap_self]; norm_num
    have hx : 69.99 ≤ x := by norm_num at a ⊢; linarith
    have p : 0 < x := by linarith
    have hL1 := (levelSpan_facts (s := 100) (w := 1) (h := x) (by norm_num) (by norm_num) p).1
    have hL2 := (levelSpan_facts (s := 100) (w := 1) (h := 70) (by norm_num) (by norm_num) (by norm_num)).1
    have ht1 := (levelSpan_tension (s := 100) (w := 1) (h := x) (by norm_num) (by norm_num) (by linarith)).1
    have ht2 := (levelSpan_tension (s := 100) (w := 1) (h := 70) (by norm_num) (by norm_num) (by norm_num)).2
    have htm := (levelSpan_mono (s := 100) (w := 1) (by norm_num) (by norm_num) (by linarith) h).2
    have e1 : (100:ℝ) * 1 / (2 * x) = 50 / x := by field_simp; norm_num
    have e2 : (100:ℝ) * 1 / (2 * 70) = 5 / 7 := by norm_num
    have e3 : 2 * ((70:ℝ) / 1) = 140 := by norm_num
    rw [e1, div_one] at hL1
    rw [e2, e3] at hL2
    have c1 : Real.cosh 1 ≤ 1.55 := by
      have h1 := Real.exp_one_lt_d9
      have h3 := Real.exp_one_gt_d9
      have h4 := Real.exp_pos (-1)
      have h2 : Real.exp 1 * Real.exp (-1) = 1 := by rw [← Real.exp_add]; norm_num
      rw [Real.cosh_eq]
      norm_num at h1 h3 ⊢
      nlinarith
    have hz : 50 / x ≤ 5 / 7 + 0.0001021 := by
      rw [div_le_iff₀ p]; norm_num at hx ⊢; linarith
    have hz' : 5 / 7 < 50 / x := by rw [lt_div_iff₀ p]; linarith
    have hcosh : ∀ c, 0 < c → c < 1 → Real.cosh c ≤ 1.55 := fun c h1 h2 =>
      (Real.cosh_le_cosh.2 (by rw [abs_of_pos h1, abs_of_pos one_pos]; exact h2.le)).trans c1
    have hs : Real.sinh (50 / x) - Real.sinh (5 / 7) ≤ 0.00016 := by
      obtain ⟨c, ⟨hc1, hc2⟩, hc⟩ := exists_hasDerivAt_eq_slope Real.sinh Real.cosh hz'
        Real.continuous_sinh.continuousOn fun y _ => Real.hasDerivAt_sinh y
      have hb := hcosh c (by linarith) (by norm_num at hz; linarith)
      rw [eq_div_iff (by linarith)] at hc
      rw [← hc]
      have : 50 / x - 5 / 7 ≤ 0.0001021 := by linarith
      have h3 := mul_le_mul hb this (by linarith) (by norm_num)
      norm_num at h3 ⊢
      linarith
    have hs2 : Real.sinh (5 / 7) ≤ 1.2 := by
      obtain ⟨c, ⟨hc1, hc2⟩, hc⟩ := exists_hasDerivAt_eq_slope Real.sinh Real.cosh (show (0:ℝ) < 5 / 7 by norm_num)
        Real.continuous_sinh.continuousOn fun y _ => Real.hasDerivAt_sinh y
      have hb := hcosh c hc1 (by linarith)
      rw [Real.sinh_zero, sub_zero, sub_zero, eq_div_iff (by norm_num)] at hc
      rw [← hc]
      norm_num at hb ⊢
      linarith
    have hs3 : 0 < Real.sinh (5 / 7) := Real.sinh_pos_iff.2 (by norm_num)
    have hs4 : 0 < Real.sinh (50 / x) := Real.sinh_pos_iff.2 (by linarith)
    have hLx : (levelSpan 100 1 x).length ≤ (levelSpan 100 1 70).length + 0.0224 := by
      rw [hL1, hL2]
      have : x * Real.sinh (50 / x) ≤ 70 * Real.sinh (50 / x) := mul_le_mul_of_nonneg_right h.le hs4.le
      norm_num at hs ⊢
      linarith
    have hL70 : (levelSpan 100 1 70).length ≤ 168 := by rw [hL2]; norm_num at hs2 ⊢; linarith
    have hpos : 0 < (levelSpan 100 1 70).length := by rw [hL2]; positivity
    unfold levelGap CableStrainer.elongate
    simp only
    set L := (levelSpan 100 1 70).length
    set t := (levelSpan 100 1 x).tensionAverage
    set T := (levelSpan 100 1 70).tensionAverage
    have hd : t / (2 * 1000000) - T / (2 * 1000000) < 0 := by
      rw [sub_neg]; exact div_lt_div_of_pos_right htm (by norm_num)
    rw [if_pos hd, abs_of_neg hd]
    have hd2 : -(t / (2 * 1000000) - T / (2 * 1000000)) ≤ 0.0001 := by
      norm_num at ht2 ht1 ⊢; linarith
    set d := -(t / (2 * 1000000) - T / (2 * 1000000))
    have hd3 : 0 < d := neg_pos.2 hd
    have : L - 0.0168 ≤ L / (1 + d) := by
      rw [le_div_iff₀ (by linarith)]
      have h5 : L * d ≤ 168 * 0.0001 := mul_le_mul hL70 hd2 hd3.le (by norm_num)
      norm_num at h5 ⊢
      linarith
    norm_num at this hLx ⊢
    linarith

/-- A level span of 100 under the load 1 with the tension 70 can be reloaded under the same load. -/
theorem level_reloads {r : CatenaryReloader} (hk : r.catenary = some (levelSpan 100 1 70))
    (hw : r.weight = some ⟨0, 0, 1⟩) (hu : r.isUpdated = false) (hm : HookeLike 1000000 r.modelReference)
    (hn : HookeLike 1000000 r.modelReloaded) :
    ∃ r', r.update = .ok r' true ∧ |r'.catenaryReloaded.tensionHorizontal - 70| ≤ 0.01 := by
  have e := level_magnitudes (s := 100) (v := 1) (by norm_num) (by norm_num) 1 70
  have e' : (100:ℝ) / 2 * 1 = 50 := by norm_num
  rw [e'] at e
  refine reload_found hk hw hu (g := levelGap 1000000 100 1 70 1) ?_ ?_ ?_ level_gap_self ?_ ?_ ?_ ?_ <;> rw [e]
  · intro h h1 h2
    exact level_gap_like hm hn (by norm_num) (by norm_num) (by norm_num) (by norm_num) (by linarith) (by norm_num)
      (by norm_num at h2; linarith)
  · intro h h' h1 h2 _
    exact level_gap_anti (by norm_num) (by norm_num) (by norm_num) (by norm_num) (by norm_num) (by linarith) h2
  · norm_num
  · norm_num
  · norm_num
  · exact seventy_off_grid
  · intro h h1 _ _
    exact level_gap_small h1

/-- The theorem C92_found_partial applies. -/
example : ∃ r', (levelReloader 1000000 100 1 70 1).update = .ok r' true ∧
    |r'.catenaryReloaded.tensionHorizontal - 70| ≤ 0.01 := by
  have e := level_magnitudes (s := 100) (v := 1) (by norm_num) (by norm_num) 1 70
  have e' : (100:ℝ) / 2 * 1 = 50 := by norm_num
  have e1 : (levelSpan 100 1 70).spacing.magnitude / 2 * (levelSpan 100 1 70).weightUnit.magnitude = 50 := e.trans e'
  have e70 : (levelSpan 100 1 70).tensionHorizontal = 70 := rfl
  refine C92_found_partial (r := levelReloader 1000000 100 1 70 1) (k := levelSpan 100 1 70) (levelSpan_reachable _ _ _)
    rfl rfl rfl rfl (g := levelGap 1000000 100 1 70 1) ?_ ?_ ?_ ?_ ?_ ?_ ?_ <;> rw [e1]
  · intro h h1 h2
    exact level_gap (by norm_num) (by norm_num) (by norm_num) (by norm_num) (by norm_num) (by linarith) (by norm_num)
      (by norm_num at h2; linarith)
  · intro h h' h1 h2 _
    exact level_gap_anti (by norm_num) (by norm_num) (by norm_num) (by norm_num) (by norm_num) (by linarith) h2
  · norm_num
  · rw [e70]; norm_num
  · rw [e70]; norm_num
  · rw [e70]; exact seventy_off_grid
  · intro h h1 _ _
    exact level_gap_small h1

/-! ## C93 -/

/-- **C93** (partial). A successful reloader gives a catenary over the same end points, under the requested load, with the
tension that `TensionHorizontal` reports.

Missing: the side to which the wind blows, which is not taken over (`C93_direction_lost`). -/
theorem C93_partial {r r' : CatenaryReloader} {k : Catenary3d} {w : V3} (hk : r.catenary = some k)
    (hw : r.weight = some w) (hu : r.isUpdated = false) (h : r.update = .ok r' true) :
    ∃ c, r.catenaryQ = .ok r' c ∧ r'.catenaryQ = .ok r' c ∧ c.spacing = k.spacing ∧ c.weightUnit = w ∧
      r.tensionHorizontal = .ok r' c.tensionHorizontal ∧ c.Reachable := by
  obtain ⟨x, -, hc, hb, -⟩ := update_found hk hw hu h
  refine ⟨r'.catenaryReloaded, ?_, ?_, ?_, ?_, ?_, ?_⟩
  · unfold catenaryQ; rw [h]
  · have : r'.update = .ok r' true := by unfold CatenaryReloader.update; rw [if_pos hb]
    unfold catenaryQ; rw [this]
  · rw [hc]; rfl
  · rw [hc]; rfl
  · unfold CatenaryReloader.tensionHorizontal; rw [h]
  · rw [hc]
    exact ⟨[.setSpacing k.spacing, .setTension x, .setWeight w], rfl⟩

/-- **C93** fails for the side to which the wind blows: a valid catenary blown to the negative side is reloaded, and the
catenary given is blown to the positive side. -/
theorem C93_direction_lost : ∃ (calls : List CatenaryReloader.Call) (r r' : CatenaryReloader) (k c : Catenary3d),
    CatenaryReloader.run .new calls = some r ∧ r.catenary = some k ∧ k.validate.1 = true ∧ k.Reachable ∧
    k.direction = .negative ∧ r.update = .ok r' true ∧ r.catenaryQ = .ok r' c ∧ c.direction = .positive := by
  have hk : ((levelSpan 100 0.1 100).setDirection .negative).Reachable :=
    ⟨[.setSpacing ⟨100, 0, 0⟩, .setTension 100, .setWeight ⟨0, 0, 0.1⟩, .setDirection .negative], rfl⟩
  have hfound : CatenaryReloader.found { levelReloader 1000000 100 0.1 100 0.0001 with
      catenary := some ((levelSpan 100 0.1 100).setDirection .negative) }
      ((levelSpan 100 0.1 100).setDirection .negative) ⟨0, 0, 0.0001⟩ = .ok 0.01 true := level_light_found
  have hupd : CatenaryReloader.update { levelReloader 1000000 100 0.1 100 0.0001 with
      catenary := some ((levelSpan 100 0.1 100).setDirection .negative) } = .ok
      { (CatenaryReloader.trying { levelReloader 1000000 100 0.1 100 0.0001 with
          catenary := some ((levelSpan 100 0.1 100).setDirection .negative) }
          ((levelSpan 100 0.1 100).setDirection .negative) ⟨0, 0, 0.0001⟩ 0.01) with isUpdated := true } true := by
    unfold CatenaryReloader.update
    rw [if_neg (by decide), solve_eq (k := (levelSpan 100 0.1 100).setDirection .negative) (w := ⟨0, 0, 0.0001⟩) rfl rfl,
      hfound]
    rfl
  refine ⟨[.setCatenary (some ((levelSpan 100 0.1 100).setDirection .negative)),
    .setModelReference (some (hookeModel 1000000)), .setModelReloaded (some (hookeModel 1000000)),
    .setWeight (some ⟨0, 0, 0.0001⟩)], { levelReloader 1000000 100 0.1 100 0.0001 with
      catenary := some ((levelSpan 100 0.1 100).setDirection .negative) }, _,
    (levelSpan 100 0.1 100).setDirection .negative, levelSpan 100 0.0001 0.01, rfl, rfl,
    level_valid (s := 100) (w := 0.1) (h := 100) (by norm_num) (by norm_num) (by norm_num), hk, rfl, hupd, ?_, rfl⟩
  unfold catenaryQ
  rw [hupd]
  rfl

/-- The reloader of `C61_unmatched` meets the hypotheses of `C93_partial`. -/
example : ∃ (r r' : CatenaryReloader) (k : Catenary3d) (w : V3), r.catenary = some k ∧ r.weight = some w ∧
    r.update = .ok r' true := by
  obtain ⟨calls, r, r', k, m, c, w, y, h1, h2, h3, h4, h5, h6, h7, h8, h9, h10, h11, h12, h13, h14⟩ :=
    C61_unmatched
  exact ⟨r, r', k, w, h2, h5, h12⟩

/-! ## C94 -/

/-- The questions a catenary reloader answers. -/
inductive ReloaderQuery : Type → Type where
  | catenary : ReloaderQuery Catenary3d
  | tensionHorizontal : ReloaderQuery ℝ
  | lengthUnloaded : ReloaderQuery ℝ

/-- The answer. -/
noncomputable def ReloaderQuery.ask {A : Type} (r : CatenaryReloader) : ReloaderQuery A → Res A
  | .catenary => valueOf id r.catenaryQ
  | .tensionHorizontal => valueOf id r.tensionHorizontal
  | .lengthUnloaded => valueOf id r.lengthUnloaded

/-- A new reloader with the settings of `r`. -/
noncomputable def freshReloader (r : CatenaryReloader) : CatenaryReloader :=
  (((CatenaryReloader.new.setCatenary r.catenary).setModelReference r.modelReference).setModelReloaded
    r.modelReloaded).setWeight r.weight

/-- The stored result belongs to the settings. -/
def Settled (r : CatenaryReloader) : Prop :=
  r.isUpdated = true → ∃ k w x, r.catenary = some k ∧ r.weight = some w ∧ r.found k w = .ok x true ∧
    r.catenaryReloaded = trial k w x

theorem settled_update {r : CatenaryReloader} (S : Settled r) : ∀ r', r.update.state? = some r' → Settled r' := by
  intro r' h
  cases hu : r.isUpdated with
  | true =>
    unfold CatenaryReloader.update at h
    rw [if_pos hu] at h
    cases h
    exact S
  | false =>
    cases hk : r.catenary with
    | none =>
      unfold CatenaryReloader.update solve at h
      rw [if_neg (by rw [hu]; decide), hk] at h
      cases h
    | some k =>
      cases hw : r.weight with
      | none =>
        unfold CatenaryReloader.update solve at h
        rw [if_neg (by rw [hu]; decide), hk, hw] at h
        cases h
      | some w =>
        cases hf : r.update with
        | ok r1 b =>
          rw [hf] at h
          cases h
          obtain ⟨x, a1, a2, a3, a4, a5, a6, a7⟩ := update_found hk hw hu hf
          intro hb
          rw [a3] at hb
          subst hb
          refine ⟨k, w, x, a4.trans hk, a7.trans hw, ?_, a2⟩
          unfold CatenaryReloader.found at a1 ⊢
          rw [a5, a6]
          exact a1
        | throws r1 =>
          rw [hf] at h
          cases h
          unfold CatenaryReloader.update at hf
          rw [if_neg (by rw [hu]; decide), solve_eq hk hw] at hf
          cases hx : r.found k w with
          | ok x b => rw [hx] at hf; cases hf
          | throws x =>
            rw [hx] at hf
            cases hf
            intro hb
            exact absurd (hu.symm.trans hb) (by decide)
          | ub => rw [hx] at hf; cases hf
        | ub => rw [hf] at h; cases h

theorem settled_next {r r' : CatenaryReloader} (S : Settled r) (c : CatenaryReloader.Call) (h : c.next r = some r') :
    Settled r' := by
  have U := settled_update S
  have off : ∀ x : CatenaryReloader, x.isUpdated = false → Settled x :=
    fun x hx hb => absurd (hx.symm.trans hb) (by decide)
  cases c with
  | setCatenary k => cases h; exact off _ rfl
  | setModelReference m => cases h; exact off _ rfl
  | setModelReloaded m => cases h; exact off _ rfl
  | setWeight w => cases h; exact off _ rfl
  | catenary =>
    change r.catenaryQ.state? = some r' at h
    unfold catenaryQ at h
    cases hu : r.update with
    | ok x b => rw [hu] at h; cases b <;> (cases h; exact U _ (by rw [hu]; rfl))
    | throws x => rw [hu] at h; cases h; exact U _ (by rw [hu]; rfl)
    | ub => rw [hu] at h; cases h
  | tensionHorizontal =>
    change r.tensionHorizontal.state? = some r' at h
    unfold CatenaryReloader.tensionHorizontal at h
    cases hu : r.update with
    | ok x b => rw [hu] at h; cases b <;> (cases h; exact U _ (by rw [hu]; rfl))
    | throws x => rw [hu] at h; cases h; exact U _ (by rw [hu]; rfl)
    | ub => rw [hu] at h; cases h
  | lengthUnloaded =>
    change r.lengthUnloaded.state? = some r' at h
    unfold CatenaryReloader.lengthUnloaded at h
    cases hu : r.update with
    | ok x b =>
      rw [hu] at h
      cases b with
      | true =>
        have V := U x (by rw [hu]; rfl)
        simp only at h
        cases hs : CatenaryUnloader.new.setCatenary x.catenary with
        | val u =>
          rw [hs] at h
          simp only at h
          cases hl : ((u.setModelReference x.modelReference).setModelUnloaded x.modelReference).lengthUnloaded <;>
            rw [hl] at h <;> cases h <;> exact V
        | throws => rw [hs] at h; cases h; exact V
        | ub => rw [hs] at h; cases h
      | false => cases h; exact U _ (by rw [hu]; rfl)
    | throws x => rw [hu] at h; cases h; exact U _ (by rw [hu]; rfl)
    | ub => rw [hu] at h; cases h

theorem settled_run {calls : List CatenaryReloader.Call} : ∀ {r r' : CatenaryReloader}, Settled r →
    CatenaryReloader.run r calls = some r' → Settled r' := by
  induction calls with
  | nil => intro r r' S h; cases h; exact S
  | cons c cs ih =>
    intro r r' S h
    unfold CatenaryReloader.run at h
    cases hn : c.next r with
    | none => rw [hn] at h; cases h
    | some r1 => rw [hn] at h; exact ih (settled_next S c hn) h

/-- The outcome of updating, seen from outside. -/
theorem update_same {r : CatenaryReloader} (S : Settled r) :
    (∃ r' f, r.update = .ok r' true ∧ (freshReloader r).update = .ok f true ∧
      r'.catenaryReloaded = f.catenaryReloaded ∧ r'.catenary = r.catenary ∧ f.catenary = r.catenary ∧
      r'.modelReference = r.modelReference ∧ f.modelReference = r.modelReference) ∨
    (∃ r' f, r.update = .ok r' false ∧ (freshReloader r).update = .ok f false) ∨
    (∃ r' f, r.update = .throws r' ∧ (freshReloader r).update = .throws f) ∨
    (r.update = .ub ∧ (freshReloader r).update = .ub) := by
  have hff : (freshReloader r).isUpdated = false := rfl
  by_cases hp : ∃ k w, r.catenary = some k ∧ r.weight = some w
  · obtain ⟨k, w, hk, hw⟩ := hp
    have hfo : (freshReloader r).found k w = r.found k w := rfl
    have hF : (freshReloader r).update = match mapState ((freshReloader r).trying k w) (r.found k w) with
        | .ok r b => .ok { r with isUpdated := b } b
        | .throws r => .throws r
        | .ub => .ub := by
      conv_lhs => unfold CatenaryReloader.update
      rw [if_neg (by rw [hff]; decide), solve_eq (r := freshReloader r) hk hw, hfo]
      rfl
    cases hu : r.isUpdated with
    | true =>
      obtain ⟨k', w', x, e1, e2, e3, e4⟩ := S hu
      cases hk.symm.trans e1
      cases hw.symm.trans e2
      rw [e3] at hF
      refine Or.inl ⟨r, _, ?_, hF, e4, rfl, rfl, rfl, rfl⟩
      unfold CatenaryReloader.update
      rw [if_pos hu]
    | false =>
      have hR : r.update = match mapState (r.trying k w) (r.found k w) with
          | .ok r b => .ok { r with isUpdated := b } b
          | .throws r => .throws r
          | .ub => .ub := by
        conv_lhs => unfold CatenaryReloader.update
        rw [if_neg (by rw [hu]; decide), solve_eq hk hw]
        rfl
      cases hx : r.found k w with
      | ok x b =>
        rw [hx] at hF hR
        cases b with
        | true => exact Or.inl ⟨_, _, hR, hF, rfl, rfl, rfl, rfl, rfl⟩
        | false => exact Or.inr (Or.inl ⟨_, _, hR, hF⟩)
      | throws x => rw [hx] at hF hR; exact Or.inr (Or.inr (Or.inl ⟨_, _, hR, hF⟩))
      | ub => rw [hx] at hF hR; exact Or.inr (Or.inr (Or.inr ⟨hR, hF⟩))
  · have hn : ∀ x : CatenaryReloader, x.catenary = r.catenary → x.weight = r.weight → x.isUpdated = false →
        x.update = .ub := by
      intro x h1 h2 h3
      unfold CatenaryReloader.update solve
      rw [if_neg (by rw [h3]; decide), h1, h2]
      cases hk : r.catenary with
      | none => rfl
      | some k =>
        cases hw : r.weight with
        | none => rfl
        | some w => exact absurd ⟨k, w, hk, hw⟩ hp
    have hu : r.isUpdated = false := by
      cases hu : r.isUpdated with
      | false => rfl
      | true =>
        obtain ⟨k, w, x, e1, e2, -⟩ := S hu
        exact absurd ⟨k, w, e1, e2⟩ hp
    exact Or.inr (Or.inr (Or.inr ⟨hn r rfl rfl hu, hn _ rfl rfl rfl⟩))

/-- **C94**. Whatever was done with a catenary reloader before, it answers every question exactly as a new object with
the same catenary, models and load would (as long as the objects behind the pointers do not change). -/
theorem C94_history {calls : List CatenaryReloader.Call} {r : CatenaryReloader}
    (h : CatenaryReloader.run .new calls = some r) {A : Type} (q : ReloaderQuery A) :
    q.ask r = q.ask (freshReloader r) := by
  have S : Settled r := settled_run (fun hb => (by cases hb)) h
  cases q with
  | catenary =>
    show valueOf id r.catenaryQ = valueOf id (freshReloader r).catenaryQ
    unfold catenaryQ
    rcases update_same S with ⟨r', f, a, b, c, -⟩ | ⟨r', f, a, b⟩ | ⟨r', f, a, b⟩ | ⟨a, b⟩ <;> rw [a, b]
    · simp only [c]; rfl
    · rfl
    · rfl
  | tensionHorizontal =>
    show valueOf id r.tensionHorizontal = valueOf id (freshReloader r).tensionHorizontal
    unfold CatenaryReloader.tensionHorizontal
    rcases update_same S with ⟨r', f, a, b, c, -⟩ | ⟨r', f, a, b⟩ | ⟨r', f, a, b⟩ | ⟨a, b⟩ <;> rw [a, b]
    · simp only [c]; rfl
    · rfl
    · rfl
  | lengthUnloaded =>
    show valueOf id r.lengthUnloaded = valueOf id (freshReloader r).lengthUnloaded
    unfold CatenaryReloader.lengthUnloaded
    rcases update_same S with ⟨r', f, a, b, c, d1, d2, d3, d4⟩ | ⟨r', f, a, b⟩ | ⟨r', f, a, b⟩ | ⟨a, b⟩ <;> rw [a, b]
    · simp only [d1, d2, d3, d4]
      cases CatenaryUnloader.new.setCatenary r.catenary with
      | val u =>
        simp only
        cases ((u.setModelReference r.modelReference).setModelUnloaded r.modelReference).lengthUnloaded <;> rfl
      | throws => rfl
      | ub => rfl
    · rfl
    · rfl

/-- A history in which a result is stored, then the load changes. -/
example : ∃ r, CatenaryReloader.run .new (levelCalls 1000000 100 1 70 1 ++ [.catenary, .setWeight (some ⟨0, 0, 2⟩)]) =
    some r := by
  have hm := level_magnitudes (s := 100) (v := 1) (by norm_num) (by norm_num) 1 70
  have hm' : (levelSpan 100 1 70).spacing.magnitude / 2 * (levelSpan 100 1 70).weightUnit.magnitude = 100 / 2 * 1 := hm
  have e70 : (levelSpan 100 1 70).tensionHorizontal = 70 := rfl
  obtain ⟨r', b, h, -⟩ := C92_partial (r := levelReloader 1000000 100 1 70 1) (k := levelSpan 100 1 70)
    (levelSpan_reachable _ _ _) rfl rfl rfl rfl (g := levelGap 1000000 100 1 70 1) (by
      rw [hm']
      intro h h1 h2
      exact level_gap (by norm_num) (by norm_num) (by norm_num) (by norm_num) (by norm_num) (by linarith) (by norm_num)
        (by norm_num at h2; linarith)) (by
      rw [hm']
      intro h h' h1 h2 _
      exact level_gap_anti (by norm_num) (by norm_num) (by norm_num) (by norm_num) (by norm_num) (by linarith) h2)
    (by rw [hm']; norm_num) (by rw [hm', e70]; norm_num) (by rw [hm', e70]; norm_num)
  refine ⟨r'.setWeight (some ⟨0, 0, 2⟩), ?_⟩
  show ((levelReloader 1000000 100 1 70 1).catenaryQ.state?.bind fun x =>
    CatenaryReloader.run x [.setWeight (some ⟨0, 0, 2⟩)]) = _
  unfold catenaryQ
  rw [h]
  cases b <;> rfl

end Verif.Props
