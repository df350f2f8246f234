import Verif.Props.CableReloader
import Verif.Props.CatenaryTighter
import Verif.Props.ThermalShift

/-!
# C154: a cable that has become longer hangs no tighter

The tension at which the catenary is as long as the strained cable is unique, and it is lower for a model that
reports more strain, e.g. at a higher temperature.
-/

set_option linter.unusedSectionVars false

namespace Verif.Props

open CatenaryReloader

/-- A trial tension that is at least the least tension gives an accepted catenary. -/
theorem trial_accepted {k : Catenary3d} (R : k.Reachable) (V : k.validate.1 = true) {w : V3} (wx : w.x = 0)
    (wy : 0 ≤ w.y) (wz : 0 < w.z) {h : ℝ} (hh : k.spacing.magnitude / 2 * w.magnitude ≤ h) :
    (trial k w h).Reachable ∧ (trial k w h).validate.1 = true ∧ 0 < w.magnitude ∧ 0 < h := by
  have Rt : (trial k w h).Reachable :=
    ⟨[.setSpacing k.spacing, .setTension h, .setWeight w], rfl⟩
  obtain ⟨-, sx, sy, sz, -⟩ := (C54_validate_3d R).1.1 V
  have hw : 0 < w.magnitude := by
    unfold V3.magnitude
    exact Real.sqrt_pos.2 (by positivity)
  have hs : 0 < k.spacing.magnitude := by
    unfold V3.magnitude
    exact Real.sqrt_pos.2 (by positivity)
  have h0 : 0 < h := lt_of_lt_of_le (by positivity) hh
  refine ⟨Rt, ?_, hw, h0⟩
  rw [(C54_validate_3d Rt).1]
  exact ⟨h0, sx, sy, sz, wx, wy, wz, (le_div_iff₀ hw).2 hh⟩

/-- The source catenary has a positive length. -/
theorem accepted_length {k : Catenary3d} (R : k.Reachable) (V : k.validate.1 = true) : 0 < k.length := by
  obtain ⟨h, sx, sy, -, wx, wy, wz, -⟩ := (C54_validate_3d R).1.1 V
  have P : k.Physical := ⟨h, sx, sy, wx, wy, wz⟩
  have := Catenary2d.length_pos (P.inner_positive R)
  rw [← R.inner.1.refresh_eq] at this
  exact this

/-- And a positive average tension. -/
theorem accepted_average {k : Catenary3d} (R : k.Reachable) (V : k.validate.1 = true) : 0 < k.tensionAverage := by
  obtain ⟨S, hk⟩ := accepted_span R V
  obtain ⟨h, sx, sy, -, wx, wy, wz, -⟩ := (C54_validate_3d R).1.1 V
  have P : k.Physical := ⟨h, sx, sy, wx, wy, wz⟩
  have hL := accepted_length R V
  have hT : 0 < k.tension 0 + k.tension 1 := by
    have F : Catenary3d.Fam k k := ⟨R, rfl, rfl⟩
    have e0 : k.tension 0 = (k.setTension k.tensionHorizontal).tension 0 := own_tension R (.tension 0)
    have e1 : k.tension 1 = (k.setTension k.tensionHorizontal).tension 1 := own_tension R (.tension 1)
    obtain ⟨a, b⟩ := Catenary3d.support_fam S F h
    have := Catenary3d.mean_ge S hk
    rw [e0, e1, a, b]; linarith
  have ha := S.s2_pos
  rw [average_span R P]
  positivity

theorem elongate_le {l a b c : ℝ} (hl : 0 < l) (h : b ≤ c) :
    CableStrainer.elongate l a b ≤ CableStrainer.elongate l a c := by
  rcases h.lt_or_eq with h | h
  · exact (elongate_lt hl h).le
  · rw [h]

/-- What a difference of the lengths says about the strains. -/
theorem gap_parts {k : Catenary3d} {ref rel : Option ElongationModel} {w : V3} {h y : ℝ}
    (hg : gap k ref rel w h = .val y) : ∃ a b, strainThrough ref k.tensionAverage = .val a ∧
      strainThrough rel (trial k w h).tensionAverage = .val b ∧
      y = (trial k w h).length - CableStrainer.elongate k.length a b := by
  unfold gap CableStrainer.lengthFinish trialStrainer at hg
  simp only at hg
  cases h1 : strainThrough ref k.tensionAverage with
  | val a =>
    cases h2 : strainThrough rel (trial k w h).tensionAverage with
    | val b =>
      rw [h1, h2] at hg
      exact ⟨a, b, rfl, rfl, (Res.val.inj hg).symm⟩
    | throws => rw [h1, h2] at hg; cases hg
    | ub => rw [h1, h2] at hg; cases hg
  | throws => rw [h1] at hg; cases hg
  | ub => rw [h1] at hg; cases hg

/-- Up to the load `B` the second model reports at least the strain of the first, under the same and under larger
loads. -/
def Slacker (B : ℝ) (m n : Option ElongationModel) : Prop :=
  ∀ l l' a b, 0 ≤ l → l ≤ l' → l' ≤ B → strainThrough m l = .val a → strainThrough n l' = .val b → a ≤ b

/-- A tension that is not larger. -/
theorem no_tighter {c c' : Catenary3d} (Rc : c.Reachable) (Rc' : c'.Reachable) (Vc : c.validate.1 = true)
    (Vc' : c'.validate.1 = true) (s : c'.spacing = c.spacing) (w : c'.weightUnit = c.weightUnit)
    (h : c'.tensionHorizontal ≤ c.tensionHorizontal) :
    c'.tensionHorizontal ≤ c.tensionHorizontal ∧ c'.tensionMax ≤ c.tensionMax ∧ c.length ≤ c'.length ∧
      c.sag ≤ c'.sag := by
  rcases h.lt_or_eq with hlt | he
  · obtain ⟨a, -, b, -, -, d⟩ := C146_tighter Rc' Rc Vc' s.symm w.symm hlt
    exact ⟨h, d.le, a.le, b.le⟩
  · obtain ⟨S, hk⟩ := accepted_span Rc Vc
    have F : Catenary3d.Fam c c := ⟨Rc, rfl, rfl⟩
    have F' : Catenary3d.Fam c c' := ⟨Rc', s, w⟩
    have h0 := (S.ratio hk).1
    refine ⟨h, le_of_eq ?_, le_of_eq ?_, le_of_eq ?_⟩
    · have e : c.tensionMax = (c.setTension c.tensionHorizontal).tensionMax := own_tension Rc .tensionMax
      have e' : c'.tensionMax = (c'.setTension c'.tensionHorizontal).tensionMax := own_tension Rc' .tensionMax
      rw [e, e', he, Catenary3d.max_fam S F h0, Catenary3d.max_fam S F' h0]
    · have e : c.length = (c.setTension c.tensionHorizontal).length := own_tension Rc .length
      have e' : c'.length = (c'.setTension c'.tensionHorizontal).length := own_tension Rc' .length
      rw [e, e', he, Catenary3d.length_fam S F h0, Catenary3d.length_fam S F' h0]
    · have e : c.sag = (c.setTension c.tensionHorizontal).sag := own_tension Rc .sag
      have e' : c'.sag = (c'.setTension c'.tensionHorizontal).sag := own_tension Rc' .sag
      rw [e, e', he, Catenary3d.sagFn_fam S F h0, Catenary3d.sagFn_fam S F' h0]

/-- C154: a cable is cut to fit the catenary `k` and is brought into two other states; `c` and `c'` hang over the same
span under the same load, `c` exactly as long as the cable with the one model and `c'` exactly as long as the cable
with the other, which reports at least as much strain.  Then `c'` is not tighter than `c`: its tensions are not larger
and its length and sag are not smaller.  (`B` bounds the loads.) -/
theorem C154_slacker {k c c' : Catenary3d} (R : k.Reachable) (V : k.validate.1 = true) (Rc : c.Reachable)
    (Rc' : c'.Reachable) (Vc : c.validate.1 = true) (Vc' : c'.validate.1 = true) (s : c'.spacing = c.spacing)
    (w : c'.weightUnit = c.weightUnit) {ref m n : Option ElongationModel} {B : ℝ} (hs : Slacker B m n) (hB : c'.tensionAverage ≤ B)
    (h : CableStrainer.lengthFinish ⟨k.length, c.tensionAverage, k.tensionAverage, m, ref⟩ = .val c.length)
    (h' : CableStrainer.lengthFinish ⟨k.length, c'.tensionAverage, k.tensionAverage, n, ref⟩ = .val c'.length) :
    c'.tensionHorizontal ≤ c.tensionHorizontal ∧ c'.tensionMax ≤ c.tensionMax ∧ c.length ≤ c'.length ∧
      c.sag ≤ c'.sag := by
  refine no_tighter Rc Rc' Vc Vc' s w (not_lt.1 fun hlt => ?_)
  have t := C146_average Rc Rc' Vc s w hlt
  have u := (C146_tighter Rc Rc' Vc s w hlt).1
  have t0 := accepted_average Rc Vc
  unfold CableStrainer.lengthFinish at h h'
  simp only at h h'
  cases h1 : strainThrough ref k.tensionAverage with
  | throws => rw [h1] at h; cases h
  | ub => rw [h1] at h; cases h
  | val a =>
    rw [h1] at h h'
    cases h2 : strainThrough m c.tensionAverage with
    | throws => rw [h2] at h; cases h
    | ub => rw [h2] at h; cases h
    | val b =>
      cases h3 : strainThrough n c'.tensionAverage with
      | throws => rw [h3] at h'; cases h'
      | ub => rw [h3] at h'; cases h'
      | val b' =>
        rw [h2] at h
        rw [h3] at h'
        have e := Res.val.inj h
        have e' := Res.val.inj h'
        have v := elongate_le (a := a) (accepted_length R V) (hs _ _ _ _ t0.le t.le hB h2 h3)
        linarith

/-- C154: hence the state of a cable whose strain grows with the load is unique: at most one tension fits. -/
theorem C154_unique {k c c' : Catenary3d} (R : k.Reachable) (V : k.validate.1 = true) (Rc : c.Reachable)
    (Rc' : c'.Reachable) (Vc : c.validate.1 = true) (Vc' : c'.validate.1 = true) (s : c'.spacing = c.spacing)
    (w : c'.weightUnit = c.weightUnit) {ref m : Option ElongationModel} {B : ℝ} (hs : Slacker B m m)
    (hB : c.tensionAverage ≤ B) (hB' : c'.tensionAverage ≤ B)
    (h : CableStrainer.lengthFinish ⟨k.length, c.tensionAverage, k.tensionAverage, m, ref⟩ = .val c.length)
    (h' : CableStrainer.lengthFinish ⟨k.length, c'.tensionAverage, k.tensionAverage, m, ref⟩ = .val c'.length) :
    c'.tensionHorizontal = c.tensionHorizontal :=
  le_antisymm (C154_slacker R V Rc Rc' Vc Vc' s w hs hB' h h').1
    (C154_slacker R V Rc' Rc Vc' Vc s.symm w.symm hs hB h' h).1

/-- With a slacker model and a larger tension the catenary exceeds the cable by less. -/
theorem gap_slacker {k : Catenary3d} (R : k.Reachable) (V : k.validate.1 = true) {w : V3} (wx : w.x = 0)
    (wy : 0 ≤ w.y) (wz : 0 < w.z) {ref m n : Option ElongationModel} {B : ℝ} (hs : Slacker B m n) {h h' y y' : ℝ}
    (hh : k.spacing.magnitude / 2 * w.magnitude ≤ h) (hlt : h < h') (hB : (trial k w h').tensionAverage ≤ B)
    (hy : gap k ref m w h = .val y) (hy' : gap k ref n w h' = .val y') : y' < y := by
  obtain ⟨a, b, e1, e2, e3⟩ := gap_parts hy
  obtain ⟨a', b', e1', e2', e3'⟩ := gap_parts hy'
  obtain rfl : a = a' := Res.val.inj (e1.symm.trans e1')
  obtain ⟨Rt, Vt, -⟩ := trial_accepted R V wx wy wz hh
  obtain ⟨Rt', -⟩ := trial_accepted R V wx wy wz (hh.trans hlt.le)
  have t := C146_average Rt Rt' Vt rfl rfl hlt
  have u := (C146_tighter Rt Rt' Vt rfl rfl hlt).1
  have v := elongate_le (a := a) (accepted_length R V) (hs _ _ _ _ (accepted_average Rt Vt).le t.le hB e2 e2')
  rw [e3, e3']
  linarith

/-- Where the search ends between two tensions of opposite sign, whether it reports success or not. -/
theorem reload_near {r : CatenaryReloader} {k : Catenary3d} {w : V3} (hk : r.catenary = some k)
    (hw : r.weight = some w) (hu : r.isUpdated = false) {g : ℝ → ℝ}
    (hg : ∀ h, k.spacing.magnitude / 2 * w.magnitude ≤ h → h ≤ 2 * (k.spacing.magnitude / 2 * w.magnitude) →
      gap k r.modelReference r.modelReloaded w h = .val (g h))
    (h0 : 0 < k.spacing.magnitude / 2 * w.magnitude) (h1 : k.spacing.magnitude / 2 * w.magnitude ≤ 2 ^ 90)
    (hl : 0 < g (k.spacing.magnitude / 2 * w.magnitude))
    (hr : g (2 * (k.spacing.magnitude / 2 * w.magnitude)) < 0) :
    ∃ r' b, r.update = .ok r' b ∧ ∃ lo hi, k.spacing.magnitude / 2 * w.magnitude ≤ lo ∧
        hi ≤ 2 * (k.spacing.magnitude / 2 * w.magnitude) ∧ 0 ≤ g lo ∧ g hi ≤ 0 ∧ lo ≤ hi ∧ hi - lo ≤ 0.01 ∧
        lo ≤ r'.catenaryReloaded.tensionHorizontal ∧ r'.catenaryReloaded.tensionHorizontal ≤ hi := by
  obtain ⟨r', b, a, -, c, d, e, f⟩ := reload_bracket hk hw hu hg h0 h1 hl hr (P := fun _ => True)
    (fun _ _ _ _ => trivial) trivial trivial
  refine ⟨r', b, a, ?_⟩
  by_cases hz : g r'.catenaryReloaded.tensionHorizontal = 0
  · exact ⟨_, _, c, d, hz.ge, hz.le, le_refl _, by norm_num, le_refl _, le_refl _⟩
  · obtain ⟨lo, hi, q1, q2, q3, q4, q5, q6, q7⟩ := e (Or.inr hz)
    refine ⟨lo, hi, q1, q2, q3.le, q4.le, q5.le, q6, ?_, ?_⟩
    · rcases q7 with q7 | q7 <;> rw [q7]
      exact q5.le
    · rcases q7 with q7 | q7 <;> rw [q7]
      exact q5.le

/-- C154 (partial): two reloaders with the same catenary, reference model and load; the reloaded model of the second
reports at least the strain of the first.  If between the least tension and twice that the catenary changes from
longer to shorter than the cable for both, the tension that the second ends with exceeds the one of the first by at
most 0.02, the resolution of the two searches.

Missing: spans without this change of sign; see `C154_reported` in `Verif/Props/ReloadAbove.lean`. -/
theorem C154_reloaded_partial {r s : CatenaryReloader} {k : Catenary3d} {w : V3} (R : k.Reachable)
    (V : k.validate.1 = true) (wx : w.x = 0) (wy : 0 ≤ w.y) (wz : 0 < w.z) (hk : r.catenary = some k)
    (hk' : s.catenary = some k) (hw : r.weight = some w) (hw' : s.weight = some w) (hu : r.isUpdated = false)
    (hu' : s.isUpdated = false) (he : s.modelReference = r.modelReference) {B : ℝ}
    (hs : Slacker B r.modelReloaded s.modelReloaded)
    (hB : (trial k w (2 * (k.spacing.magnitude / 2 * w.magnitude))).tensionAverage ≤ B) {g g' : ℝ → ℝ}
    (hg : ∀ h, k.spacing.magnitude / 2 * w.magnitude ≤ h → h ≤ 2 * (k.spacing.magnitude / 2 * w.magnitude) →
      gap k r.modelReference r.modelReloaded w h = .val (g h) ∧
      gap k r.modelReference s.modelReloaded w h = .val (g' h))
    (h1 : k.spacing.magnitude / 2 * w.magnitude ≤ 2 ^ 90)
    (hl : 0 < g (k.spacing.magnitude / 2 * w.magnitude) ∧ 0 < g' (k.spacing.magnitude / 2 * w.magnitude))
    (hr : g (2 * (k.spacing.magnitude / 2 * w.magnitude)) < 0 ∧
      g' (2 * (k.spacing.magnitude / 2 * w.magnitude)) < 0) :
    ∃ r' b s' b', r.update = .ok r' b ∧ s.update = .ok s' b' ∧
      s'.catenaryReloaded.tensionHorizontal ≤ r'.catenaryReloaded.tensionHorizontal + 0.02 := by
  obtain ⟨Rt, Vt, -, h0⟩ := trial_accepted R V wx wy wz (le_refl (k.spacing.magnitude / 2 * w.magnitude))
  obtain ⟨r', b, e1, lo, hi, a1, a2, a3, a4, a5, a6, a7, a8⟩ :=
    reload_near hk hw hu (fun h p q => (hg h p q).1) h0 h1 hl.1 hr.1
  obtain ⟨s', b', e2, lo', hi', c1, c2, c3, c4, c5, c6, c7, c8⟩ :=
    reload_near (r := s) hk' hw' hu' (fun h p q => by rw [he]; exact (hg h p q).2) h0 h1 hl.2 hr.2
  refine ⟨r', b, s', b', e1, e2, ?_⟩
  have key : lo' ≤ hi := by
    by_contra hn
    have hlt := not_le.1 hn
    have hB' : (trial k w lo').tensionAverage ≤ B := by
      rcases (c5.trans c2).lt_or_eq with q | q
      · obtain ⟨Ra, Va, -⟩ := trial_accepted R V wx wy wz c1
        obtain ⟨Rb, -⟩ := trial_accepted R V wx wy wz (c1.trans q.le)
        exact (C146_average Ra Rb Va rfl rfl q).le.trans hB
      · rw [q]; exact hB
    have := gap_slacker R V wx wy wz hs (a1.trans a5) hlt hB' (hg hi (a1.trans a5) a2).1
      (hg lo' c1 (c5.trans c2)).2
    linarith
  linarith

theorem strainThrough_seen (m : ElongationModel) (l : ℝ) :
    strainThrough (some m) l = seen (m.strain .combined l) := by
  unfold strainThrough seen
  simp only
  cases m.strain .combined l <;> rfl

/-- C154: heating makes a cable slacker in this sense, if its strain grows with the load and both components expand
alike: the models are given the same cable and stretch, and the second a state with a higher temperature.  (−999999 is
the sign of an error.) -/
theorem C154_heated (m m' : ElongationModel) (k : Cable) (ss : CableStretchState) {T T' : ℝ} (hT : T ≤ T')
    (τ : PolynomialType) (hτ : τ = ss.type ∨ ss.load = 0) (hk : k.core.expansion = k.shell.expansion)
    (hα : 0 ≤ k.core.expansion) {B : ℝ}
    (hs : Slacker B (some (givenCable m k ss ⟨T, τ⟩)) (some (givenCable m k ss ⟨T, τ⟩)))
    (hn : ∀ l, 0 ≤ l → l ≤ B → strainThrough (some (givenCable m' k ss ⟨T', τ⟩)) l ≠ .val (-999999)) :
    Slacker B (some (givenCable m k ss ⟨T, τ⟩)) (some (givenCable m' k ss ⟨T', τ⟩)) := by
  intro l l' a b h0 h1 h2 ha hb
  have hb0 : b ≠ -999999 := by
    rintro rfl
    exact hn l' (h0.trans h1) h2 hb
  rw [strainThrough_seen] at hb
  have c := C149_strain_combined m' m k ss T' T τ hτ hk l' b hb0 hb
  have := hs l l' a _ h0 h1 h2 ha (by rw [strainThrough_seen]; exact c)
  nlinarith [mul_nonneg hα (sub_nonneg.2 hT)]

/-! ## Examples -/

theorem hooke_slacker {e e' : ℝ} (he : 0 < e') (h : e' ≤ e) {B : ℝ} (hB : B < 200) :
    Slacker B (some (hookeModel e)) (some (hookeModel e')) := by
  intro l l' a b h0 h1 h2 ha hb
  rw [hooke_strain (he.trans_le h) h0 (by linarith)] at ha
  rw [hooke_strain he (h0.trans h1) (by linarith)] at hb
  cases ha
  cases hb
  exact div_le_div₀ (h0.trans h1) h1 (by positivity) (by linarith)

/-- C154_slacker applies: a cable that fits a level span with the tension 70, and a softer one that fits with 60. -/
example : ∃ e' : ℝ, 0 < e' ∧ Slacker 199 (some (hookeModel 1000000)) (some (hookeModel e')) ∧
    CableStrainer.lengthFinish ⟨(levelSpan 100 1 70).length, (levelSpan 100 1 70).tensionAverage,
      (levelSpan 100 1 70).tensionAverage, some (hookeModel 1000000), some (hookeModel 1000000)⟩ =
        .val (levelSpan 100 1 70).length ∧
    CableStrainer.lengthFinish ⟨(levelSpan 100 1 70).length, (levelSpan 100 1 60).tensionAverage,
      (levelSpan 100 1 70).tensionAverage, some (hookeModel e'), some (hookeModel 1000000)⟩ =
        .val (levelSpan 100 1 60).length ∧
    (levelSpan 100 1 60).tensionAverage ≤ 199 ∧ (levelSpan 100 1 70).validate.1 = true ∧
    (levelSpan 100 1 60).validate.1 = true := by
  obtain ⟨m1, m2⟩ := levelSpan_mono (s := 100) (w := 1) (h := 60) (h' := 70) (by norm_num) (by norm_num) (by norm_num)
    (by norm_num)
  obtain ⟨a1, a2⟩ := levelSpan_tension (s := 100) (w := 1) (h := 60) (by norm_num) (by norm_num) (by norm_num)
  obtain ⟨b1, b2⟩ := levelSpan_tension (s := 100) (w := 1) (h := 70) (by norm_num) (by norm_num) (by norm_num)
  have V7 := level_valid (s := 100) (w := 1) (h := 70) (by norm_num) (by norm_num) (by norm_num)
  have V6 := level_valid (s := 100) (w := 1) (h := 60) (by norm_num) (by norm_num) (by norm_num)
  have l7 := accepted_length (levelSpan_reachable _ _ _) V7
  set L7 := (levelSpan 100 1 70).length
  set L6 := (levelSpan 100 1 60).length
  set A7 := (levelSpan 100 1 70).tensionAverage
  set A6 := (levelSpan 100 1 60).tensionAverage
  have hA : 0 < A6 := by linarith
  have q : 0 < L6 / L7 - 1 := by rw [sub_pos, one_lt_div l7]; exact m1
  have hb0 : 0 < A7 / (2 * 1000000) + (L6 / L7 - 1) := by
    have : 0 < A7 := by linarith
    positivity
  set b := A7 / (2 * 1000000) + (L6 / L7 - 1) with hb
  have he : 0 < A6 / (2 * b) := by positivity
  have hle : A6 / (2 * b) ≤ 1000000 := by
    rw [div_le_iff₀ (by positivity)]
    have : A7 = 2 * 1000000 * (A7 / (2 * 1000000)) := by ring
    nlinarith
  refine ⟨A6 / (2 * b), he, hooke_slacker he hle (by norm_num), ?_, ?_, by linarith, V7, V6⟩
  · unfold CableStrainer.lengthFinish
    simp only
    rw [hooke_strain (by norm_num) (by linarith) (by linarith)]
    simp [CableStrainer.elongate]
  · unfold CableStrainer.lengthFinish
    simp only
    rw [hooke_strain (by norm_num) (by linarith) (by linarith), hooke_strain he (by linarith) (by linarith)]
    have e1 : A6 / (2 * (A6 / (2 * b))) = b := by field_simp
    rw [e1]
    unfold CableStrainer.elongate
    have e2 : b - A7 / (2 * 1000000) = L6 / L7 - 1 := by rw [hb]; ring
    simp only [e2]
    rw [if_neg (by linarith)]
    congr 1
    field_simp
    ring

/-- C154_reloaded_partial applies: the level span with the tension 70, reloaded with a softer cable. -/
example : ∃ e' : ℝ, 0 < e' ∧ e' < 1000000 ∧ ∃ r' b s' b', (levelReloader 1000000 100 1 70 1).update = .ok r' b ∧
    CatenaryReloader.update ⟨some (levelSpan 100 1 70), some (hookeModel 1000000), some (hookeModel e'),
      some ⟨0, 0, 1⟩, .new, .new, false⟩ = .ok s' b' ∧
    s'.catenaryReloaded.tensionHorizontal ≤ r'.catenaryReloaded.tensionHorizontal + 0.02 := by
  have hm := level_magnitudes (s := 100) (v := 1) (by norm_num) (by norm_num) 1 70
  have T : ∀ h : ℝ, 50 ≤ h → h ≤ (levelSpan 100 1 h).tensionAverage ∧
      (levelSpan 100 1 h).tensionAverage ≤ 1.6 * h := fun h hh =>
    levelSpan_tension (s := 100) (w := 1) (h := h) (by norm_num) (by norm_num) (by norm_num; linarith)
  have M : ∀ h h' : ℝ, 50 ≤ h → h < h' → (levelSpan 100 1 h').length < (levelSpan 100 1 h).length ∧
      (levelSpan 100 1 h).tensionAverage < (levelSpan 100 1 h').tensionAverage := fun h h' hh hlt =>
    levelSpan_mono (s := 100) (w := 1) (by norm_num) (by norm_num) (by norm_num; linarith) hlt
  have V7 := level_valid (s := 100) (w := 1) (h := 70) (by norm_num) (by norm_num) (by norm_num)
  have l7 := accepted_length (levelSpan_reachable _ _ _) V7
  obtain ⟨m1, m2⟩ := M 50 70 (by norm_num) (by norm_num)
  obtain ⟨n1, n2⟩ := M 70 100 (by norm_num) (by norm_num)
  obtain ⟨a1, a2⟩ := T 50 (by norm_num)
  obtain ⟨b1, b2⟩ := T 70 (by norm_num)
  obtain ⟨c1, c2⟩ := T 100 (by norm_num)
  set L7 := (levelSpan 100 1 70).length with hL7
  set A7 := (levelSpan 100 1 70).tensionAverage with hA7
  set A5 := (levelSpan 100 1 50).tensionAverage with hA5
  have p5 : 0 < A5 := by linarith
  have p7 : 0 < A7 := by linarith
  have he : 0 < 1000000 * A5 / A7 := by positivity
  have hlt : 1000000 * A5 / A7 < 1000000 := by
    rw [div_lt_iff₀ p7]; nlinarith
  refine ⟨1000000 * A5 / A7, he, hlt, ?_⟩
  set e' := 1000000 * A5 / A7 with hed
  have key := C154_reloaded_partial (r := levelReloader 1000000 100 1 70 1)
    (s := ⟨some (levelSpan 100 1 70), some (hookeModel 1000000), some (hookeModel e'), some ⟨0, 0, 1⟩, .new, .new,
      false⟩) (k := levelSpan 100 1 70) (w := ⟨0, 0, 1⟩) (levelSpan_reachable _ _ _) V7 rfl (le_refl _)
    (by norm_num) rfl rfl rfl rfl rfl rfl rfl (B := 199) (hooke_slacker he hlt.le (by norm_num))
    (g := levelGap 1000000 100 1 70 1)
    (g' := fun x => (levelSpan 100 1 x).length - CableStrainer.elongate L7 (A7 / (2 * 1000000))
      ((levelSpan 100 1 x).tensionAverage / (2 * e')))
  rw [hm, show (100:ℝ) / 2 * 1 = 50 by norm_num, show (2:ℝ) * 50 = 100 by norm_num] at key
  have E : ∀ x : ℝ, e' = 1000000 * A5 / A7 → A5 ≤ x → A7 / (2 * 1000000) ≤ x / (2 * e') := fun x h hx => by
    rw [h, div_le_div_iff₀ (by norm_num) (by positivity)]
    field_simp
    nlinarith
  refine key ?_ ?_ (by norm_num) ?_ ?_
  · show (levelSpan 100 1 100).tensionAverage ≤ 199
    linarith
  · intro h h1 h2
    refine ⟨level_gap (by norm_num) (by norm_num) (by norm_num) (by norm_num) (by norm_num) (by linarith)
      (by norm_num) (by norm_num at h2; linarith), ?_⟩
    obtain ⟨t1, t2⟩ := T h h1
    have s1 : strainThrough (some (hookeModel 1000000)) (levelSpan 100 1 70).tensionAverage =
        .val (A7 / (2 * 1000000)) := hooke_strain (by norm_num) (by linarith) (by linarith)
    have s2 : strainThrough (some (hookeModel e')) (levelSpan 100 1 h).tensionAverage =
        .val ((levelSpan 100 1 h).tensionAverage / (2 * e')) := hooke_strain he (by linarith) (by linarith)
    show gap (levelSpan 100 1 70) (some (hookeModel 1000000)) (some (hookeModel e')) ⟨0, 0, 1⟩ h = _
    unfold gap trialStrainer CableStrainer.lengthFinish
    simp only [level_trial]
    rw [s1, s2]
  · refine ⟨?_, ?_⟩
    · have := level_gap_anti (e := 1000000) (s := 100) (w := 1) (h := 70) (v := 1) (x := 50) (y := 70) (by norm_num)
        (by norm_num) (by norm_num) (by norm_num) (by norm_num) (by norm_num) (by norm_num)
      rw [level_gap_self] at this
      exact this
    · show 0 < (levelSpan 100 1 50).length - CableStrainer.elongate L7 (A7 / (2 * 1000000)) (A5 / (2 * e'))
      have e1 : A5 / (2 * e') = A7 / (2 * 1000000) := by rw [hed]; field_simp
      have e0 : CableStrainer.elongate L7 (A7 / (2 * 1000000)) (A7 / (2 * 1000000)) = L7 := by
        simp [CableStrainer.elongate]
      rw [e1, e0]
      linarith
  · refine ⟨?_, ?_⟩
    · have := level_gap_anti (e := 1000000) (s := 100) (w := 1) (h := 70) (v := 1) (x := 70) (y := 100) (by norm_num)
        (by norm_num) (by norm_num) (by norm_num) (by norm_num) (by norm_num) (by norm_num)
      rw [level_gap_self] at this
      exact this
    · show (levelSpan 100 1 100).length - CableStrainer.elongate L7 (A7 / (2 * 1000000))
        ((levelSpan 100 1 100).tensionAverage / (2 * e')) < 0
      have e0 : CableStrainer.elongate L7 (A7 / (2 * 1000000)) (A7 / (2 * 1000000)) = L7 := by
        simp [CableStrainer.elongate]
      have := elongate_le (a := A7 / (2 * 1000000)) l7 (E _ hed (by linarith : A5 ≤ (levelSpan 100 1 100).tensionAverage))
      rw [e0] at this
      linarith

theorem expanding_strain (m : ElongationModel) {l : ℝ} (h0 : 0 ≤ l) (h1 : l < 200) :
    strainThrough (some (givenCable m exExpandingCable ⟨0, .loadStrain, 0⟩ ⟨0, .loadStrain⟩)) l = .val (l / 2) := by
  have h := hooke_strain (e := 1) one_pos h0 h1
  have hp : hookePoints 1 = exPoints 0 := by unfold hookePoints exPoints; norm_num
  have e : strainThrough (some (hookeModel 1)) l =
      seen ((givenCable ElongationModel.new (hookeCable 1) ⟨0, .loadStrain, 0⟩ ⟨0, .loadStrain⟩).strain .combined l) :=
    strainThrough_seen _ _
  rw [e, seen_strain, hooke_known one_pos (by rintro ⟨⟩) rfl, hp] at h
  rw [strainThrough_seen, seen_strain, exExpanding_known]
  rw [mul_one] at h
  exact h

/-- C154_heated applies. -/
example (m m' : ElongationModel) :
    Slacker 199 (some (givenCable m exExpandingCable ⟨0, .loadStrain, 0⟩ ⟨0, .loadStrain⟩))
      (some (givenCable m' exExpandingCable ⟨0, .loadStrain, 0⟩ ⟨10, .loadStrain⟩)) := by
  refine C154_heated m m' exExpandingCable ⟨0, .loadStrain, 0⟩ (by norm_num) .loadStrain (Or.inl rfl) rfl
    (by norm_num [exExpandingCable, exExpanding]) ?_ ?_
  · intro l l' a b h0 h1 h2 ha hb
    rw [expanding_strain m h0 (by linarith)] at ha
    rw [expanding_strain m (h0.trans h1) (by linarith)] at hb
    cases ha
    cases hb
    linarith
  · intro l h0 h1 h
    have c := C149_strain_combined m m' exExpandingCable ⟨0, .loadStrain, 0⟩ 0 10 .loadStrain (Or.inl rfl) rfl l (l / 2)
      (by linarith) (by rw [← strainThrough_seen]; exact expanding_strain m h0 (by linarith))
    rw [strainThrough_seen, c] at h
    have := Res.val.inj h
    norm_num [exExpandingCable, exExpanding] at this
    linarith

end Verif.Props
