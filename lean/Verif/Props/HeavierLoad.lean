import Verif.Props.ReloadAbove

/-!
# C157: a heavier load makes the cable sag more and never slackens it

Between the same supports, with the length of the cable given by its strain under the average tension.
-/

set_option linter.unusedSectionVars false

namespace Verif.Props

open Catenary3d

/-- `sinh t / t` grows. -/
theorem sinh_ratio {s t : ℝ} (hs : 0 ≤ s) (h : s ≤ t) : t * Real.sinh s ≤ s * Real.sinh t := by
  have a := sinh_tangent hs (hs.trans h)
  have b := sinh_tangent hs (le_refl (0:ℝ))
  rw [Real.sinh_zero] at b
  nlinarith

/-- `t coth t` grows. -/
theorem coth_ratio {x y : ℝ} (hx : 0 < x) (h : x ≤ y) :
    x * (Real.cosh x / Real.sinh x) ≤ y * (Real.cosh y / Real.sinh y) := by
  have sx := Real.sinh_pos_iff.2 hx
  have sy := Real.sinh_pos_iff.2 (hx.trans_le h)
  rw [← mul_div_assoc, ← mul_div_assoc, div_le_div_iff₀ sx sy]
  have key := sinh_ratio (s := y - x) (t := y + x) (by linarith) (by linarith)
  rw [Real.sinh_sub, Real.sinh_add] at key
  nlinarith

theorem coth_ratio_ge {x : ℝ} (hx : 0 < x) : 1 ≤ x * (Real.cosh x / Real.sinh x) := by
  have sx := Real.sinh_pos_iff.2 hx
  rw [← mul_div_assoc, le_div_iff₀ sx, one_mul]
  have b := sinh_tangent hx.le (le_refl (0:ℝ))
  rw [Real.sinh_zero] at b
  linarith

/-- The average tension of an accepted catenary in terms of its length. -/
theorem average_length {k c : Catenary3d} (S : k.Span) (F : Fam k c)
    (hc : k.spacing.magnitude / 2 * k.weightUnit.magnitude ≤ c.tensionHorizontal) :
    ∃ p : ℝ, p = k.spacing2d.x * k.weightUnit.magnitude / (2 * c.tensionHorizontal) *
        (Real.cosh (k.spacing2d.x * k.weightUnit.magnitude / (2 * c.tensionHorizontal)) /
          Real.sinh (k.spacing2d.x * k.weightUnit.magnitude / (2 * c.tensionHorizontal))) ∧
      c.tensionAverage = c.tensionHorizontal / (2 * k.spacing2d.x) *
        (p * c.length + (p * k.spacing2d.y ^ 2 + k.spacing2d.x ^ 2) / c.length) ∧
      k.spacing2d.x ^ 2 + k.spacing2d.y ^ 2 ≤ c.length ^ 2 ∧ 0 < c.length := by
  obtain ⟨h0, c0, z0, z1⟩ := S.ratio hc
  have hw := S.w_pos
  have ha := S.s2_pos
  have P : c.Physical := ⟨h0, F.2.1 ▸ S.sx, F.2.1 ▸ S.sy, F.2.2 ▸ S.wx, F.2.2 ▸ S.wy, F.2.2 ▸ S.wz⟩
  have eL : c.length = k.lengthFn c.tensionHorizontal :=
    (own_tension F.1 .length).trans (length_fam S F h0)
  have e0 : c.tension 0 = _ := (own_tension F.1 (.tension 0)).trans (support_fam S F h0).1
  have e1 : c.tension 1 = _ := (own_tension F.1 (.tension 1)).trans (support_fam S F h0).2
  have hz : k.spacing2d.x * k.weightUnit.magnitude / (2 * c.tensionHorizontal) =
      k.spacing2d.x / 2 / (c.tensionHorizontal / k.weightUnit.magnitude) := by field_simp
  have sz := Real.sinh_pos_iff.2 z0
  refine ⟨_, rfl, ?_⟩
  rw [average_span F.1 P, F.spacing2d, e0, e1, hz]
  set h := c.tensionHorizontal
  set w := k.weightUnit.magnitude
  set a := k.spacing2d.x with hadef
  set v := k.spacing2d.y
  set z := a / 2 / (h / w) with hzd
  have hza : a = 2 * (h / w) * z := by rw [hzd]; field_simp
  have L2 : c.length ^ 2 = v ^ 2 + (2 * (h / w * Real.sinh z)) ^ 2 := by
    rw [eL]; unfold lengthFn; exact Real.sq_sqrt (by positivity)
  have hL : 0 < c.length := by
    rw [eL]; unfold lengthFn
    exact Real.sqrt_pos.2 (by positivity)
  have hm : k.tensionMean h = w / 2 * (Real.cosh z / Real.sinh z) * c.length := by
    rw [eL]
    show w / 2 * √((|v| * (Real.cosh z / Real.sinh z)) ^ 2 + (2 * (h / w * Real.cosh z)) ^ 2) =
      w / 2 * (Real.cosh z / Real.sinh z) * √(v ^ 2 + (2 * (h / w * Real.sinh z)) ^ 2)
    clear_value z a v h w
    rw [mul_assoc]
    congr 1
    have hcz : 0 < Real.cosh z / Real.sinh z := div_pos (Real.cosh_pos _) sz
    rw [← Real.sqrt_sq hcz.le, ← Real.sqrt_mul (by positivity)]
    congr 1
    rw [Real.sqrt_sq hcz.le, mul_pow, sq_abs]
    field_simp
  refine ⟨?_, ?_, hL⟩
  · have hw2 : w / 2 = h * z / a := by rw [hza]; field_simp
    have : k.tensionMean h - w * v / 2 + (k.tensionMean h + w * v / 2) =
        2 * (h * z / a * (Real.cosh z / Real.sinh z) * c.length) := by rw [hm, hw2]; ring
    rw [this]
    field_simp
    ring
  · rw [L2]
    have : a ≤ 2 * (h / w * Real.sinh z) := by
      have := Real.self_le_sinh_iff.2 z0.le
      rw [hza, mul_assoc]
      have c0 : 0 < h / w := by positivity
      nlinarith
    nlinarith

/-- The average tension grows by a smaller factor than the horizontal tension. -/
theorem average_rate {k k' : Catenary3d} (R : k.Reachable) (R' : k'.Reachable) (V : k.validate.1 = true)
    (s : k'.spacing = k.spacing) (w : k'.weightUnit = k.weightUnit)
    (h : k.tensionHorizontal ≤ k'.tensionHorizontal) :
    k'.tensionAverage / k'.tensionHorizontal ≤ k.tensionAverage / k.tensionHorizontal := by
  obtain ⟨S, hk⟩ := accepted_span R V
  have h0 := (S.ratio hk).1
  have hw := S.w_pos
  have ha := S.s2_pos
  obtain ⟨p, hp, e, -, hL⟩ := average_length S ⟨R, rfl, rfl⟩ hk
  obtain ⟨p', hp', e', hq, hL'⟩ := average_length S ⟨R', s, w⟩ (hk.trans h)
  have h0' := h0.trans_le h
  have hpp : p' ≤ p := by
    rw [hp, hp']
    exact coth_ratio (by positivity) (div_le_div_of_nonneg_left (by positivity) (by positivity) (by linarith))
  have hp1 : 1 ≤ p' := by rw [hp']; exact coth_ratio_ge (by positivity)
  have hLL : k'.length ≤ k.length := by
    rcases h.lt_or_eq with h | h
    · exact (C146_tighter R R' V s w h).1.le
    · have E : k.length = (k.setTension k.tensionHorizontal).length := own_tension R .length
      have E' : k'.length = (k'.setTension k'.tensionHorizontal).length := own_tension R' .length
      rw [E, E', ← h, length_fam S ⟨R, rfl, rfl⟩ h0, length_fam S ⟨R', s, w⟩ h0]
  rw [e, e']
  set a := k.spacing2d.x
  set v := k.spacing2d.y
  have f : ∀ t x y : ℝ, t ≠ 0 → t / (2 * a) * x / t = x / (2 * a) := fun t x _ ht => by field_simp
  rw [f _ _ 0 h0.ne', f _ _ 0 h0'.ne']
  apply div_le_div_of_nonneg_right _ (by positivity)
  have q1 : p' * k'.length + (p' * v ^ 2 + a ^ 2) / k'.length ≤ p * k'.length + (p * v ^ 2 + a ^ 2) / k'.length := by
    gcongr
  refine q1.trans ?_
  have q2 : (p * v ^ 2 + a ^ 2) / k'.length - (p * v ^ 2 + a ^ 2) / k.length =
      (p * v ^ 2 + a ^ 2) / (k'.length * k.length) * (k.length - k'.length) := by field_simp
  have q3 : (p * v ^ 2 + a ^ 2) / (k'.length * k.length) ≤ p := by
    rw [div_le_iff₀ (by positivity)]
    have : k'.length ^ 2 ≤ k'.length * k.length := by nlinarith
    nlinarith [sq_nonneg a, sq_nonneg v]
  nlinarith [mul_le_mul_of_nonneg_right q3 (sub_nonneg.2 hLL)]

/-- Two catenaries with the same supports, load and tension. -/
theorem same_average {k k' : Catenary3d} (R : k.Reachable) (R' : k'.Reachable) (V : k.validate.1 = true)
    (s : k'.spacing = k.spacing) (w : k'.weightUnit = k.weightUnit)
    (h : k'.tensionHorizontal = k.tensionHorizontal) : k'.tensionAverage = k.tensionAverage := by
  obtain ⟨S, hk⟩ := accepted_span R V
  have h0 := (S.ratio hk).1
  obtain ⟨p, hp, e, -⟩ := average_length S ⟨R, rfl, rfl⟩ hk
  obtain ⟨p', hp', e', -⟩ := average_length S ⟨R', s, w⟩ (h ▸ hk)
  have E : k.length = (k.setTension k.tensionHorizontal).length := own_tension R .length
  have E' : k'.length = (k'.setTension k'.tensionHorizontal).length := own_tension R' .length
  rw [length_fam S ⟨R, rfl, rfl⟩ h0] at E
  rw [h, length_fam S ⟨R', s, w⟩ h0] at E'
  rw [e, e', hp, hp', h, E, E']

/-- The same shape under another load. -/
theorem same_shape {c : Catenary3d} (R : c.Reachable) (V : c.validate.1 = true) {f : ℝ} (hf : 0 < f) :
    ∃ d : Catenary3d, d.Reachable ∧ d.validate.1 = true ∧ d.spacing = c.spacing ∧
      d.weightUnit = c.weightUnit.scale f ∧ d.tensionHorizontal = c.tensionHorizontal * f ∧ d.length = c.length ∧
      d.sag = c.sag ∧ d.tensionAverage = c.tensionAverage * f ∧ d.tensionMax = c.tensionMax * f := by
  have Rd : ((c.setTension (c.tensionHorizontal * f)).setWeight (c.weightUnit.scale f)).Reachable :=
    (R.step (.setTension _)).step (.setWeight _)
  set d := (c.setTension (c.tensionHorizontal * f)).setWeight (c.weightUnit.scale f) with hd
  have O : OtherUnits 1 f c d := by
    refine ⟨rfl, ?_, rfl, ?_⟩
    · show c.spacing = c.spacing.scale 1; ext <;> simp [V3.scale]
    · rw [div_one]; rfl
  have Vd : d.validate.1 = true := by
    rw [(C54_validate_3d Rd).1]
    obtain ⟨h0, sx, sy, sz, wx, wy, wz, hm⟩ := (C54_validate_3d R).1.1 V
    refine ⟨mul_pos h0 hf, sx, sy, sz, ?_, mul_nonneg wy hf.le, mul_pos wz hf, ?_⟩
    · show c.weightUnit.x * f = 0
      rw [wx, zero_mul]
    · show c.spacing.magnitude / 2 ≤ c.tensionHorizontal * f / (c.weightUnit.scale f).magnitude
      rw [V3.magnitude_scale _ hf.le, mul_div_mul_right _ _ hf.ne']
      exact hm
  obtain ⟨-, u1, -, u3, -, -, -, -, -, -, -, -, -, -, -, u4, u5⟩ := C139_same_span one_pos hf R Rd O
  exact ⟨d, Rd, Vd, rfl, rfl, rfl, by rw [u1, mul_one], by rw [u3, mul_one], u4 _ (by norm_num), u5⟩

/-- C157: with the same horizontal tension and a load that is `f ≥ 1` times as heavy, the average tension is not
smaller and the cable is not shorter. -/
theorem C157_average {k k' : Catenary3d} (R : k.Reachable) (R' : k'.Reachable) (V : k.validate.1 = true)
    (V' : k'.validate.1 = true) (s : k'.spacing = k.spacing) {f : ℝ} (hf : 1 ≤ f)
    (w : k'.weightUnit = k.weightUnit.scale f) (h : k'.tensionHorizontal = k.tensionHorizontal) :
    k.tensionAverage ≤ k'.tensionAverage ∧ k.length ≤ k'.length := by
  have f0 : 0 < f := by linarith
  obtain ⟨S, hk⟩ := accepted_span R V
  have h0 := (S.ratio hk).1
  set g := k.setTension (k.tensionHorizontal / f) with hg
  have Rg : g.Reachable := R.step (.setTension _)
  have Vg : g.validate.1 = true := by
    rw [(C54_validate_3d Rg).1]
    obtain ⟨-, sx, sy, sz, wx, wy, wz, -⟩ := (C54_validate_3d R).1.1 V
    obtain ⟨-, -, -, -, -, -, -, hm'⟩ := (C54_validate_3d R').1.1 V'
    refine ⟨div_pos h0 f0, sx, sy, sz, wx, wy, wz, ?_⟩
    show k.spacing.magnitude / 2 ≤ k.tensionHorizontal / f / k.weightUnit.magnitude
    rw [s, h, w, V3.magnitude_scale _ f0.le] at hm'
    rw [div_div, mul_comm f]
    exact hm'
  have hgk : g.tensionHorizontal ≤ k.tensionHorizontal := div_le_self h0.le hf
  obtain ⟨d, Rd, Vd, ds, dw, dh, dl, -, da, -⟩ := same_shape Rg Vg f0
  have dh' : d.tensionHorizontal = k.tensionHorizontal := by
    rw [dh]; show k.tensionHorizontal / f * f = _; field_simp
  have e := same_average Rd R' Vd (s.trans ds.symm) (w.trans dw.symm) (h.trans dh'.symm)
  have l := (no_tighter Rd R' Vd V' (s.trans ds.symm) (w.trans dw.symm) (h.trans dh'.symm).le).2.2.1
  have r := average_rate Rg R Vg rfl rfl hgk
  have l' := (no_tighter R Rg V Vg rfl rfl hgk).2.2.1
  refine ⟨?_, by linarith⟩
  rw [e, da]
  have : g.tensionHorizontal = k.tensionHorizontal / f := rfl
  rw [this, div_le_div_iff₀ h0 (by positivity)] at r
  have r2 : k.tensionAverage * (k.tensionHorizontal / f) * (f / k.tensionHorizontal) ≤
      g.tensionAverage * k.tensionHorizontal * (f / k.tensionHorizontal) :=
    mul_le_mul_of_nonneg_right r (by positivity)
  have e1 : k.tensionAverage * (k.tensionHorizontal / f) * (f / k.tensionHorizontal) = k.tensionAverage := by field_simp
  have e2 : g.tensionAverage * k.tensionHorizontal * (f / k.tensionHorizontal) = g.tensionAverage * f := by field_simp
  linarith

/-- The strains of a cable that fits. -/
theorem fit_parts {L A A' : ℝ} {m ref : Option ElongationModel} {l : ℝ}
    (h : CableStrainer.lengthFinish ⟨L, A, A', m, ref⟩ = .val l) :
    ∃ a b, strainThrough ref A' = .val a ∧ strainThrough m A = .val b ∧ l = CableStrainer.elongate L a b := by
  unfold CableStrainer.lengthFinish at h
  simp only at h
  cases h1 : strainThrough ref A' with
  | throws => rw [h1] at h; cases h
  | ub => rw [h1] at h; cases h
  | val a =>
    rw [h1] at h
    cases h2 : strainThrough m A with
    | throws => rw [h2] at h; cases h
    | ub => rw [h2] at h; cases h
    | val b =>
      rw [h2] at h
      exact ⟨a, b, rfl, rfl, (Res.val.inj h).symm⟩

/-- **C157**: a cable is cut to fit the catenary `k`, and `c` and `c'` hang over the same span, each exactly as long as
the cable, `c'` under a load that is `f ≥ 1` times as heavy.  If the strain of the cable does not fall with its tension
(`B` bounds the tensions), then `c'` is not flatter than `c`: its horizontal tension is at most `f` times as large, its
length and its sag are not smaller; and its average tension is not smaller. -/
theorem C157_heavier {k c c' : Catenary3d} (R : k.Reachable) (V : k.validate.1 = true) (Rc : c.Reachable)
    (Rc' : c'.Reachable) (Vc : c.validate.1 = true) (Vc' : c'.validate.1 = true) (s : c'.spacing = c.spacing)
    {f : ℝ} (hf : 1 ≤ f) (w : c'.weightUnit = c.weightUnit.scale f) {ref m : Option ElongationModel} {B : ℝ}
    (hs : Slacker B m m) (hB : c.tensionAverage ≤ B) (hB' : c'.tensionAverage ≤ B)
    (h : CableStrainer.lengthFinish ⟨k.length, c.tensionAverage, k.tensionAverage, m, ref⟩ = .val c.length)
    (h' : CableStrainer.lengthFinish ⟨k.length, c'.tensionAverage, k.tensionAverage, m, ref⟩ = .val c'.length) :
    c'.tensionHorizontal ≤ f * c.tensionHorizontal ∧ c.length ≤ c'.length ∧ c.sag ≤ c'.sag ∧
      c.tensionAverage ≤ c'.tensionAverage ∧ c'.tensionMax ≤ f * c.tensionMax := by
  have f0 : 0 < f := by linarith
  obtain ⟨a, b, e1, e2, e3⟩ := fit_parts h
  obtain ⟨a', b', e1', e2', e3'⟩ := fit_parts h'
  obtain rfl : a = a' := Res.val.inj (e1.symm.trans e1')
  have hl := accepted_length R V
  have t0 := accepted_average Rc Vc
  have t0' := accepted_average Rc' Vc'
  obtain ⟨d, Rd, Vd, ds, dw, dh, dl, dsag, da, dm⟩ := same_shape Rc Vc f0
  have key : c'.tensionHorizontal ≤ d.tensionHorizontal := by
    by_contra hn
    have hlt := not_le.1 hn
    have t := C146_average Rd Rc' Vd (s.trans ds.symm) (w.trans dw.symm) hlt
    have u := (C146_tighter Rd Rc' Vd (s.trans ds.symm) (w.trans dw.symm) hlt).1
    have : c.tensionAverage ≤ c'.tensionAverage := by
      rw [da] at t
      nlinarith
    have v := elongate_le (a := a) hl (hs _ _ _ _ t0.le this hB' e2 e2')
    linarith
  obtain ⟨q1, q2, q3, q4⟩ := no_tighter Rd Rc' Vd Vc' (s.trans ds.symm) (w.trans dw.symm) key
  refine ⟨by rw [mul_comm, ← dh]; exact q1, by rw [← dl]; exact q3, by rw [← dsag]; exact q4, ?_,
    by rw [mul_comm, ← dm]; exact q2⟩
  by_contra hn
  have hlt := not_le.1 hn
  have v := elongate_le (a := a) hl (hs _ _ _ _ t0'.le hlt.le hB e2' e2)
  -- the length cannot have grown
  rcases lt_or_ge c'.tensionHorizontal c.tensionHorizontal with q | q
  · -- the heavier load at the tension of the lighter one
    have Rg : (c'.setTension c.tensionHorizontal).Reachable := Rc'.step (.setTension _)
    have Vg : (c'.setTension c.tensionHorizontal).validate.1 = true := by
      rw [(C54_validate_3d Rg).1]
      obtain ⟨g0, sx, sy, sz, wx, wy, wz, hm⟩ := (C54_validate_3d Rc').1.1 Vc'
      refine ⟨g0.trans q, sx, sy, sz, wx, wy, wz, hm.trans ?_⟩
      exact div_le_div_of_nonneg_right q.le (V3.magnitude_nonneg _)
    have u := (C146_tighter Rc' Rg Vc' rfl rfl q).1
    have u' := (C157_average Rc Rg Vc Vg s hf w rfl).2
    linarith
  · -- the lighter load at the tension of the heavier one
    have Rg : (c.setTension c'.tensionHorizontal).Reachable := Rc.step (.setTension _)
    have Vg : (c.setTension c'.tensionHorizontal).validate.1 = true := by
      rw [(C54_validate_3d Rg).1]
      obtain ⟨g0, sx, sy, sz, wx, wy, wz, hm⟩ := (C54_validate_3d Rc).1.1 Vc
      refine ⟨g0.trans_le q, sx, sy, sz, wx, wy, wz, hm.trans ?_⟩
      exact div_le_div_of_nonneg_right q (V3.magnitude_nonneg _)
    have u := (C157_average Rg Rc' Vg Vc' s hf w rfl).1
    rcases q.lt_or_eq with q | q
    · have := C146_average Rc Rg Vc rfl rfl q
      linarith
    · have := same_average Rc Rg Vc rfl rfl q.symm
      linarith

/-- Under the heavier load a tension that is as many times larger leaves no more room. -/
theorem gap_heavier {k : Catenary3d} (R : k.Reachable) (V : k.validate.1 = true) {w : V3} (wx : w.x = 0)
    (wy : 0 ≤ w.y) (wz : 0 < w.z) {f : ℝ} (hf : 1 ≤ f) {ref m : Option ElongationModel} {B : ℝ} (hs : Slacker B m m)
    {h y y' : ℝ} (hh : k.spacing.magnitude / 2 * w.magnitude ≤ h)
    (hB : (CatenaryReloader.trial k (w.scale f) (h * f)).tensionAverage ≤ B)
    (hy : CatenaryReloader.gap k ref m w h = .val y)
    (hy' : CatenaryReloader.gap k ref m (w.scale f) (h * f) = .val y') : y' ≤ y := by
  have f0 : 0 < f := by linarith
  obtain ⟨a, b, e1, e2, e3⟩ := gap_parts hy
  obtain ⟨a', b', e1', e2', e3'⟩ := gap_parts hy'
  obtain rfl : a = a' := Res.val.inj (e1.symm.trans e1')
  obtain ⟨Rt, Vt, -⟩ := trial_accepted R V wx wy wz hh
  have Rt' : (CatenaryReloader.trial k (w.scale f) (h * f)).Reachable :=
    ⟨[.setSpacing k.spacing, .setTension (h * f), .setWeight (w.scale f)], rfl⟩
  have O : OtherUnits 1 f (CatenaryReloader.trial k w h) (CatenaryReloader.trial k (w.scale f) (h * f)) := by
    refine ⟨rfl, ?_, rfl, ?_⟩
    · show k.spacing = k.spacing.scale 1; ext <;> simp [V3.scale]
    · rw [div_one]; rfl
  obtain ⟨-, u1, -, -, -, -, -, -, -, -, -, -, -, -, -, u4, -⟩ := C139_same_span one_pos f0 Rt Rt' O
  have u5 := u4 0 (by norm_num)
  have t0 := accepted_average Rt Vt
  have t : (CatenaryReloader.trial k w h).tensionAverage ≤
      (CatenaryReloader.trial k (w.scale f) (h * f)).tensionAverage := by
    rw [u5]
    exact le_mul_of_one_le_right t0.le hf
  have v := elongate_le (a := a) (accepted_length R V) (hs _ _ _ _ t0.le t hB e2 e2')
  rw [e3, e3', u1]
  linarith

/-- C157: a cable would fit exactly at the tension `x` under the load `w`.  A reloader with a load that is `f ≥ 1` times
as heavy never reports a tension that exceeds `f` times `x` by more than 0.01, if the strain of the cable grows with the
tension and the catenary is the longer one at the least tension: the reported catenary is no flatter, up to that
resolution. -/
theorem C157_reported {s : CatenaryReloader} {k : Catenary3d} {w : V3} (R : k.Reachable) (V : k.validate.1 = true)
    (wx : w.x = 0) (wy : 0 ≤ w.y) (wz : 0 < w.z) {f : ℝ} (hf : 1 ≤ f) (hk : s.catenary = some k)
    (hw : s.weight = some (w.scale f)) (hu : s.isUpdated = false) {x : ℝ}
    (hx : k.spacing.magnitude / 2 * w.magnitude ≤ x)
    (hm : CatenaryReloader.gap k s.modelReference s.modelReloaded w x = .val 0)
    (hn : ∀ B, Slacker B s.modelReloaded s.modelReloaded) {g : ℝ → ℝ}
    (hg : ∀ h, k.spacing.magnitude / 2 * (w.scale f).magnitude ≤ h →
      CatenaryReloader.gap k s.modelReference s.modelReloaded (w.scale f) h = .val (g h))
    (h1 : 0.01 < k.spacing.magnitude / 2 * (w.scale f).magnitude)
    (pl : 0 < g (k.spacing.magnitude / 2 * (w.scale f).magnitude)) :
    ∃ s' b, s.update = .ok s' b ∧ (b = true → s'.catenaryReloaded.tensionHorizontal ≤ f * x + 0.01) := by
  have f0 : 0 < f := by linarith
  have wx' : (w.scale f).x = 0 := by show w.x * f = 0; rw [wx, zero_mul]
  have wy' : 0 ≤ (w.scale f).y := mul_nonneg wy f0.le
  have wz' : 0 < (w.scale f).z := mul_pos wz f0
  have ha : ∀ h h', k.spacing.magnitude / 2 * (w.scale f).magnitude ≤ h → h < h' → g h' < g h := fun h h' p q =>
    gap_slacker R V wx' wy' wz' (hn _) p q (le_refl _) (hg h p) (hg h' (p.trans q.le))
  obtain ⟨s', b, e, -, q⟩ := reload_climbing hk hw hu hg ha h1 pl
  refine ⟨s', b, e, fun hb => ?_⟩
  obtain ⟨-, lo, c1, c2, c3, c4⟩ := q hb
  have hfx : k.spacing.magnitude / 2 * (w.scale f).magnitude ≤ x * f := by
    rw [V3.magnitude_scale _ f0.le, ← mul_assoc]
    exact mul_le_mul_of_nonneg_right hx f0.le
  have hz := gap_heavier R V wx wy wz hf (hn _) hx (le_refl _) hm (hg _ hfx)
  have : lo ≤ f * x := by
    by_contra hlt
    have := ha _ _ hfx (by linarith [not_le.1 hlt] : x * f < lo)
    linarith
  linarith

/-! ## Examples -/

/-- C157_heavier applies: a cable that fits a level span under the load 1 with the tension 70 and under the load 1.4
with the tension 75. -/
example : ∃ e : ℝ, 0 < e ∧ Slacker 199 (some (hookeModel e)) (some (hookeModel e)) ∧
    CableStrainer.lengthFinish ⟨(levelSpan 100 1 70).length, (levelSpan 100 1 70).tensionAverage,
      (levelSpan 100 1 70).tensionAverage, some (hookeModel e), some (hookeModel e)⟩ =
        .val (levelSpan 100 1 70).length ∧
    CableStrainer.lengthFinish ⟨(levelSpan 100 1 70).length, (levelSpan 100 1.4 75).tensionAverage,
      (levelSpan 100 1 70).tensionAverage, some (hookeModel e), some (hookeModel e)⟩ =
        .val (levelSpan 100 1.4 75).length ∧
    (levelSpan 100 1 70).tensionAverage ≤ 199 ∧ (levelSpan 100 1.4 75).tensionAverage ≤ 199 ∧
    (levelSpan 100 1 70).validate.1 = true ∧ (levelSpan 100 1.4 75).validate.1 = true ∧
    (levelSpan 100 1.4 75).weightUnit = (levelSpan 100 1 70).weightUnit.scale 1.4 := by
  have wt : ∀ a b, (levelSpan 100 1.4 a).weightUnit = (levelSpan 100 1 b).weightUnit.scale 1.4 := fun a b => by
    show (V3.mk 0 0 1.4) = (V3.mk 0 0 1).scale 1.4
    ext <;> simp [V3.scale]
  have V1 := level_valid (s := 100) (w := 1) (h := 70) (by norm_num) (by norm_num) (by norm_num)
  have V2 := level_valid (s := 100) (w := 1) (h := 75) (by norm_num) (by norm_num) (by norm_num)
  have V3 := level_valid (s := 100) (w := 1.4) (h := 75) (by norm_num) (by norm_num) (by norm_num)
  obtain ⟨a1, a2⟩ := levelSpan_tension (s := 100) (w := 1) (h := 70) (by norm_num) (by norm_num) (by norm_num)
  obtain ⟨b1, b2⟩ := levelSpan_tension (s := 100) (w := 1.4) (h := 75) (by norm_num) (by norm_num) (by norm_num)
  obtain ⟨-, m2⟩ := levelSpan_mono (s := 100) (w := 1) (h := 70) (h' := 75) (by norm_num) (by norm_num) (by norm_num)
    (by norm_num)
  have m3 := (C157_average (levelSpan_reachable _ _ _) (levelSpan_reachable _ _ _) V2 V3 rfl (by norm_num) (wt _ _)
    rfl).1
  obtain ⟨m1, -⟩ := levelSpan_mono (s := 100) (w := 1.4) (h := 75) (h' := 98) (by norm_num) (by norm_num) (by norm_num)
    (by norm_num)
  have l1 := accepted_length (levelSpan_reachable _ _ _) V1
  have m4 : (levelSpan 100 1.4 98).length = (levelSpan 100 1 70).length := by
    rw [(levelSpan_facts (by norm_num) (by norm_num) (by norm_num)).1,
      (levelSpan_facts (by norm_num) (by norm_num) (by norm_num)).1]
    norm_num
  rw [m4] at m1
  have A0 : (levelSpan 100 1 70).tensionAverage < (levelSpan 100 1.4 75).tensionAverage := by linarith
  set L := (levelSpan 100 1 70).length
  set L' := (levelSpan 100 1.4 75).length
  set A := (levelSpan 100 1 70).tensionAverage
  set A' := (levelSpan 100 1.4 75).tensionAverage
  have q : 0 < L' / L - 1 := by rw [sub_pos, one_lt_div l1]; exact m1
  have hA : 0 < A' - A := by linarith
  have he : 0 < (A' - A) / (2 * (L' / L - 1)) := by positivity
  refine ⟨(A' - A) / (2 * (L' / L - 1)), he, hooke_slacker he (le_refl _) (by norm_num), ?_, ?_, by linarith, by linarith,
    V1, V3, wt _ _⟩
  · unfold CableStrainer.lengthFinish
    simp only
    rw [hooke_strain he (by linarith) (by linarith)]
    simp [CableStrainer.elongate]
  · unfold CableStrainer.lengthFinish
    simp only
    rw [hooke_strain he (by linarith) (by linarith), hooke_strain he (by linarith) (by linarith)]
    have e2 : A' / (2 * ((A' - A) / (2 * (L' / L - 1)))) - A / (2 * ((A' - A) / (2 * (L' / L - 1)))) = L' / L - 1 := by
      rw [← sub_div]
      generalize A' - A = t at *
      generalize L' / L - 1 = u at *
      field_simp
    unfold CableStrainer.elongate
    simp only [e2]
    rw [if_neg (by linarith)]
    congr 1
    field_simp
    ring

/-- C157_reported applies: a span of 100 with the tension 300 under the load 1, reloaded with the load 1.4. -/
example : ∃ s' b, CatenaryReloader.update ⟨some (levelSpan 100 1 300), some (hookeModel 1000000),
      some (hookeModel 1000000), some ((V3.mk 0 0 1).scale 1.4), .new, .new, false⟩ = .ok s' b ∧
    (b = true → s'.catenaryReloaded.tensionHorizontal ≤ 1.4 * 300 + 0.01) := by
  have hsc : (V3.mk 0 0 1).scale 1.4 = V3.mk 0 0 1.4 := by ext <;> simp [V3.scale]
  have hm := level_magnitudes (s := 100) (v := 1) (by norm_num) (by norm_num) 1 300
  have hm' := level_magnitudes (s := 100) (v := 1.4) (by norm_num) (by norm_num) 1 300
  have V := level_valid (s := 100) (w := 1) (h := 300) (by norm_num) (by norm_num) (by norm_num)
  obtain ⟨a1, a2⟩ := levelSpan_tension (s := 100) (w := 1) (h := 300) (by norm_num) (by norm_num) (by norm_num)
  refine C157_reported (k := levelSpan 100 1 300) (w := ⟨0, 0, 1⟩) (levelSpan_reachable _ _ _) V rfl (le_refl _)
    (by norm_num) (by norm_num) rfl rfl rfl (by rw [hm]; norm_num) ?_ (hooke_slacker_all (by norm_num) (le_refl _))
    (g := levelGap 1000000 100 1 300 1.4) ?_ (by rw [hsc, hm']; norm_num) ?_
  · rw [soft_gap (by norm_num) (by norm_num) (by norm_num) (by norm_num) (by norm_num) (by norm_num)]
    unfold softGap CableStrainer.elongate
    simp
  · intro h hh
    rw [hsc, hm'] at hh
    rw [hsc]
    obtain ⟨b1, -⟩ := levelSpan_tension (s := 100) (w := 1.4) (h := h) (by norm_num) (by norm_num) hh
    show CatenaryReloader.gap (levelSpan 100 1 300) (some (hookeModel 1000000)) (some (hookeModel 1000000)) _ h = _
    unfold CatenaryReloader.gap CatenaryReloader.trialStrainer CableStrainer.lengthFinish
    simp only [level_trial]
    rw [hooke_strain_all (by norm_num) (by linarith), hooke_strain_all (by norm_num) (by linarith)]
    rfl
  · rw [hsc, hm']
    obtain ⟨b1, b2⟩ := levelSpan_tension (s := 100) (w := 1.4) (h := 100 / 2 * 1.4) (by norm_num) (by norm_num)
      (le_refl _)
    have m1 := (levelSpan_mono (s := 100) (w := 1.4) (h := 100 / 2 * 1.4) (h' := 420) (by norm_num) (by norm_num)
      (le_refl _) (by norm_num)).1
    have m4 : (levelSpan 100 1.4 420).length = (levelSpan 100 1 300).length := by
      rw [(levelSpan_facts (by norm_num) (by norm_num) (by norm_num)).1,
        (levelSpan_facts (by norm_num) (by norm_num) (by norm_num)).1]
      norm_num
    have t := elongate_le (a := (levelSpan 100 1 300).tensionAverage / (2 * 1000000))
      (accepted_length (levelSpan_reachable _ _ _) V)
      (show (levelSpan 100 1.4 (100 / 2 * 1.4)).tensionAverage / (2 * 1000000) ≤
        (levelSpan 100 1 300).tensionAverage / (2 * 1000000) by linarith)
    have e0 : CableStrainer.elongate (levelSpan 100 1 300).length ((levelSpan 100 1 300).tensionAverage / (2 * 1000000))
        ((levelSpan 100 1 300).tensionAverage / (2 * 1000000)) = (levelSpan 100 1 300).length := by
      simp [CableStrainer.elongate]
    rw [e0] at t
    unfold levelGap
    linarith

end Verif.Props
