import Verif.Props.StrainFound

/-! # Carrying a stretch over to the other polynomial (C166) -/

set_option linter.unusedSectionVars false

namespace Verif.Props
open ElongationModel ComponentModel CableComponent

/-! ## The search as a search for a load -/

/-- The search for the stretch is a search for the strain at which the difference, turned around, is zero. -/
noncomputable abbrev asStrain (s : CableComponent.StretchSearch) : StrainSearch :=
  ⟨⟨s.left.x, -s.left.y⟩, ⟨s.right.x, -s.right.y⟩, ⟨s.current.x, -s.current.y⟩, s.iter⟩

/-- The points lie on the curve. -/
structure OnCurve (f : ℝ → ℝ) (s : StrainSearch) : Prop where
  lt : s.left.x < s.right.x
  left : s.left.y = f s.left.x
  right : s.right.y = f s.right.x

theorem steep {f : ℝ → ℝ} {m M : ℝ} (hm : 0 < m) (F : ∀ a, SlopesIn f a m M) {s : StrainSearch} (O : OnCurve f s) :
    ∃ sl, sl = (s.right.y - s.left.y) / (s.right.x - s.left.x) ∧ m ≤ sl ∧ sl ≤ M ∧
      sl * (s.right.x - s.left.x) = s.right.y - s.left.y := by
  have hd : 0 < s.right.x - s.left.x := sub_pos.2 O.lt
  obtain ⟨b1, b2⟩ := F _ _ _ (le_refl _) O.lt.le
  rw [← O.left, ← O.right] at b1 b2
  exact ⟨_, rfl, (le_div_iff₀ hd).2 b1, (div_le_iff₀ hd).2 b2, div_mul_cancel₀ _ hd.ne'⟩

theorem meet_line {f : ℝ → ℝ} {m M l : ℝ} (hm : 0 < m) (F : ∀ a, SlopesIn f a m M) {s : StrainSearch} (O : OnCurve f s) :
    ∃ sl, m ≤ sl ∧ sl ≤ M ∧ (s.meet l - s.left.x) * sl = l - s.left.y ∧ (s.meet l - s.right.x) * sl = l - s.right.y := by
  obtain ⟨sl, e, h1, h2, h3⟩ := steep hm F O
  have hx : s.meet l = s.left.x + (l - s.left.y) / sl := by rw [e]; rfl
  have e1 : (s.meet l - s.left.x) * sl = l - s.left.y := by
    rw [hx, add_sub_cancel_left, div_mul_cancel₀ _ (hm.trans_le h1).ne']
  exact ⟨sl, h1, h2, e1, by linarith⟩

/-- Both searches make the same step. -/
theorem step_same {lo hi : ℝ → ℝ} {m M : ℝ} (hm : 0 < m)
    (F : ∀ a, SlopesIn (fun x => -(hi x - lo x)) a m M) {s : CableComponent.StretchSearch}
    (O : OnCurve (fun x => -(hi x - lo x)) (asStrain s)) :
    asStrain (s.step lo hi) = (asStrain s).step (fun x => -(hi x - lo x)) 0 ∧
      OnCurve (fun x => -(hi x - lo x)) (asStrain (s.step lo hi)) ∧
      (s.step lo hi).loadTo = hi (s.step lo hi).current.x ∧
      (s.step lo hi).current.y = hi (s.step lo hi).current.x - lo (s.step lo hi).current.x := by
  obtain ⟨sl, h1, h2, h3, h4⟩ := meet_line (l := 0) hm F O
  have hsl : 0 < sl := hm.trans_le h1
  have hx : s.left.x + (0 - s.left.y) / ((s.right.y - s.left.y) / (s.right.x - s.left.x)) = (asStrain s).meet 0 := by
    unfold StrainSearch.meet asStrain
    simp only
    rw [show (0 : ℝ) - -s.left.y = -(0 - s.left.y) by ring,
      show (-s.right.y - -s.left.y) = -(s.right.y - s.left.y) by ring, neg_div,
      neg_div, div_neg, neg_neg]
  have hlt := O.lt
  have hl := O.left
  have hr := O.right
  unfold CableComponent.StretchSearch.step StrainSearch.step
  simp only
  rw [hx, show (asStrain s).left.x + (0 - (asStrain s).left.y) /
    (((asStrain s).right.y - (asStrain s).left.y) / ((asStrain s).right.x - (asStrain s).left.x)) = (asStrain s).meet 0 from rfl]
  generalize (asStrain s).meet 0 = x at *
  simp only [asStrain] at *
  by_cases c1 : x < s.left.x
  · simp only [if_pos c1]
    exact ⟨trivial, ⟨c1, rfl, hl⟩, trivial, trivial⟩
  simp only [if_neg c1]
  have c1 := not_lt.1 c1
  by_cases c2 : s.left.x < x ∧ x < s.right.x
  · have c2' : s.left.x ≤ x ∧ x ≤ s.right.x := ⟨c2.1.le, c2.2.le⟩
    simp only [if_pos c2, if_pos c2']
    by_cases d1 : hi x - lo x < 0
    · have e1 : ¬ -(hi x - lo x) < 0 := by linarith
      have e2 : 0 < -(hi x - lo x) := by linarith
      simp only [if_pos d1, if_neg e1, if_pos e2]
      exact ⟨trivial, ⟨c2.1, hl, rfl⟩, trivial, trivial⟩
    · simp only [if_neg d1]
      by_cases d2 : 0 < hi x - lo x
      · have e1 : -(hi x - lo x) < 0 := by linarith
        simp only [if_pos d2, if_pos e1]
        exact ⟨trivial, ⟨c2.2, rfl, hr⟩, trivial, trivial⟩
      · have e1 : ¬ -(hi x - lo x) < 0 := by linarith
        have e2 : ¬ 0 < -(hi x - lo x) := by linarith
        simp only [if_neg d2, if_neg e1, if_neg e2]
        exact ⟨trivial, ⟨hlt, hl, hr⟩, trivial, trivial⟩
  · simp only [if_neg c2]
    by_cases c3 : s.right.x < x
    · have e1 : ¬ (s.left.x ≤ x ∧ x ≤ s.right.x) := by rintro ⟨_, h⟩; linarith
      simp only [if_pos c3, if_neg e1]
      exact ⟨trivial, ⟨c3, hr, rfl⟩, trivial, trivial⟩
    · -- the step ends at one of the two points, where the curve is zero
      have h0 : hi x - lo x = 0 := by
        rcases c1.lt_or_eq with h | h
        · have hxr : x = s.right.x := le_antisymm (not_lt.1 c3) (not_lt.1 fun h' => c2 ⟨h, h'⟩)
          rw [hxr] at h4
          rw [hxr]
          linarith
        · rw [← h] at h3
          rw [← h]
          linarith
      have e0 : s.left.x ≤ x ∧ x ≤ s.right.x := ⟨c1, not_lt.1 c3⟩
      have e1 : ¬ -(hi x - lo x) < 0 := by linarith
      have e2 : ¬ 0 < -(hi x - lo x) := by linarith
      simp only [if_neg c3, if_pos e0, if_neg e1, if_neg e2]
      exact ⟨trivial, ⟨hlt, hl, hr⟩, trivial, trivial⟩

theorem loop_same {lo hi : ℝ → ℝ} {m M : ℝ} (hm : 0 < m)
    (F : ∀ a, SlopesIn (fun x => -(hi x - lo x)) a m M) : ∀ (n : ℕ) (s : CableComponent.StretchSearch),
    OnCurve (fun x => -(hi x - lo x)) (asStrain s) →
    asStrain (CableComponent.stretchLoop lo hi n s) =
      strainLoop (fun x => -(hi x - lo x)) 0 n (asStrain s)
  | 0, s, _ => rfl
  | n + 1, s, O => by
    rw [CableComponent.stretchLoop, strainLoop]
    have e : |(asStrain s).current.y - 0| = |s.current.y - 0| := by
      show |-s.current.y - 0| = _
      rw [sub_zero, sub_zero, abs_neg]
    rw [e]
    have e2 : (1 : ℝ) / (10 : ℝ) ^ (2 : ℤ) = 0.01 := by norm_num
    rw [e2]
    obtain ⟨h1, h2, -⟩ := step_same hm F O
    split_ifs
    · rw [loop_same hm F n _ h2, h1]
    · rfl

/-! ## Walking towards the solution -/

theorem meet_errors {f : ℝ → ℝ} {m M l : ℝ} (hm : 0 < m) (F : ∀ a, SlopesIn f a m M) {s : StrainSearch} (O : OnCurve f s) :
    (s.right.y < l → s.right.x < s.meet l ∧ l - f (s.meet l) ≤ (l - s.right.y) * (1 - m / M) ∧
      f (s.meet l) - l ≤ (l - s.right.y) * (M / m - 1)) ∧
    (l < s.left.y → s.meet l < s.left.x ∧ f (s.meet l) - l ≤ (s.left.y - l) * (1 - m / M) ∧
      l - f (s.meet l) ≤ (s.left.y - l) * (M / m - 1)) := by
  obtain ⟨sl, s1, s2, e1, e2⟩ := meet_line (l := l) hm F O
  have s0 : 0 < sl := hm.trans_le s1
  have hM : 0 < M := s0.trans_le s2
  have q1 : ∀ u : ℝ, 0 ≤ u → u * sl * (m / M) ≤ m * u := by
    intro u hu
    have : sl * (m / M) ≤ m := by
      rw [mul_div_assoc', div_le_iff₀ hM]
      nlinarith
    nlinarith
  have q2 : ∀ u : ℝ, 0 ≤ u → M * u ≤ u * sl * (M / m) := by
    intro u hu
    have : M ≤ sl * (M / m) := by
      rw [mul_div_assoc', le_div_iff₀ hm]
      nlinarith
    nlinarith
  constructor
  · intro h
    have hx : s.right.x < s.meet l := by
      by_contra hc
      have := mul_nonneg (sub_nonneg.2 (not_lt.1 hc)) s0.le
      linarith
    obtain ⟨c1, c2⟩ := F _ _ _ (le_refl _) hx.le
    rw [← O.right] at c1 c2
    have u1 := q1 _ (sub_nonneg.2 hx.le)
    have u2 := q2 _ (sub_nonneg.2 hx.le)
    rw [e2] at u1 u2
    refine ⟨hx, ?_, ?_⟩ <;> linarith
  · intro h
    have hx : s.meet l < s.left.x := by
      by_contra hc
      have := mul_nonneg (sub_nonneg.2 (not_lt.1 hc)) s0.le
      linarith
    obtain ⟨c1, c2⟩ := F _ _ _ (le_refl _) hx.le
    rw [← O.left] at c1 c2
    have e3 : (s.left.x - s.meet l) * sl = s.left.y - l := by linarith
    have u1 := q1 _ (sub_nonneg.2 hx.le)
    have u2 := q2 _ (sub_nonneg.2 hx.le)
    rw [e3] at u1 u2
    refine ⟨hx, ?_, ?_⟩ <;> linarith

/-- What the loop achieves within `n + 1` passes. -/
def Closes (f : ℝ → ℝ) (l : ℝ) (n : ℕ) (s : StrainSearch) : Prop :=
  (strainLoop f l (n + 1) s).iter ≤ s.iter + n ∧ |(strainLoop f l (n + 1) s).current.y - l| ≤ 0.01

theorem closes_step {f : ℝ → ℝ} {l : ℝ} {n : ℕ} {s : StrainSearch} (hc : 0.01 < |s.current.y - l|)
    (h : |(s.step f l).current.y - l| ≤ 0.01 ∨ Closes f l n (s.step f l)) : Closes f l (n + 1) s := by
  have hstep : strainLoop f l (n + 1 + 1) s = strainLoop f l (n + 1) (s.step f l) := by
    rw [strainLoop, if_pos (by norm_num at hc ⊢; exact hc)]
  unfold Closes
  rw [hstep]
  have hit := (strainStep_current f l s).2
  rcases h with h | ⟨h1, h2⟩
  · rw [strainLoop_done _ h]
    exact ⟨by rw [hit]; omega, h⟩
  · exact ⟨by rw [hit] at h1; omega, h2⟩

theorem step_right {f : ℝ → ℝ} {l : ℝ} {s : StrainSearch} (h : s.left.x < s.right.x) (hx : s.right.x < s.meet l) :
    s.step f l = ⟨s.right, ⟨s.meet l, f (s.meet l)⟩, ⟨s.meet l, f (s.meet l)⟩, s.iter + 1⟩ := by
  unfold StrainSearch.step
  simp only
  rw [show s.left.x + (l - s.left.y) / ((s.right.y - s.left.y) / (s.right.x - s.left.x)) = s.meet l from rfl]
  rw [if_neg (by linarith), if_neg (by rintro ⟨_, h⟩; linarith), if_pos hx]

theorem step_left {f : ℝ → ℝ} {l : ℝ} {s : StrainSearch} (hx : s.meet l < s.left.x) :
    s.step f l = ⟨⟨s.meet l, f (s.meet l)⟩, s.left, ⟨s.meet l, f (s.meet l)⟩, s.iter + 1⟩ := by
  unfold StrainSearch.step
  simp only
  rw [show s.left.x + (l - s.left.y) / ((s.right.y - s.left.y) / (s.right.x - s.left.x)) = s.meet l from rfl]
  rw [if_pos hx]

/-- Both points are below the solution. -/
theorem closes_right {f : ℝ → ℝ} {l m M q E : ℝ} {N : ℕ} (hm : 0 < m) (F : ∀ a, SlopesIn f a m M)
    (hq : q = 1 - m / M) (q0 : 0 ≤ q) (q1 : q ≤ 1) (E0 : 0 ≤ E) (hN : E * q ^ N ≤ 0.01)
    (K : ℝ) (hK : ∀ u, 0 ≤ u → u ≤ K → u * (M / m - 1) ≤ E) :
    ∀ (n i : ℕ) (s : StrainSearch), OnCurve f s → s.right.y < l → i < N → 2 * N ≤ i + n →
      l - s.right.y ≤ E * q ^ i → l - s.right.y ≤ K → 0.01 < |s.current.y - l| → Closes f l n s
  | 0, i, s, _, _, hi, hs, _, _, _ => by omega
  | n + 1, i, s, O, hb, hi, hs, el, ek, hc => by
    obtain ⟨g1, g2, g3⟩ := (meet_errors (l := l) hm F O).1 hb
    have hst := step_right (f := f) O.lt g1
    refine closes_step hc ?_
    rw [hst]
    by_cases hd : |f (s.meet l) - l| ≤ 0.01
    · exact .inl hd
    right
    have hd := not_le.1 hd
    rcases lt_trichotomy (f (s.meet l)) l with h | h | h
    · have e : l - f (s.meet l) ≤ E * q ^ (i + 1) := by
        rw [pow_succ, ← mul_assoc]
        rw [← hq] at g2
        exact g2.trans (mul_le_mul_of_nonneg_right el q0)
      have hi' : i + 1 < N := by
        by_contra hc'
        have hiN : i + 1 = N := by omega
        rw [hiN] at e
        rw [abs_of_neg (by linarith)] at hd
        linarith
      refine closes_right hm F hq q0 q1 E0 hN K hK n (i + 1) _ ⟨g1, O.right, rfl⟩ h hi' (by omega) e ?_ hd
      show l - f (s.meet l) ≤ K
      have := mul_le_of_le_one_right (sub_nonneg.2 hb.le) (show 1 - m / M ≤ 1 by rw [← hq]; exact q1)
      linarith
    · rw [h] at hd; norm_num at hd
    · have A : Around f s.right.x l ⟨s.right, ⟨s.meet l, f (s.meet l)⟩, ⟨s.meet l, f (s.meet l)⟩, s.iter + 1⟩ :=
        ⟨le_refl _, g1, O.right, rfl, hb, h.le⟩
      obtain ⟨r1, r2, -⟩ := strainLoop_closes (N := N) hm (F _) hq q0 q1 E0 hN K hK n i 1 _ A hi (by omega) (by omega)
        el (by intro h; omega)
        (by
          intro j' hj'
          have : j' = 0 := by omega
          rw [this, pow_zero, mul_one]
          exact g3.trans (hK _ (by linarith) ek)) hd
      exact ⟨r1, r2⟩

/-- Both points are above the solution. -/
theorem closes_left {f : ℝ → ℝ} {l m M q E : ℝ} {N : ℕ} (hm : 0 < m) (F : ∀ a, SlopesIn f a m M)
    (hq : q = 1 - m / M) (q0 : 0 ≤ q) (q1 : q ≤ 1) (E0 : 0 ≤ E) (hN : E * q ^ N ≤ 0.01)
    (K : ℝ) (hK : ∀ u, 0 ≤ u → u ≤ K → u * (M / m - 1) ≤ E) :
    ∀ (n i : ℕ) (s : StrainSearch), OnCurve f s → l < s.left.y → i < N → 2 * N ≤ i + n →
      s.left.y - l ≤ E * q ^ i → s.left.y - l ≤ K → 0.01 < |s.current.y - l| → Closes f l n s
  | 0, i, s, _, _, hi, hs, _, _, _ => by omega
  | n + 1, i, s, O, hb, hi, hs, el, ek, hc => by
    obtain ⟨g1, g2, g3⟩ := (meet_errors (l := l) hm F O).2 hb
    have hst := step_left (f := f) g1
    refine closes_step hc ?_
    rw [hst]
    by_cases hd : |f (s.meet l) - l| ≤ 0.01
    · exact .inl hd
    right
    have hd := not_le.1 hd
    rcases lt_trichotomy (f (s.meet l)) l with h | h | h
    · have A : Around f (s.meet l) l ⟨⟨s.meet l, f (s.meet l)⟩, s.left, ⟨s.meet l, f (s.meet l)⟩, s.iter + 1⟩ :=
        ⟨le_refl _, g1, rfl, O.left, h, hb.le⟩
      obtain ⟨r1, r2, -⟩ := strainLoop_closes (N := N) hm (F _) hq q0 q1 E0 hN K hK n 0 (i + 1) _ A (by omega) (by omega)
        (by omega) (by rw [pow_zero, mul_one]; exact g3.trans (hK _ (by linarith) ek)) (by intro h; omega)
        (by
          intro j' hj'
          have : j' = i := by omega
          rw [this]
          exact el) hd
      exact ⟨r1, r2⟩
    · rw [h] at hd; norm_num at hd
    · have e : f (s.meet l) - l ≤ E * q ^ (i + 1) := by
        rw [pow_succ, ← mul_assoc]
        rw [← hq] at g2
        exact g2.trans (mul_le_mul_of_nonneg_right el q0)
      have hi' : i + 1 < N := by
        by_contra hc'
        have hiN : i + 1 = N := by omega
        rw [hiN] at e
        rw [abs_of_pos (by linarith)] at hd
        linarith
      refine closes_left hm F hq q0 q1 E0 hN K hK n (i + 1) _ ⟨g1, rfl, O.left⟩ h hi' (by omega) e ?_ hd
      show f (s.meet l) - l ≤ K
      have := mul_le_of_le_one_right (sub_nonneg.2 hb.le) (show 1 - m / M ≤ 1 by rw [← hq]; exact q1)
      linarith

/-- More passes change nothing once the loop has ended. -/
theorem strainLoop_more {f : ℝ → ℝ} {l : ℝ} (k : ℕ) : ∀ (n : ℕ) (s : StrainSearch),
    |(strainLoop f l n s).current.y - l| ≤ 0.01 → strainLoop f l (n + k) s = strainLoop f l n s
  | 0, s, h => strainLoop_done _ h
  | n + 1, s, h => by
    rw [show n + 1 + k = (n + k) + 1 by omega]
    rw [strainLoop] at h ⊢
    rw [strainLoop]
    split_ifs at h ⊢ with hc
    · exact strainLoop_more k n _ h
    · rfl

/-- The search started next to each other at any strain. -/
theorem search_closes {f : ℝ → ℝ} {m M : ℝ} (hm : 0 < m) (hM : m ≤ M) (F : ∀ a, SlopesIn f a m M) {s : StrainSearch}
    (O : OnCurve f s) (hc : 0.01 < |s.current.y|)
    (hE : max 1 (M / m - 1) * |s.left.y| * (1 - m / M) ^ 49 ≤ 0.01) : Closes f 0 98 s := by
  have hM0 : 0 < M := hm.trans_le hM
  have hra : m / M ≤ 1 := (div_le_one hM0).2 hM
  have hra0 : 0 < m / M := by positivity
  have hEl : |s.left.y| ≤ max 1 (M / m - 1) * |s.left.y| := le_mul_of_one_le_left (abs_nonneg _) (le_max_left _ _)
  have hE0 : 0 ≤ max 1 (M / m - 1) * |s.left.y| := (abs_nonneg _).trans hEl
  have hK : ∀ u, 0 ≤ u → u ≤ |s.left.y| → u * (M / m - 1) ≤ max 1 (M / m - 1) * |s.left.y| := by
    intro u u0 hu
    rw [mul_comm]
    exact mul_le_mul (le_max_right _ _) hu u0 (le_trans zero_le_one (le_max_left _ _))
  have hc' : 0.01 < |s.current.y - 0| := by rwa [sub_zero]
  have rise : s.left.y < s.right.y := by
    obtain ⟨sl, -, h1, -, h3⟩ := steep hm F O
    have := mul_pos (hm.trans_le h1) (sub_pos.2 O.lt)
    linarith
  rcases lt_trichotomy s.left.y 0 with h | h | h
  · rw [abs_of_neg h] at *
    rcases lt_or_ge s.right.y 0 with h' | h'
    · exact closes_right (N := 49) hm F rfl (by linarith) (by linarith) hE0 hE _ hK 98 0 s O h' (by norm_num) (by norm_num)
        (by rw [pow_zero, mul_one]; linarith) (by linarith) hc'
    · obtain ⟨r1, r2, -⟩ := strainLoop_closes (N := 49) hm (F s.left.x) rfl (by linarith) (by linarith) hE0 hE _ hK 98 0 0 s
        ⟨le_refl _, O.lt, O.left, O.right, h, h'⟩ (by norm_num) (by norm_num) (by norm_num)
        (by rw [pow_zero, mul_one]; linarith) (by intro _; linarith) (by intro j' h; cases h) hc'
      exact ⟨r1, r2⟩
  · refine closes_step hc' (.inl ?_)
    have hx : s.meet 0 = s.left.x := by
      unfold StrainSearch.meet
      rw [h]; simp
    have c1 : (s.step f 0).current.x = s.meet 0 := by
      unfold StrainSearch.step
      simp only
      split_ifs <;> rfl
    rw [(strainStep_current f 0 s).1, c1, hx, ← O.left, h]
    norm_num
  · rw [abs_of_pos h] at *
    exact closes_left (N := 49) hm F rfl (by linarith) (by linarith) hE0 hE _ hK 98 0 s O h (by norm_num) (by norm_num)
      (by rw [pow_zero, mul_one]; linarith) (by linarith) hc'

/-! ## The transfer -/

theorem loop_on {lo hi : ℝ → ℝ} {m M : ℝ} (hm : 0 < m)
    (F : ∀ a, SlopesIn (fun x => -(hi x - lo x)) a m M) : ∀ (n : ℕ) (s : CableComponent.StretchSearch),
    OnCurve (fun x => -(hi x - lo x)) (asStrain s) →
    CableComponent.stretchLoop lo hi n s = s ∨
      (CableComponent.stretchLoop lo hi n s).loadTo = hi (CableComponent.stretchLoop lo hi n s).current.x ∧
        (CableComponent.stretchLoop lo hi n s).current.y = hi (CableComponent.stretchLoop lo hi n s).current.x -
          lo (CableComponent.stretchLoop lo hi n s).current.x
  | 0, s, _ => .inl rfl
  | n + 1, s, O => by
    rw [CableComponent.stretchLoop]
    obtain ⟨-, h2, h3⟩ := step_same hm F O
    split_ifs
    · rcases loop_on hm F n _ h2 with h | h
      · rw [h]; exact .inr h3
      · exact .inr h
    · exact .inl rfl

/-- A component elongation model that has been given everything. -/
noncomputable def componentOf (c : CableComponent) (t : ℝ) (s : CableState) (ss : CableStretchState) : ComponentModel :=
  ((((ComponentModel.new.setComponent (some c)).setReference (some t)).setStretch (some ss)).setState (some s))

theorem componentOf_clean (c : CableComponent) (t : ℝ) (s : CableState) (ss : CableStretchState) :
    Clean (componentOf c t s ss) := clean_flags_false rfl rfl

/-- The transfer, when the curve is everywhere flatter than the elastic line. -/
theorem transfer_spec {c : CableComponent} {th : ℝ} {rf rt : Regions} {tf tt : PolynomialType} {l m M : ℝ}
    (hm : 0 < m)
    (slopes : ∀ x y, x ≤ y → (c.modulusTension - M) * (y - x) ≤ c.load tt rt th y - c.load tt rt th x ∧
      c.load tt rt th y - c.load tt rt th x ≤ (c.modulusTension - m) * (y - x)) :
    (∀ l', c.transferStretch th rf rt tf tt l = some l' → ∃ x, l' = c.load tt rt th x ∧
      |c.load tt rt th x - (l + (x - c.strain tf rf th l) * c.modulusTension)| ≤ 0.01) ∧
    (m ≤ M → max 1 (M / m - 1) * |c.load tt rt th (c.strain tf rf th l) - l| * (1 - m / M) ^ 49 ≤ 0.01 →
      ∃ l', c.transferStretch th rf rt tf tt l = some l') := by
  unfold CableComponent.transferStretch
  simp only
  set e := c.strain tf rf th l with he
  set lo := CableComponent.loadLinear ⟨e, l⟩ c.modulusTension with hlo
  set hi := c.load tt rt th with hhi
  set s : CableComponent.StretchSearch := ⟨⟨e, hi e - lo e⟩, ⟨e + 0.001, hi (e + 0.001) - lo (e + 0.001)⟩,
    ⟨-999999, -999999⟩, hi (e + 0.001), 0⟩ with hs
  have F : ∀ a, SlopesIn (fun x => -(hi x - lo x)) a m M := by
    intro a x y _ hxy
    obtain ⟨h1, h2⟩ := slopes x y hxy
    simp only [hlo, CableComponent.loadLinear]
    constructor <;> linarith
  have O : OnCurve (fun x => -(hi x - lo x)) (asStrain s) := by
    refine ⟨?_, rfl, rfl⟩
    show e < e + 0.001
    linarith
  constructor
  · intro l' h
    split_ifs at h with hit
    cases h
    have hsame := loop_same hm F 101 s O
    have hclose := strainLoop_spec (fun x => -(hi x - lo x)) 0 101 (asStrain s) (by
      rw [← hsame]
      show (CableComponent.stretchLoop lo hi 101 s).iter < 0 + 101
      omega)
    rw [← hsame] at hclose
    obtain ⟨c1, -⟩ := hclose
    have c1 : |-(CableComponent.stretchLoop lo hi 101 s).current.y - 0| ≤ 0.01 := c1
    rw [sub_zero, abs_neg] at c1
    rcases loop_on hm F 101 s O with h | ⟨h1, h2⟩
    · rw [h, hs] at c1
      norm_num at c1
    · exact ⟨_, h1, by rw [h2] at c1; exact c1⟩
  · intro hM hE
    have hc := search_closes hm hM F O (by show 0.01 < |(-(-999999) : ℝ)|; norm_num) (by
      show max 1 (M / m - 1) * |-(hi e - lo e)| * (1 - m / M) ^ 49 ≤ 0.01
      have : lo e = l := by simp [hlo, CableComponent.loadLinear]
      rw [abs_neg, this]
      exact hE)
    obtain ⟨c1, c2⟩ := hc
    have hmore := strainLoop_more (f := fun x => -(hi x - lo x)) (l := 0) 2 99 (asStrain s) c2
    have hsame := loop_same hm F 101 s O
    rw [hmore] at hsame
    have : (CableComponent.stretchLoop lo hi 101 s).iter < 100 := by
      have h1 : (CableComponent.stretchLoop lo hi 101 s).iter =
        (strainLoop (fun x => -(hi x - lo x)) 0 99 (asStrain s)).iter := congrArg StrainSearch.iter hsame
      have h2 : (strainLoop (fun x => -(hi x - lo x)) 0 99 (asStrain s)).iter ≤ (asStrain s).iter + 98 := c1
      have h3 : (asStrain s).iter = 0 := rfl
      omega
    rw [if_pos this]
    exact ⟨_, rfl⟩

/-- What an answered question tells about a model that has been given everything. -/
theorem asked_spec {c : CableComponent} {t : ℝ} {s : CableState} {ss : CableStretchState} {A : Type} {fail a : A}
    {body : CableComponent → CableState → ComponentModel → A}
    (h : valueOf id ((componentOf c t s ss).query fail body) = .val a) :
    (spec c t s ss = .val none ∧ a = fail) ∨ ∃ l th r m, spec c t s ss = .val (some (l, th, r)) ∧
      m.points = r ∧ m.thermalState = th ∧ m.loadStretch = l ∧ a = body c s m := by
  rcases (componentOf_clean c t s ss).update rfl rfl rfl rfl with ⟨l, th, r, m', e1, e2, e3, e4, e5, e6, e7, e8, e9⟩ |
    ⟨m', e1, e2, -⟩ | ⟨m', e1, e2, -⟩ | ⟨e1, e2⟩
  · right
    unfold ComponentModel.query at h
    rw [e2] at h
    simp only at h
    rw [e3.1, e3.2.1] at h
    refine ⟨l, th, r, m', e1, e9, e8, e7, ?_⟩
    exact (Res.val.inj h).symm
  · left
    unfold ComponentModel.query at h
    rw [e2] at h
    exact ⟨e1, (Res.val.inj h).symm⟩
  · unfold ComponentModel.query at h
    rw [e2] at h
    cases h
  · unfold ComponentModel.query at h
    rw [e2] at h
    cases h

theorem spec_inv {c : CableComponent} {t : ℝ} {s : CableState} {ss : CableStretchState} {l th : ℝ} {r : Regions}
    (h : spec c t s ss = .val (some (l, th, r))) :
    stretchOf c t s ss = .val (some l) ∧ regionsOf c t s l = .val (th, r) := by
  unfold spec at h
  cases h1 : stretchOf c t s ss with
  | val o =>
    rw [h1] at h
    cases o with
    | none => cases h
    | some l' =>
      simp only at h
      cases h2 : regionsOf c t s l' with
      | val q =>
        obtain ⟨th', r'⟩ := q
        rw [h2] at h
        simp only [Res.val.injEq, Option.some.injEq, Prod.mk.injEq] at h
        obtain ⟨rfl, rfl, rfl⟩ := h
        exact ⟨rfl, h2⟩
      | throws => rw [h2] at h; cases h
      | ub => rw [h2] at h; cases h
  | throws => rw [h1] at h; cases h
  | ub => rw [h1] at h; cases h

theorem regionsOf_inv {c : CableComponent} {t : ℝ} {s : CableState} {l th : ℝ} {r : Regions}
    (h : regionsOf c t s l = .val (th, r)) : ∃ cs limit, c.coefficients s.type = some cs ∧ c.limit s.type = some limit ∧
      cs ≠ [] ∧ th = c.thermal t s.temperature ∧ r = c.regions cs th limit l := by
  unfold regionsOf updateState at h
  cases hc : c.coefficients s.type with
  | none => simp [hc] at h
  | some cs =>
    cases hm : c.limit s.type with
    | none => simp [hc, hm] at h
    | some limit =>
      by_cases hn : cs = []
      · simp [hc, hm, hn] at h
      · simp only [hc, hm, if_neg hn, Res.val.injEq, Prod.mk.injEq] at h
        exact ⟨cs, limit, rfl, rfl, hn, h.1.symm, by rw [← h.2, h.1]⟩

/-- The two polynomials. -/
def Other : PolynomialType → PolynomialType → Prop
  | .creep, .loadStrain => True
  | .loadStrain, .creep => True
  | _, _ => False

theorem stretchOf_other {c : CableComponent} {t : ℝ} {s : CableState} {ss : CableStretchState} (h0 : ss.load ≠ 0)
    (ho : Other ss.type s.type) {cf ct : List ℝ} {lf lt : ℝ} (f1 : c.coefficients ss.type = some cf)
    (f2 : c.limit ss.type = some lf) (t1 : c.coefficients s.type = some ct) (t2 : c.limit s.type = some lt)
    (nf : cf ≠ []) (nt : ct ≠ []) :
    stretchOf c t s ss = .val (c.transferStretch (c.thermal t ss.temperature)
      (c.regions cf (c.thermal t ss.temperature) lf 0) (c.regions ct (c.thermal t ss.temperature) lt 0) ss.type s.type ss.load) := by
  have key : ∀ o : Option ℝ, (match (match o with
      | some l => Outcome.ok { ComponentModel.new with loadStretch := l } true
      | none => Outcome.ok { ComponentModel.new with loadStretch := -999999 } false : Outcome ComponentModel Bool) with
      | .ok m true => Res.val (some m.loadStretch)
      | .ok _ false => .val none
      | .throws _ => .throws
      | .ub => .ub) = .val o := by
    intro o; cases o <;> rfl
  unfold stretchOf updateStretch
  rw [if_neg h0]
  cases h1 : ss.type <;> cases h2 : s.type <;> rw [h1, h2] at ho <;> simp only [Other] at ho
  · rw [h1] at f1 f2
    rw [h2] at t1 t2
    cases f1; cases f2; cases t1; cases t2
    rw [if_neg (by decide), if_neg (by simp [nf, nt])]
    exact key _
  · rw [h1] at f1 f2
    rw [h2] at t1 t2
    cases f1; cases f2; cases t1; cases t2
    rw [if_neg (by decide), if_neg (by simp [nf, nt])]
    exact key _

/-- The unstretched component in the temperature of the stretch. -/
structure Unstretched (c : CableComponent) (t : ℝ) (ss : CableStretchState) (τ : PolynomialType) (f : ℝ → ℝ) (e : ℝ) : Prop where
  /-- its loads on the polynomial of the state -/
  loads : ∀ x, valueOf id ((componentOf c t ⟨ss.temperature, τ⟩ { ss with load := 0 }).load x) = .val (f x)
  /-- its strain at the stretch load on the polynomial of the stretch -/
  strain : valueOf id ((componentOf c t ⟨ss.temperature, ss.type⟩ { ss with load := 0 }).strain ss.load) = .val e

theorem unstretched_facts {c : CableComponent} {t : ℝ} {ss : CableStretchState} {τ : PolynomialType} {f : ℝ → ℝ} {e : ℝ}
    (U : Unstretched c t ss τ f e) : ∃ cf ct lf lt, c.coefficients ss.type = some cf ∧ c.limit ss.type = some lf ∧
      c.coefficients τ = some ct ∧ c.limit τ = some lt ∧ cf ≠ [] ∧ ct ≠ [] ∧
      f = c.load τ (c.regions ct (c.thermal t ss.temperature) lt 0) (c.thermal t ss.temperature) ∧
      e = c.strain ss.type (c.regions cf (c.thermal t ss.temperature) lf 0) (c.thermal t ss.temperature) ss.load := by
  have zero : ∀ (s : CableState), stretchOf c t s { ss with load := 0 } = .val (some 0) := fun s =>
    stretchOf_same (Or.inr rfl)
  have ok : ∀ s : CableState, spec c t s { ss with load := 0 } ≠ .val none := by
    intro s h
    unfold spec at h
    rw [zero s] at h
    simp only at h
    cases h2 : regionsOf c t s 0 with
    | val q => obtain ⟨a, b⟩ := q; rw [h2] at h; cases h
    | throws => rw [h2] at h; cases h
    | ub => rw [h2] at h; cases h
  have loads : ∃ ct lt, c.coefficients τ = some ct ∧ c.limit τ = some lt ∧ ct ≠ [] ∧ ∀ x, f x =
      c.load τ (c.regions ct (c.thermal t ss.temperature) lt 0) (c.thermal t ss.temperature) x := by
    have each : ∀ x, ∃ ct lt, c.coefficients τ = some ct ∧ c.limit τ = some lt ∧ ct ≠ [] ∧ f x =
        c.load τ (c.regions ct (c.thermal t ss.temperature) lt 0) (c.thermal t ss.temperature) x := by
      intro x
      rcases asked_spec (U.loads x) with ⟨h, -⟩ | ⟨l, th, r, m, h1, h2, h3, h4, h5⟩
      · exact absurd h (ok _)
      · obtain ⟨g1, g2⟩ := spec_inv h1
        rw [zero] at g1
        cases g1
        obtain ⟨cs, limit, k1, k2, k3, k4, k5⟩ := regionsOf_inv g2
        refine ⟨cs, limit, k1, k2, k3, ?_⟩
        rw [h5, h2, h3, k5, k4]
    obtain ⟨ct, lt, k1, k2, k3, -⟩ := each 0
    refine ⟨ct, lt, k1, k2, k3, fun x => ?_⟩
    obtain ⟨ct', lt', k1', k2', -, k4'⟩ := each x
    cases k1.symm.trans k1'
    cases k2.symm.trans k2'
    exact k4'
  obtain ⟨ct, lt, k1, k2, k3, k4⟩ := loads
  rcases asked_spec U.strain with ⟨h, -⟩ | ⟨l, th, r, m, h1, h2, h3, h4, h5⟩
  · exact absurd h (ok _)
  · obtain ⟨g1, g2⟩ := spec_inv h1
    rw [zero] at g1
    cases g1
    obtain ⟨cs, limit, j1, j2, j3, j4, j5⟩ := regionsOf_inv g2
    refine ⟨cs, ct, limit, lt, j1, j2, k1, k2, j3, k3, funext k4, ?_⟩
    rw [h5, h2, h3, j5, j4]

/-- Near the crossing of a flatter curve with the elastic line. -/
theorem near_crossing {f : ℝ → ℝ} {E l e m M x y : ℝ} (hm : 0 < m)
    (slopes : ∀ x y, x ≤ y → (E - M) * (y - x) ≤ f y - f x ∧ f y - f x ≤ (E - m) * (y - x))
    (hx : |f x - (l + (x - e) * E)| ≤ 0.01) (hy : f y = l + (y - e) * E) : |x - y| ≤ 0.01 / m := by
  obtain ⟨h1, h2⟩ := abs_le.1 hx
  rw [abs_le]
  have e0 : 0.01 / m * m = 0.01 := div_mul_cancel₀ _ hm.ne'
  rcases le_total x y with h | h
  · have := (slopes x y h).2
    have k : m * (y - x) ≤ 0.01 := by nlinarith
    have : y - x ≤ 0.01 / m := by rw [le_div_iff₀ hm]; linarith
    constructor <;> linarith
  · have := (slopes y x h).2
    have k : m * (x - y) ≤ 0.01 := by nlinarith
    have : x - y ≤ 0.01 / m := by rw [le_div_iff₀ hm]; linarith
    constructor <;> linarith

/-- **C166**. A stretch given on one polynomial and asked for on the other: if the loads `f` of the unstretched component
rise everywhere less than its elastic line, then the stretch load reported for the other polynomial is the load `f x` of a
strain `x` at which the curve meets, to within 0.01, the elastic line through the stretch on the first polynomial; and `x`
is close to the strain of the exact crossing. -/
theorem C166_accurate {c : CableComponent} {t T : ℝ} {ss : CableStretchState} {τ : PolynomialType} {f : ℝ → ℝ} {e m M : ℝ}
    (h0 : ss.load ≠ 0) (ho : Other ss.type τ) (U : Unstretched c t ss τ f e) (hm : 0 < m)
    (slopes : ∀ x y, x ≤ y → (c.modulusTension - M) * (y - x) ≤ f y - f x ∧ f y - f x ≤ (c.modulusTension - m) * (y - x))
    {r : Regions} (hr : valueOf id (componentOf c t ⟨T, τ⟩ ss).pointsRegions = .val r) (hn : r.start.y ≠ -999999) :
    ∃ x, r.start.y = f x ∧ |f x - (ss.load + (x - e) * c.modulusTension)| ≤ 0.01 ∧
      ∀ y, f y = ss.load + (y - e) * c.modulusTension → |x - y| ≤ 0.01 / m := by
  obtain ⟨cf, ct, lf, lt, f1, f2, t1, t2, nf, nt, rfl, rfl⟩ := unstretched_facts U
  rcases asked_spec hr with ⟨-, h⟩ | ⟨l, th, r', m', h1, h2, h3, h4, h5⟩
  · exact absurd (by rw [h]; rfl) hn
  · obtain ⟨g1, g2⟩ := spec_inv h1
    rw [stretchOf_other h0 (show Other ss.type (⟨T, τ⟩ : CableState).type from ho) f1 f2 t1 t2 nf nt] at g1
    obtain ⟨x, e1, e2⟩ := (transfer_spec hm slopes).1 l (Res.val.inj g1)
    obtain ⟨cs, limit, -, -, -, -, k5⟩ := regionsOf_inv g2
    have hy : r.start.y = l := by
      have : r = r' := by rw [h5]; exact h2
      rw [this, k5]
      rfl
    exact ⟨x, hy.trans e1, e2, fun y hy => near_crossing hm slopes e2 hy⟩

/-- **C166**. Under the same condition the transfer succeeds, unless the stretch is too far from the other curve for the
ratio of the least and the greatest difference of slopes. -/
theorem C166_found {c : CableComponent} {t T : ℝ} {ss : CableStretchState} {τ : PolynomialType} {f : ℝ → ℝ} {e m M : ℝ}
    (h0 : ss.load ≠ 0) (ho : Other ss.type τ) (U : Unstretched c t ss τ f e) (hm : 0 < m) (hM : m ≤ M)
    (slopes : ∀ x y, x ≤ y → (c.modulusTension - M) * (y - x) ≤ f y - f x ∧ f y - f x ≤ (c.modulusTension - m) * (y - x))
    (hE : max 1 (M / m - 1) * |f e - ss.load| * (1 - m / M) ^ 49 ≤ 0.01) :
    ∃ r x, valueOf id (componentOf c t ⟨T, τ⟩ ss).pointsRegions = .val r ∧ r.start.y = f x ∧
      |f x - (ss.load + (x - e) * c.modulusTension)| ≤ 0.01 := by
  obtain ⟨cf, ct, lf, lt, f1, f2, t1, t2, nf, nt, rfl, rfl⟩ := unstretched_facts U
  obtain ⟨l', hl⟩ := (transfer_spec hm slopes).2 hM hE
  obtain ⟨x, e1, e2⟩ := (transfer_spec hm slopes).1 l' hl
  have hst := stretchOf_other (s := ⟨T, τ⟩) (t := t) h0 ho f1 f2 t1 t2 nf nt
  simp only at hst
  rw [hl] at hst
  have hsp := spec_eq hst (regionsOf_eq (s := ⟨T, τ⟩) (l := l') t1 nt t2)
  obtain ⟨m', q1, -, -, -, -, -, -, q2⟩ := (componentOf_clean c t ⟨T, τ⟩ ss).query rfl rfl rfl rfl hsp
    (fail := noRegions) (body := fun _ _ m => m.points)
  refine ⟨m'.points, x, ?_, ?_, e2⟩
  · show valueOf id (ComponentModel.query noRegions (fun _ _ m => m.points) (componentOf c t ⟨T, τ⟩ ss)) = .val m'.points
    rw [q1]
    rfl
  · rw [q2]
    exact e1

/-! ## Example: a component that has crept -/

/-- Slope 200000 on the creep polynomial, 300000 on the load-strain polynomial, elastic modulus 500000. -/
noncomputable def exCrept : CableComponent :=
  ⟨1, 0, [0, 200000, 0, 0, 0], [0, 300000, 0, 0, 0], 1000, 1000, 150000, 500000, 1, 1⟩

theorem exCrept_regions {d th limit l : ℝ} (hd : d ≠ 0) : exCrept.regions [0, d, 0, 0, 0] th limit l =
    ⟨⟨l / d * 1 + th + (0 - l) / 500000, 0⟩, ⟨l / d * 1 + th, l⟩, ⟨limit / d * 1 + th, limit⟩⟩ := by
  unfold CableComponent.regions CableComponent.strainPolynomial
  rw [polynomialX_linear hd, polynomialX_linear hd]
  rfl

theorem exCrept_load (x : ℝ) : exCrept.load .loadStrain ⟨⟨0, 0⟩, ⟨0, 0⟩, ⟨1 / 300, 1000⟩⟩ 0 x =
    if x < 0 then 150000 * x else 300000 * x := by
  have hmod : exCrept.modulusExtrapolate .loadStrain = 300000 := by
    show exCrept.modulusOf [0, 300000, 0, 0, 0] 1000 = 300000
    unfold CableComponent.modulusOf CableComponent.slopePolynomial
    rw [if_neg (by simp)]
    simp only [evalY_linear_deriv]
    norm_num [exCrept]
  unfold CableComponent.load
  simp only
  by_cases h : x < 0
  · rw [if_pos h, if_pos h]
    show 0 + (x - 0) * 150000 = _
    ring
  · rw [if_neg h, if_neg h]
    have h := not_lt.1 h
    by_cases h1 : x ≤ 0
    · have : x = 0 := le_antisymm h1 h
      subst this
      rw [if_pos ⟨le_refl _, le_refl _⟩]
      simp [CableComponent.loadLinear]
    · rw [if_neg (by rintro ⟨_, h2⟩; exact h1 h2)]
      by_cases h2 : x < 1 / 300
      · rw [if_pos ⟨not_le.1 h1, h2⟩]
        show exCrept.loadPolynomial [0, 300000, 0, 0, 0] 0 x = _
        unfold CableComponent.loadPolynomial
        rw [evalY_linear]
        simp [exCrept]
      · rw [if_neg (by rintro ⟨_, h3⟩; exact h2 h3), if_pos (not_lt.1 h2), if_neg (by rintro ⟨⟩), hmod]
        unfold CableComponent.loadLinear
        ring

theorem exCrept_unstretched : Unstretched exCrept 0 ⟨0, .creep, 600⟩ .loadStrain
    (fun x => if x < 0 then 150000 * x else 300000 * x) 0.003 := by
  have ht : exCrept.thermal 0 0 = 0 := by unfold CableComponent.thermal; ring
  constructor
  · intro x
    have hsp : spec exCrept 0 ⟨0, .loadStrain⟩ ⟨0, .creep, 0⟩ = .val (some (0, 0, ⟨⟨0, 0⟩, ⟨0, 0⟩, ⟨1 / 300, 1000⟩⟩)) := by
      refine spec_eq (stretchOf_same (Or.inr rfl)) ?_
      rw [regionsOf_eq (cs := [0, 300000, 0, 0, 0]) (limit := 1000) rfl (by simp) rfl, ht, exCrept_regions (by norm_num)]
      norm_num
    obtain ⟨m', q1, -, -, -, -, -, q3, q2⟩ := (componentOf_clean exCrept 0 ⟨0, .loadStrain⟩ ⟨0, .creep, 0⟩).query rfl rfl rfl
      rfl hsp (fail := (-999999 : ℝ)) (body := fun c s m => c.load s.type m.points m.thermalState x)
    show valueOf id (ComponentModel.query (-999999 : ℝ) _ _) = _
    rw [q1, q2, q3]
    show Res.val (exCrept.load .loadStrain _ 0 x) = _
    rw [exCrept_load]
  · have hsp : spec exCrept 0 ⟨0, .creep⟩ ⟨0, .creep, 0⟩ = .val (some (0, 0, ⟨⟨0, 0⟩, ⟨0, 0⟩, ⟨1 / 200, 1000⟩⟩)) := by
      refine spec_eq (stretchOf_same (Or.inr rfl)) ?_
      rw [regionsOf_eq (cs := [0, 200000, 0, 0, 0]) (limit := 1000) rfl (by simp) rfl, ht, exCrept_regions (by norm_num)]
      norm_num
    obtain ⟨m', q1, -, -, -, -, -, q3, q2⟩ := (componentOf_clean exCrept 0 ⟨0, .creep⟩ ⟨0, .creep, 0⟩).query rfl rfl rfl
      rfl hsp (fail := (-999999 : ℝ)) (body := fun c s m => c.strain s.type m.points m.thermalState 600)
    show valueOf id (ComponentModel.query (-999999 : ℝ) _ _) = _
    rw [q1, q2, q3]
    show Res.val (exCrept.strain .creep _ 0 600) = _
    unfold CableComponent.strain
    rw [if_neg (by norm_num), if_neg (by norm_num), if_pos (by norm_num)]
    show Res.val (exCrept.strainPolynomial [0, 200000, 0, 0, 0] 0 600) = _
    unfold CableComponent.strainPolynomial
    rw [polynomialX_linear (by norm_num)]
    norm_num [exCrept]

theorem exCrept_slopes (x y : ℝ) (h : x ≤ y) :
    (exCrept.modulusTension - 350000) * (y - x) ≤ (if y < 0 then 150000 * y else 300000 * y) -
      (if x < 0 then 150000 * x else 300000 * x) ∧
    (if y < 0 then 150000 * y else 300000 * y) - (if x < 0 then 150000 * x else 300000 * x) ≤
      (exCrept.modulusTension - 200000) * (y - x) := by
  have e : exCrept.modulusTension = 500000 := rfl
  rw [e]
  split_ifs <;> constructor <;> linarith

/-- Theorems C166 apply: the stretch to 600 on the creep curve is, on the load-strain curve, a stretch to 1350 at 20 degrees
as at 0 degrees. -/
example : ∃ r, valueOf id (componentOf exCrept 0 ⟨20, .loadStrain⟩ ⟨0, .creep, 600⟩).pointsRegions = .val r ∧
    |r.start.y - 1350| ≤ 0.02 := by
  obtain ⟨r, x, h1, h2, h3⟩ := C166_found (ss := ⟨0, .creep, 600⟩) (τ := .loadStrain) (T := 20) (m := 200000) (M := 350000) (by norm_num) trivial exCrept_unstretched
    (by norm_num) (by norm_num) exCrept_slopes (by norm_num [abs_of_pos])
  have e : exCrept.modulusTension = 500000 := rfl
  have hx : ¬ x < 0 := by
    intro hx
    rw [if_pos hx, e] at h3
    have := (abs_le.1 h3).2
    norm_num at this
    linarith
  rw [if_neg hx, e] at h3
  rw [if_neg hx] at h2
  refine ⟨r, h1, ?_⟩
  rw [h2, abs_le]
  obtain ⟨k1, k2⟩ := abs_le.1 h3
  norm_num at k1 k2
  constructor <;> linarith

/-- The unloading line of the stretched component then meets the one on the creep curve. -/
example : ∃ r x, valueOf id (componentOf exCrept 0 ⟨20, .loadStrain⟩ ⟨0, .creep, 600⟩).pointsRegions = .val r ∧
    r.start.y = (if x < 0 then 150000 * x else 300000 * x) ∧ |x - 0.0045| ≤ 0.01 / 200000 := by
  obtain ⟨r, x, h1, h2, h3⟩ := C166_found (ss := ⟨0, .creep, 600⟩) (τ := .loadStrain) (T := 20) (m := 200000) (M := 350000) (by norm_num) trivial exCrept_unstretched
    (by norm_num) (by norm_num) exCrept_slopes (by norm_num [abs_of_pos])
  have e : exCrept.modulusTension = 500000 := rfl
  exact ⟨r, x, h1, h2, near_crossing (by norm_num) exCrept_slopes h3 (by rw [e]; norm_num)⟩

end Verif.Props
