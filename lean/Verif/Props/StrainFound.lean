import Verif.Props.StrainPositive
import Verif.Props.ReloadAbove

/-! # The search for a strain ends (C89): where the stiffness does not vary too much it always succeeds -/

set_option linter.unusedSectionVars false

namespace Verif.Props
open ElongationModel ComponentModel

/-- From `a` on the slope of `f` is between `m` and `M`. -/
def SlopesIn (f : ℝ → ℝ) (a m M : ℝ) : Prop :=
  ∀ x y, a ≤ x → x ≤ y → m * (y - x) ≤ f y - f x ∧ f y - f x ≤ M * (y - x)

/-- The points around the load. -/
structure Around (f : ℝ → ℝ) (a l : ℝ) (s : StrainSearch) : Prop where
  low : a ≤ s.left.x
  lt : s.left.x < s.right.x
  left : s.left.y = f s.left.x
  right : s.right.y = f s.right.x
  below : s.left.y < l
  above : l ≤ s.right.y

/-- Where the line between the points meets the load. -/
noncomputable def _root_.Verif.StrainSearch.meet (l : ℝ) (s : StrainSearch) : ℝ :=
  s.left.x + (l - s.left.y) / ((s.right.y - s.left.y) / (s.right.x - s.left.x))

theorem meet_spec {f : ℝ → ℝ} {a l m M : ℝ} (hm : 0 < m) (F : SlopesIn f a m M) {s : StrainSearch}
    (A : Around f a l s) : s.left.x ≤ s.meet l ∧ s.meet l ≤ s.right.x ∧
      l - f (s.meet l) ≤ (l - s.left.y) * (1 - m / M) ∧
      f (s.meet l) - l ≤ (s.right.y - l) * (1 - m / M) ∧
      f (s.meet l) - l ≤ (l - s.left.y) * (M / m - 1) := by
  obtain ⟨h1, h2, h3, h4, h5, h6⟩ := A
  have hd : 0 < s.right.x - s.left.x := by linarith
  have hy : 0 < s.right.y - s.left.y := by linarith
  obtain ⟨b1, b2⟩ := F _ _ h1 h2.le
  rw [← h3, ← h4] at b1 b2
  set sl := (s.right.y - s.left.y) / (s.right.x - s.left.x) with hsl
  have s0 : 0 < sl := div_pos hy hd
  have s1 : m ≤ sl := by rw [hsl, le_div_iff₀ hd]; exact b1
  have s2 : sl ≤ M := by rw [hsl, div_le_iff₀ hd]; exact b2
  have s3 : sl * (s.right.x - s.left.x) = s.right.y - s.left.y := div_mul_cancel₀ _ hd.ne'
  have hx : s.meet l = s.left.x + (l - s.left.y) / sl := rfl
  clear_value sl
  have e1 : (s.meet l - s.left.x) * sl = l - s.left.y := by
    rw [hx]; field_simp; ring
  have e2 : (s.right.x - s.meet l) * sl = s.right.y - l := by nlinarith
  have g1 : s.left.x ≤ s.meet l := by
    have : 0 ≤ (l - s.left.y) / sl := div_nonneg (by linarith) s0.le
    linarith
  have g2 : s.meet l ≤ s.right.x := by
    by_contra hc
    have := mul_neg_of_neg_of_pos (sub_neg.2 (not_le.1 hc)) s0
    linarith
  obtain ⟨c1, c2⟩ := F _ _ h1 g1
  obtain ⟨d1, d2⟩ := F _ _ (h1.trans g1) g2
  rw [← h3] at c1 c2
  rw [← h4] at d1 d2
  have hM : 0 < M := s0.trans_le s2
  have q1 : ∀ u : ℝ, 0 ≤ u → u * sl * (m / M) ≤ m * u := by
    intro u hu
    have : sl * (m / M) ≤ m := by
      rw [mul_div_assoc', div_le_iff₀ hM]
      nlinarith
    nlinarith
  have q2 : ∀ u : ℝ, 0 ≤ u → M * u ≤ u * sl * (M / m) := by
    intro u hu
    have : M ≤ sl * (M / m) := by
      rw [mul_div_assoc', le_div_iff₀ hm]
      nlinarith
    nlinarith
  have u1 := q1 _ (sub_nonneg.2 g1)
  have u2 := q1 _ (sub_nonneg.2 g2)
  have u3 := q2 _ (sub_nonneg.2 g1)
  rw [e1] at u1 u3
  rw [e2] at u2
  refine ⟨g1, g2, ?_, ?_, ?_⟩ <;> linarith

/-- One pass of the loop moves one of the two points closer. -/
theorem step_around {f : ℝ → ℝ} {a l m M : ℝ} (hm : 0 < m) (F : SlopesIn f a m M) {s : StrainSearch}
    (A : Around f a l s) :
    (s.step f l).current.x = s.meet l ∧ (s.step f l).current.y = f (s.meet l) ∧ (s.step f l).iter = s.iter + 1 ∧
      (f (s.meet l) = l ∨
        (f (s.meet l) < l ∧ (s.step f l).left = ⟨s.meet l, f (s.meet l)⟩ ∧ (s.step f l).right = s.right) ∨
        (l < f (s.meet l) ∧ (s.step f l).right = ⟨s.meet l, f (s.meet l)⟩ ∧ (s.step f l).left = s.left)) := by
  obtain ⟨g1, g2, -⟩ := meet_spec hm F A
  unfold StrainSearch.step
  simp only
  rw [show s.left.x + (l - s.left.y) / ((s.right.y - s.left.y) / (s.right.x - s.left.x)) = s.meet l from rfl]
  rw [if_neg (not_lt.2 g1), if_pos ⟨g1, g2⟩]
  rcases lt_trichotomy (f (s.meet l)) l with h | h | h
  · rw [if_pos h]
    exact ⟨rfl, rfl, rfl, .inr (.inl ⟨h, rfl, rfl⟩)⟩
  · rw [if_neg (by linarith), if_neg (by linarith)]
    exact ⟨rfl, rfl, rfl, .inl h⟩
  · rw [if_neg (by linarith), if_pos h]
    exact ⟨rfl, rfl, rfl, .inr (.inr ⟨h, rfl, rfl⟩)⟩

theorem strainLoop_done {f : ℝ → ℝ} {l : ℝ} (n : ℕ) {s : StrainSearch} (h : |s.current.y - l| ≤ 0.01) :
    strainLoop f l n s = s := by
  cases n with
  | zero => rfl
  | succ n => rw [strainLoop, if_neg (not_lt.2 (by norm_num at h ⊢; exact h))]

/-- The loop closes in on the load: the left point by the factor `q` each time it moves, the right one too, from the
second time on. -/
theorem strainLoop_closes {f : ℝ → ℝ} {a l m M q E : ℝ} {N : ℕ} (hm : 0 < m) (F : SlopesIn f a m M)
    (hq : q = 1 - m / M) (q0 : 0 ≤ q) (q1 : q ≤ 1) (E0 : 0 ≤ E) (hN : E * q ^ N ≤ 0.01)
    (K : ℝ) (hK : ∀ u, 0 ≤ u → u ≤ K → u * (M / m - 1) ≤ E) :
    ∀ (n i j : ℕ) (s : StrainSearch), Around f a l s → i < N → j ≤ N → 2 * N ≤ i + j + n →
      l - s.left.y ≤ E * q ^ i → (j = 0 → l - s.left.y ≤ K) → (∀ j', j = j' + 1 → s.right.y - l ≤ E * q ^ j') →
      0.01 < |s.current.y - l| →
      (strainLoop f l (n + 1) s).iter ≤ s.iter + n ∧ |(strainLoop f l (n + 1) s).current.y - l| ≤ 0.01 ∧
        (strainLoop f l (n + 1) s).current.y = f (strainLoop f l (n + 1) s).current.x ∧
        a ≤ (strainLoop f l (n + 1) s).current.x
  | 0, i, j, s, A, hi, hj, hs, _, _, _, _ => by omega
  | n + 1, i, j, s, A, hi, hj, hs, el, ek, er, hc => by
    obtain ⟨g1, g2, g3, g4, g5⟩ := meet_spec hm F A
    obtain ⟨c1, c2, c3, c4⟩ := step_around hm F A
    have hstep : strainLoop f l (n + 1 + 1) s = strainLoop f l (n + 1) (s.step f l) := by
      rw [strainLoop, if_pos (by norm_num at hc ⊢; exact hc)]
    rw [hstep]
    have ha : a ≤ s.meet l := A.low.trans g1
    by_cases hd : |(s.step f l).current.y - l| ≤ 0.01
    · rw [strainLoop_done _ hd]
      refine ⟨by rw [c3]; omega, hd, by rw [c2, c1], by rw [c1]; exact ha⟩
    · have hd' := not_le.1 hd
      have below := A.below
      rcases c4 with h | ⟨h, p1, p2⟩ | ⟨h, p1, p2⟩
      · rw [c2, h] at hd'
        norm_num at hd'
      · have e : l - f (s.meet l) ≤ E * q ^ (i + 1) := by
          rw [pow_succ, ← mul_assoc]
          rw [← hq] at g3
          exact g3.trans (mul_le_mul_of_nonneg_right el q0)
        have A' : Around f a l (s.step f l) := by
          refine ⟨by rw [p1]; exact ha, ?_, by rw [p1], by rw [p2]; exact A.right, by rw [p1]; exact h,
            by rw [p2]; exact A.above⟩
          rw [p1, p2]
          refine lt_of_le_of_ne g2 ?_
          intro e'
          have := A.above
          rw [A.right, ← e'] at this
          linarith
        have hi' : i + 1 < N := by
          by_contra hc'
          have hiN : i + 1 = N := by omega
          rw [hiN] at e
          rw [c2, abs_of_neg (by linarith)] at hd'
          linarith
        obtain ⟨r1, r2, r3, r4⟩ := strainLoop_closes hm F hq q0 q1 E0 hN K hK n (i + 1) j (s.step f l) A' hi' hj
          (by omega) (by rw [p1]; exact e)
          (by intro hj0; rw [p1]; show l - f (s.meet l) ≤ K
              have ek := ek hj0
              have := mul_le_of_le_one_right (sub_nonneg.2 below.le) (show 1 - m / M ≤ 1 by rw [← hq]; exact q1)
              linarith)
          (by intro j' hj'; rw [p2]; exact er j' hj') hd'
        exact ⟨by rw [c3] at r1; omega, r2, r3, r4⟩
      · have e : f (s.meet l) - l ≤ E * q ^ j := by
          cases j with
          | zero =>
            rw [pow_zero, mul_one]
            exact g5.trans (hK _ (by linarith) (ek rfl))
          | succ j' =>
            rw [pow_succ, ← mul_assoc]
            rw [← hq] at g4
            exact g4.trans (mul_le_mul_of_nonneg_right (er j' rfl) q0)
        have A' : Around f a l (s.step f l) := by
          refine ⟨by rw [p2]; exact A.low, ?_, by rw [p2]; exact A.left, by rw [p1], by rw [p2]; exact A.below,
            by rw [p1]; exact h.le⟩
          rw [p1, p2]
          refine lt_of_le_of_ne g1 ?_
          intro e'
          have := A.below
          rw [A.left, e'] at this
          linarith
        have hj' : j < N := by
          by_contra hc'
          have hjN : j = N := by omega
          rw [hjN] at e
          rw [c2, abs_of_pos (by linarith)] at hd'
          linarith
        obtain ⟨r1, r2, r3, r4⟩ := strainLoop_closes hm F hq q0 q1 E0 hN K hK n i (j + 1) (s.step f l) A' hi
          (by omega) (by omega) (by rw [p2]; exact el) (by intro h; omega)
          (by intro j' hj'; cases hj'; rw [p1]; exact e) hd'
        exact ⟨by rw [c3] at r1; omega, r2, r3, r4⟩

/-- The search for the region finds neighbours around the load. -/
theorem findRegion_spec (f : ℝ → ℝ) (l : ℝ) : ∀ (xs : List ℝ) (a : ℝ) (p q : V2), xs.Pairwise (· ≤ ·) → xs.head? = some a →
    f a < l → findRegion l (xs.map fun x => ⟨x, f x⟩) = some (p, q) →
    a ≤ p.x ∧ p.x ≤ q.x ∧ p.y = f p.x ∧ q.y = f q.x ∧ p.y < l ∧ l ≤ q.y
  | [], a, p, q, _, h, _, _ => by cases h
  | [b], a, p, q, _, h, _, h' => by simp [findRegion] at h'
  | b :: c :: rest, a, p, q, hs, h, hl, h' => by
    cases h
    simp only [List.map_cons, findRegion] at h'
    split_ifs at h' with hc
    · cases h'
      exact ⟨le_refl _, (List.pairwise_cons.1 hs).1 c (by simp), rfl, rfl, hl, hc.2⟩
    · have hb : f c < l := by
        by_contra hb
        exact hc ⟨hl.le, not_lt.1 hb⟩
      have hbc : b ≤ c := (List.pairwise_cons.1 hs).1 c (by simp)
      obtain ⟨e1, e2⟩ := findRegion_spec f l (c :: rest) c p q (List.pairwise_cons.1 hs).2 rfl hb (by simpa using h')
      exact ⟨hbc.trans e1, e2⟩

/-- **The search succeeds**: the loads lie on a curve whose slopes are between `m` and `M` and which is a line past
the last point. -/
theorem strainCombined_found {f : ℝ → ℝ} {xs : List ℝ} {a z l m M : ℝ} (hs : xs.Pairwise (· ≤ ·)) (h1 : xs.head? = some a)
    (h2 : xs.getLast? = some z) (hm : 0 < m) (hM : m ≤ M) (F : SlopesIn f a m M)
    (line : ∃ A B, ∀ x, z < x → f x = A + B * x) (l0 : -999998 < l) (hl : f a < l)
    (hE : max 1 (M / m - 1) * (l - f a) * (1 - m / M) ^ 49 ≤ 0.01) :
    ∃ x, strainCombined f (xs.map fun x => ⟨x, f x⟩) l = .val x ∧ a ≤ x ∧ |f x - l| ≤ 0.01 := by
  have hM0 : 0 < M := hm.trans_le hM
  have haz : a ≤ z := by
    cases xs with
    | nil => cases h1
    | cons b rest =>
      cases h1
      rcases List.mem_cons.1 (List.mem_of_mem_getLast? h2) with rfl | h
      · exact le_refl _
      · exact (List.pairwise_cons.1 hs).1 _ h
  have start : (0.01 : ℝ) < |(-999999 : ℝ) - l| := by rw [abs_of_neg (by linarith)]; linarith
  unfold strainCombined strainStart
  rw [List.head?_map, List.getLast?_map, h1, h2]
  simp only [Option.map_some]
  rw [if_neg (not_le.2 hl)]
  by_cases hz : f z ≤ l
  · rw [if_pos hz]
    simp only
    obtain ⟨A, B, hAB⟩ := line
    have hB : m ≤ B := by
      have := (F (z + 1) (z + 2) (by linarith) (by linarith)).1
      rw [hAB _ (by linarith), hAB _ (by linarith)] at this
      linarith
    have hB0 : 0 < B := hm.trans_le hB
    -- the line starts at the last point
    have hzl : f z = A + B * z := by
      by_contra hne
      set d := f z - (A + B * z) with hd
      have hd0 : d ≠ 0 := fun h => hne (by linarith)
      have hdp : 0 < |d| := abs_pos.2 hd0
      set e := |d| / (2 * (M + B)) with he
      have he0 : 0 < e := by positivity
      have he1 : e * (M + B) = |d| / 2 := by rw [he]; field_simp
      obtain ⟨k1, k2⟩ := F z (z + e) haz (by linarith)
      rw [hAB _ (by linarith)] at k1 k2
      have e3 : A + B * (z + e) - f z = B * e - d := by rw [hd]; ring
      rw [e3] at k1 k2
      have e4 : z + e - z = e := by ring
      rw [e4] at k1 k2
      clear_value d e
      have hMe : 0 < M * e := by positivity
      have hBe : 0 < B * e := by positivity
      have hme : 0 < m * e := by positivity
      rcases abs_cases d with ⟨h, _⟩ | ⟨h, _⟩ <;> rw [h] at he1 <;> nlinarith
    set x := z + (l - f z) / ((f (z + 0.0005) - f z) / (z + 0.0005 - z)) with hx
    have hx' : x = z + (l - f z) / B := by
      rw [hx, hAB (z + 0.0005) (by linarith), hzl]
      congr 2
      field_simp
      ring
    have hzx : z ≤ x := by
      have : 0 ≤ (l - f z) / B := div_nonneg (by linarith) hB0.le
      linarith
    have hfx : f x = l := by
      rcases eq_or_lt_of_le hzx with h | h
      · have : (l - f z) / B = 0 := by linarith
        rcases div_eq_zero_iff.1 this with h' | h'
        · rw [← h]; linarith
        · exact absurd h' hB0.ne'
      · rw [hAB x h, hx', hzl]
        field_simp
        ring
    set s : StrainSearch := ⟨⟨z, f z⟩, ⟨z + 0.0005, f (z + 0.0005)⟩, ⟨-999999, -999999⟩, 1⟩ with hsdef
    obtain ⟨c2, c3⟩ := strainStep_current f l s
    have c1 : (s.step f l).current.x = x := by
      unfold StrainSearch.step
      simp only
      split_ifs <;> rfl
    have hlo : strainLoop f l 99 s = s.step f l := by
      rw [strainLoop, if_pos (by norm_num at start ⊢; exact start)]
      exact strainLoop_done _ (by rw [c2, c1, hfx]; norm_num)
    rw [hlo, c3, c1]
    refine ⟨x, ?_, haz.trans hzx, by rw [hfx]; norm_num⟩
    rw [if_pos (by norm_num [hsdef])]
  · rw [if_neg hz]
    obtain ⟨⟨p, q⟩, hr⟩ := findRegion_some l (xs.map fun x => (⟨x, f x⟩ : V2)) ⟨a, f a⟩ ⟨z, f z⟩
      (by rw [List.head?_map, h1]; rfl) (by rw [List.getLast?_map, h2]; rfl) hl (not_le.1 hz)
    rw [hr]
    simp only
    obtain ⟨r1, r2, r3, r4, r5, r6⟩ := findRegion_spec f l xs a p q hs h1 hl hr
    set s : StrainSearch := ⟨p, q, ⟨-999999, -999999⟩, 1⟩ with hsdef
    have A : Around f a l s := by
      refine ⟨r1, lt_of_le_of_ne r2 ?_, r3, r4, r5, r6⟩
      intro e
      have : p.x = q.x := e
      rw [r3, this, ← r4] at r5
      linarith
    have hra : m / M ≤ 1 := (div_le_one hM0).2 hM
    have hra0 : 0 < m / M := by positivity
    have hpa : f a ≤ f p.x := by
      have := (F a p.x (le_refl _) r1).1
      have : 0 ≤ m * (p.x - a) := mul_nonneg hm.le (by linarith)
      linarith
    have hEl : l - f a ≤ max 1 (M / m - 1) * (l - f a) := le_mul_of_one_le_left (by linarith) (le_max_left _ _)
    obtain ⟨g1, g2, g3, g4⟩ := strainLoop_closes (N := 49) (q := 1 - m / M) (E := max 1 (M / m - 1) * (l - f a)) hm F rfl
      (by linarith) (by linarith) (by linarith) hE (l - f a)
      (by
        intro u u0 hu
        rw [mul_comm]
        exact mul_le_mul (le_max_right _ _) hu u0 (le_trans zero_le_one (le_max_left _ _)))
      98 0 0 s A (by norm_num) (by norm_num) (by norm_num)
      (by rw [pow_zero, mul_one]; show l - p.y ≤ _; rw [r3]; linarith) (by intro _; show l - p.y ≤ _; rw [r3]; linarith)
      (by intro j' h; cases h) start
    refine ⟨(strainLoop f l 99 s).current.x, ?_, g4, by rw [← g3]; exact g2⟩
    rw [if_pos (by
      have h1 : s.iter = 1 := rfl
      have h2 : (strainLoop f l 99 s).iter ≤ s.iter + 98 := g1
      omega)]

/-- Past its last region point a component gives way along a line. -/
theorem part_line (c : CableComponent) (s : CableState) (o : Option (ℝ × Regions)) {z : ℝ}
    (h : ∀ y ∈ strainsOf c o, y ≤ z) : ∃ A B, ∀ x, z < x → ansOf CableComponent.load c s o x = A + B * x := by
  unfold ansOf
  by_cases he : c.Enabled
  · simp only [if_pos he]
    cases o with
    | none => exact ⟨-999999, 0, fun x _ => by simp only; ring⟩
    | some q =>
      obtain ⟨th, r⟩ := q
      unfold strainsOf at h
      rw [if_pos he] at h
      simp only [List.mem_cons, List.not_mem_nil, or_false, forall_eq_or_imp, forall_eq] at h
      obtain ⟨b1, b2, b3⟩ := h
      by_cases ht : s.type = .null
      · refine ⟨-999999, 0, fun x hx => ?_⟩
        simp only
        unfold CableComponent.load
        rw [if_neg (by linarith), if_neg (by rintro ⟨_, h⟩; linarith), if_neg (by rintro ⟨_, h⟩; linarith),
          if_pos (by linarith)]
        simp [ht]
      · refine ⟨r.stop.y - r.stop.x * c.modulusExtrapolate s.type, c.modulusExtrapolate s.type, fun x hx => ?_⟩
        simp only
        unfold CableComponent.load
        rw [if_neg (by linarith), if_neg (by rintro ⟨_, h⟩; linarith), if_neg (by rintro ⟨_, h⟩; linarith),
          if_pos (by linarith)]
        simp only [if_neg ht]
        unfold CableComponent.loadLinear
        ring
  · simp only [if_neg he]
    exact ⟨0, 0, fun x _ => by ring⟩

/-- The points of the whole cable: sorted, on the load curve, and a line past the last one. -/
theorem points_shape (k : Cable) (s : CableState) (o : Option (ℝ × Regions) × Option (ℝ × Regions))
    (he : k.core.Enabled ∨ k.shell.Enabled) :
    ∃ (xs : List ℝ) (a z : ℝ), pointsOf k s o = xs.map (fun x => ⟨x, bothOf CableComponent.load k s o x⟩) ∧ xs.Pairwise (· ≤ ·) ∧
      xs.head? = some a ∧ xs.getLast? = some z ∧
      ∃ A B, ∀ x, z < x → bothOf CableComponent.load k s o x = A + B * x := by
  classical
  set xs := (strainsOf k.core o.1 ++ strainsOf k.shell o.2).insertionSort (· ≤ ·) with hxs
  have hs : xs.Pairwise (· ≤ ·) := List.pairwise_insertionSort (r := (· ≤ ·)) _
  have hne : xs ≠ [] := by
    intro hn
    have hl := congrArg List.length hn
    rw [hxs, List.length_insertionSort] at hl
    rcases he with he | he <;> simp [strainsOf, he] at hl
  obtain ⟨a, rest, hr⟩ := List.exists_cons_of_ne_nil hne
  have last : ∀ y ∈ xs, y ≤ xs.getLast hne := by
    intro y hy
    rw [← List.dropLast_append_getLast hne] at hy hs
    rcases List.mem_append.1 hy with h | h
    · have := (List.pairwise_append.1 hs).2.2 y h (xs.getLast hne)
      exact this (by simp)
    · simp only [List.mem_singleton] at h
      exact h.le
  have mem : ∀ y, y ∈ strainsOf k.core o.1 ++ strainsOf k.shell o.2 → y ∈ xs := fun y hy =>
    (List.mem_insertionSort (r := (· ≤ ·))).2 hy
  obtain ⟨A, B, h1⟩ := part_line k.core s o.1 (z := xs.getLast hne) fun y hy => last y (mem y (List.mem_append_left _ hy))
  obtain ⟨A', B', h2⟩ := part_line k.shell s o.2 (z := xs.getLast hne) fun y hy => last y (mem y (List.mem_append_right _ hy))
  refine ⟨xs, a, xs.getLast hne, rfl, hs, by rw [hr]; rfl, List.getLast?_eq_some_getLast hne, A + A', B + B', fun x hx => ?_⟩
  unfold bothOf
  rw [h1 x hx, h2 x hx]
  ring

/-- **C89**. The search for a strain succeeds where the stiffness of the cable does not vary too much.  Let `f` be the
combined loads an elongation model reports, and `a` the least strain it reports.  If the slope of `f` is between `m` and
`M` from `a` on, then every tension whose distance from `f a` is not too great for the ratio of `m` and `M` is answered
with a strain that reproduces it to within 0.01. -/
theorem C89_found {k : Cable} (Ec : Elastic k.core) (Es : Elastic k.shell) (he : k.core.Enabled ∨ k.shell.Enabled)
    (st : CableState) (z : CableStretchState)
    {f : ℝ → ℝ} (hf : ∀ x, valueOf id ((modelOf k st z).load .combined x) = .val (f x))
    {a low m M : ℝ} (ha : ∀ l ≤ low, valueOf id ((modelOf k st z).strain .combined l) = .val a)
    (hm : 0 < m) (hM : m ≤ M)
    (slopes : ∀ x y, a ≤ x → x ≤ y → m * (y - x) ≤ f y - f x ∧ f y - f x ≤ M * (y - x))
    {l : ℝ} (hl : 0 < l) (hE : max 1 (M / m - 1) * (l - f a) * (1 - m / M) ^ 49 ≤ 0.01) :
    ∃ x, valueOf id ((modelOf k st z).strain .combined l) = .val x ∧ a ≤ x ∧ |f x - l| ≤ 0.01 := by
  have G : Good k (modelOf k st z) := good_flags_false (attach_att k ElongationModel.new k rfl) rfl rfl
  obtain ⟨o, ho⟩ : ∃ o, knownOf k st z = .val o := by
    rcases G.ask rfl CableComponent.load .combined 0 with ⟨o, m', e1, -⟩ | ⟨e1, e2⟩
    · exact ⟨o, e1⟩
    · have := hf 0
      unfold ElongationModel.load at this
      rw [e2] at this
      cases this
  have hfo : f = bothOf CableComponent.load k st o := by
    funext x
    rcases G.ask rfl CableComponent.load .combined x with ⟨o', m', e1, e2, -⟩ | ⟨e1, e2⟩
    · cases ho.symm.trans e1
      have := hf x
      unfold ElongationModel.load at this
      rw [e2] at this
      exact (Res.val.inj this).symm
    · cases ho.symm.trans e1
  have strains : ∀ y x, strainCombined f (pointsOf k st o) y = .val x →
      valueOf id ((modelOf k st z).strain .combined y) = .val x := by
    intro y x hx
    rcases G.strain rfl .combined y with ⟨o', x', m', e1, e2, e3, -⟩ | ⟨⟨o', e1, e2⟩, -⟩ | ⟨e1, -⟩
    · cases ho.symm.trans e1
      rw [e3]
      have e2 : strainCombined (bothOf CableComponent.load k st o) (pointsOf k st o) y = .val x' := e2
      rw [← hfo, hx] at e2
      cases e2
      rfl
    · cases ho.symm.trans e1
      have e2 : strainCombined (bothOf CableComponent.load k st o) (pointsOf k st o) y = .ub := e2
      rw [← hfo, hx] at e2
      cases e2
    · cases ho.symm.trans e1
  obtain ⟨xs, b, c, p1, p2, p3, p4, p5⟩ := points_shape k st o he
  rw [← hfo] at p1 p5
  have hb : b = a := by
    have h := ha (min low (f b)) (min_le_left _ _)
    have h' := strains (min low (f b)) b (by
      unfold strainCombined strainStart
      rw [p1, List.head?_map, List.getLast?_map, p3, p4]
      simp only [Option.map_some]
      rw [if_pos (min_le_right _ _)])
    rw [h] at h'
    exact (Res.val.inj h').symm
  subst hb
  have hfb : f b ≤ 0 := least_point Ec Es ho (p := ⟨b, f b⟩) (by rw [p1, List.head?_map, p3]; rfl)
  obtain ⟨x, e1, e2, e3⟩ := strainCombined_found p2 p3 p4 hm hM slopes p5 (by linarith) (hfb.trans_lt hl) hE
  exact ⟨x, strains l x (by rw [p1]; exact e1), e2, e3⟩

/-- **C89**. In particular: if the stiffness varies by at most the factor 3, every tension up to a million above the load
of the least strain is answered with a strain that reproduces it to within 0.01. -/
theorem C89_found_moderate {k : Cable} (Ec : Elastic k.core) (Es : Elastic k.shell) (he : k.core.Enabled ∨ k.shell.Enabled)
    (st : CableState) (z : CableStretchState)
    {f : ℝ → ℝ} (hf : ∀ x, valueOf id ((modelOf k st z).load .combined x) = .val (f x))
    {a low m : ℝ} (ha : ∀ l ≤ low, valueOf id ((modelOf k st z).strain .combined l) = .val a)
    (hm : 0 < m) (slopes : ∀ x y, a ≤ x → x ≤ y → m * (y - x) ≤ f y - f x ∧ f y - f x ≤ 3 * m * (y - x))
    {l : ℝ} (hl : 0 < l) (hE : l - f a ≤ 1000000) :
    ∃ x, valueOf id ((modelOf k st z).strain .combined l) = .val x ∧ a ≤ x ∧ |f x - l| ≤ 0.01 := by
  refine C89_found Ec Es he st z hf ha hm (by linarith) slopes hl ?_
  rw [show 3 * m / m - 1 = (2 : ℝ) by field_simp; norm_num, show 1 - m / (3 * m) = (2 / 3 : ℝ) by field_simp; norm_num]
  rw [max_eq_right (by norm_num)]
  have : (2 : ℝ) * (l - f a) * (2 / 3) ^ 49 ≤ 2 * 1000000 * (2 / 3) ^ 49 :=
    mul_le_mul_of_nonneg_right (by linarith) (by positivity)
  refine this.trans ?_
  norm_num

/-- **C118**. For a cable with moduli above zero whose stiffness varies by at most the factor 3 the search does not fail:
the average tension reported for the whole cable is that of the reloaded catenary to within 0.01.

Not covered: cables whose stiffness varies more. -/
theorem C118_found_partial {ks : List LineReloader.Call} {s : LineReloader} (h : LineReloader.run .new ks = some s)
    {k : Cable} (hc : s.base.lineCable.bind (·.cable) = some k) (Ec : Elastic k.core) (Es : Elastic k.shell)
    (he : k.core.Enabled ∨ k.shell.Enabled)
    {b : ℝ} (ha : (s.tensionAverageComponent .combined).result = some (.val b)) (h0 : b ≠ -999999) :
    ∃ K st zc zl, s.catenaryReloaded.result = some (.val K) ∧ s.stateReloaded.result = some (.val st) ∧
      s.stretchCreep.result = some (.val zc) ∧ s.stretchLoad.result = some (.val zl) ∧
      ∀ (f : ℝ → ℝ) (a low m : ℝ),
        (∀ x, valueOf id ((modelOf k st (conditionStretch s.condition zc zl)).load .combined x) = .val (f x)) →
        (∀ l ≤ low, valueOf id ((modelOf k st (conditionStretch s.condition zc zl)).strain .combined l) = .val a) →
        0 < m → (∀ x y, a ≤ x → x ≤ y → m * (y - x) ≤ f y - f x ∧ f y - f x ≤ 3 * m * (y - x)) →
        0 < K.tensionAverage → K.tensionAverage - f a ≤ 1000000 → |b - K.tensionAverage| ≤ 0.01 := by
  have hs : s.Sound := LineReloader.run_sound (LineReloader.fresh_sound .new) ks h
  obtain ⟨t, hu, ht, hk, e⟩ := asked_updated hs ha h0
  obtain ⟨k', w, hc', -, hm⟩ := updated_model hk.1 ht
  have hkk : k' = k := by
    rw [hk.2.1, hc] at hc'
    exact (Option.some.inj hc').symm
  subst hkk
  refine ⟨t.catenary, t.model.state, t.base.stretchCreep, t.base.stretchLoad, updated_ask hu _ _, updated_ask hu _ _,
    updated_ask hu _ _, updated_ask hu _ _, fun f a low m hf hlow hm0 slopes hp hE => ?_⟩
  have hm' : modelOf k' t.model.state (conditionStretch s.condition t.base.stretchCreep t.base.stretchLoad) = t.model := by
    rw [← hk.2.2.1, hm]
    rfl
  obtain ⟨x, e1, e2, e3⟩ := C89_found_moderate Ec Es he _ _ hf hlow hm0 slopes hp hE
  have G : Good k' (modelOf k' t.model.state (conditionStretch s.condition t.base.stretchCreep t.base.stretchLoad)) :=
    good_flags_false (attach_att k' ElongationModel.new k' rfl) rfl rfl
  have hfx := hf x
  rcases G.strain rfl .combined t.catenary.tensionAverage with ⟨o, x', m1, h1, h2, h3, G', S⟩ | ⟨-, h3⟩ | ⟨-, h3⟩
  · rw [h3] at e1
    have hx : x' = x := Res.val.inj e1
    subst hx
    have e : t.partLoad .combined = .val b := e
    unfold LineReloader.partLoad at e
    rw [← hm', h3] at e
    rcases G'.ask S.1 CableComponent.load .combined x' with ⟨o', m2, g1, g2, -⟩ | ⟨g1, -⟩
    · rw [S.2.1, S.2.2, h1] at g1
      cases g1
      rcases G.ask rfl CableComponent.load .combined x' with ⟨o', m3, g3, g4, -⟩ | ⟨g3, -⟩
      · cases h1.symm.trans g3
        have hb : b = partOf CableComponent.load k' m1.state o x' .combined := by
          have g2 : m1.load .combined x' = .ok m2 (partOf CableComponent.load k' m1.state o x' .combined) := g2
          simp only [g2, Res.val.injEq] at e
          exact e.symm
        have g4 : (modelOf k' t.model.state (conditionStretch s.condition t.base.stretchCreep t.base.stretchLoad)).load
          .combined x' = .ok m3 (partOf CableComponent.load k' t.model.state o x' .combined) := g4
        rw [g4] at hfx
        have hfx : partOf CableComponent.load k' t.model.state o x' .combined = f x' := Res.val.inj hfx
        rw [hb, S.2.1]
        show |partOf CableComponent.load k' t.model.state o x' .combined - _| ≤ _
        rw [hfx]
        exact e3
      · cases h1.symm.trans g3
    · rw [S.2.1, S.2.2, h1] at g1
      cases g1
  · rw [h3] at e1; cases e1
  · rw [h3] at e1; cases e1

/-! ## Example: a Hooke cable -/

theorem hooke_both_all {e x : ℝ} (he : 100000 ≤ e) {s : CableState} (hs : s.type ≠ .null) (h0 : 0 ≤ x) :
    bothOf CableComponent.load (hookeCable e) s (some (0, hookePoints e), some (0, hookePoints e)) x = 2 * (e * x) := by
  have ha : ansOf CableComponent.load (exComponent e e) s (some (0, hookePoints e)) x = e * x := by
    unfold ansOf
    rw [if_pos (hooke_enabled (by linarith))]
    exact hooke_load_all he hs h0
  show ansOf CableComponent.load (exComponent e e) s (some (0, hookePoints e)) x +
    ansOf CableComponent.load (exComponent e e) s (some (0, hookePoints e)) x = _
  rw [ha]
  ring

theorem hooke_loads {e : ℝ} (he : 100000 ≤ e) {s : CableState} (hs : s.type ≠ .null) (x : ℝ) :
    valueOf id ((modelOf (hookeCable e) s ⟨0, .loadStrain, 0⟩).load .combined x) =
      .val (bothOf CableComponent.load (hookeCable e) s (some (0, hookePoints e), some (0, hookePoints e)) x) := by
  have G : Good (hookeCable e) (modelOf (hookeCable e) s ⟨0, .loadStrain, 0⟩) :=
    good_flags_false (attach_att (hookeCable e) ElongationModel.new (hookeCable e) rfl) rfl rfl
  have hk := hooke_known (e := e) (by linarith) hs (ss := ⟨0, .loadStrain, 0⟩) rfl
  rcases G.ask rfl CableComponent.load .combined x with ⟨o, m', e1, e2, -⟩ | ⟨e1, -⟩
  · cases hk.symm.trans e1
    unfold ElongationModel.load
    rw [e2]
    rfl
  · cases hk.symm.trans e1

theorem hooke_least {e : ℝ} (he : 100000 ≤ e) {s : CableState} (hs : s.type ≠ .null) {l : ℝ} (hl : l ≤ 0) :
    valueOf id ((modelOf (hookeCable e) s ⟨0, .loadStrain, 0⟩).strain .combined l) = .val 0 := by
  have G : Good (hookeCable e) (modelOf (hookeCable e) s ⟨0, .loadStrain, 0⟩) :=
    good_flags_false (attach_att (hookeCable e) ElongationModel.new (hookeCable e) rfl) rfl rfl
  have hk := hooke_known (e := e) (by linarith) hs (ss := ⟨0, .loadStrain, 0⟩) rfl
  have hp := hooke_points (e := e) (by linarith) hs
  have key : strainCombined (bothOf CableComponent.load (hookeCable e) s (some (0, hookePoints e), some (0, hookePoints e)))
      (pointsOf (hookeCable e) s (some (0, hookePoints e), some (0, hookePoints e))) l = .val 0 := by
    unfold strainCombined strainStart
    rw [hp]
    simp only [List.head?_cons, List.getLast?_cons_cons, List.getLast?_singleton]
    rw [if_pos hl]
  rcases G.strain rfl .combined l with ⟨o, x, m', a1, a2, a3, -⟩ | ⟨⟨o, a1, a2⟩, -⟩ | ⟨a1, -⟩
  · cases hk.symm.trans a1
    rw [a3]
    cases key.symm.trans a2
    rfl
  · cases hk.symm.trans a1
    cases key.symm.trans a2
  · cases hk.symm.trans a1

/-- The hypotheses of C89_found_moderate are met by the Hooke cable; a load of 5000 is beyond its limits. -/
example : ∃ x, valueOf id ((modelOf (hookeCable 1000000) ⟨0, .loadStrain⟩ ⟨0, .loadStrain, 0⟩).strain .combined 5000) =
    .val x ∧ 0 ≤ x ∧ |2 * (1000000 * x) - 5000| ≤ 0.01 := by
  have h0 : ((⟨0, .loadStrain⟩ : CableState).type) ≠ .null := by rintro ⟨⟩
  have both := fun x h => hooke_both_all (e := 1000000) (x := x) (by norm_num) h0 h
  obtain ⟨x, e1, e2, e3⟩ := C89_found_moderate (hooke_elastic (e := 1000000) (by norm_num)).1
    (hooke_elastic (e := 1000000) (by norm_num)).2 (.inl (hooke_enabled (by norm_num))) ⟨0, .loadStrain⟩ ⟨0, .loadStrain, 0⟩
    (hooke_loads (by norm_num) h0) (low := 0) (m := 1000000) (fun l hl => hooke_least (by norm_num) h0 hl) (by norm_num)
    (by
      intro x y hx hxy
      rw [both x hx, both y (hx.trans hxy)]
      constructor <;> linarith)
    (l := 5000) (by norm_num) (by rw [both 0 (le_refl _)]; norm_num)
  exact ⟨x, e1, e2, by rw [both x e2] at e3; exact e3⟩

/-- The theorem C118_found_partial applies to the example of C118. -/
example : ∃ K a, exReloader.catenaryReloaded.result = some (.val K) ∧ 0 < K.tensionAverage ∧
    (exReloader.tensionAverageComponent .combined).result = some (.val a) ∧ |a - K.tensionAverage| ≤ 0.01 := by
  obtain ⟨K, a, h1, h2, h3, h4⟩ := hung_parts
  have hc : exReloader.base.lineCable.bind (·.cable) = some (hookeCable 1000000) := rfl
  obtain ⟨K', st, zc, zl, g1, g2, -, -, g5⟩ := C118_found_partial exReloader_run hc
    (hooke_elastic (by norm_num)).1 (hooke_elastic (by norm_num)).2 (.inl (hooke_enabled (by norm_num))) h2 (by linarith)
  rw [h1] at g1
  cases g1
  obtain ⟨s, u1, -, -, -, -, u2, -, x, hx, hd⟩ := hung_reloads
  have hst : st = ⟨60, .loadStrain⟩ := by
    have e : exReloader.stateReloaded.result = some (.val s.model.state) := updated_ask u1 _ _
    rw [g2, u2] at e
    cases e
    rfl
  have hK : K.tensionAverage ≤ 200 := by
    have e : exReloader.catenaryReloaded.result = some (.val s.catenary) := updated_ask u1 _ _
    rw [h1, hx] at e
    cases e
    obtain ⟨d1, d2⟩ := abs_le.1 hd
    obtain ⟨t1, t2⟩ := levelSpan_tension (s := 100) (w := 1) (h := x) (by norm_num) (by norm_num)
      (by norm_num at d1 d2 ⊢; linarith)
    norm_num at d1 d2 t2; linarith
  subst hst
  have h0 : ((⟨60, .loadStrain⟩ : CableState).type) ≠ .null := by rintro ⟨⟩
  have both := fun x h => hooke_both_all (e := 1000000) (x := x) (by norm_num) h0 h
  refine ⟨K, a, h1, h3 ▸ h4, h2, g5 _ 0 0 1000000 (hooke_loads (by norm_num) h0)
    (fun l hl => hooke_least (by norm_num) h0 hl) (by norm_num) ?_ (h3 ▸ h4) ?_⟩
  · intro x y hx hxy
    rw [both x hx, both y (hx.trans hxy)]
    constructor <;> linarith
  · rw [both 0 (le_refl _)]
    linarith

end Verif.Props
