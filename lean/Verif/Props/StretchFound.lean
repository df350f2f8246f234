import Verif.Props.StretchUndefined
import Verif.LineLoaderFacts

/-!
# C196: the stretch of the constraint is found
-/

set_option linter.unusedSectionVars false

namespace Verif.Props
open Verif

/-- The two points of the search lie within the range and on the curve, on either side of zero. -/
structure StretchBracket (S : ℝ) (g : ℝ → ℝ) (s : StretchSearch) : Prop where
  low : 0 ≤ s.left.x
  order : s.left.x < s.right.x
  high : s.right.x ≤ S
  left : s.left.y = g s.left.x
  right : s.right.y = g s.right.x
  above : 0 ≤ s.left.y
  below : s.right.y ≤ 0
  apart : s.right.y < s.left.y
  current : 0.01 < |s.current.y| ∨ (0 ≤ s.current.x ∧ s.current.x ≤ S ∧ s.current.y = g s.current.x)

/-- Where the line through both points meets zero. -/
theorem StretchBracket.point {S : ℝ} {g : ℝ → ℝ} {s : StretchSearch} (B : StretchBracket S g s) :
    s.left.x + (0 - s.left.y) / ((s.right.y - s.left.y) / (s.right.x - s.left.x)) =
      s.left.x + s.left.y * (s.right.x - s.left.x) / (s.left.y - s.right.y) ∧
    s.left.x ≤ s.left.x + s.left.y * (s.right.x - s.left.x) / (s.left.y - s.right.y) ∧
    s.left.x + s.left.y * (s.right.x - s.left.x) / (s.left.y - s.right.y) ≤ s.right.x := by
  have d : 0 < s.left.y - s.right.y := sub_pos.2 B.apart
  have e : 0 < s.right.x - s.left.x := sub_pos.2 B.order
  refine ⟨?_, ?_, ?_⟩
  · have d' : s.right.y - s.left.y ≠ 0 := by intro h; linarith
    have d'' := d.ne'
    field_simp
    ring
  · have := div_nonneg (mul_nonneg B.above e.le) d.le
    linarith
  · have : s.left.y * (s.right.x - s.left.x) / (s.left.y - s.right.y) ≤ s.right.x - s.left.x := by
      rw [div_le_iff₀ d]
      nlinarith [B.below]
    linarith

/-- The next points. -/
theorem StretchBracket.place {S : ℝ} {g : ℝ → ℝ} {s : StretchSearch} (B : StretchBracket S g s) {x : ℝ}
    (h1 : s.left.x ≤ x) (h2 : x ≤ s.right.x) :
    StretchBracket S g (s.place ⟨x, g x⟩) ∧ (s.place ⟨x, g x⟩).current = ⟨x, g x⟩ ∧
    ((g x < 0 ∧ (s.place ⟨x, g x⟩).left = s.left ∧ (s.place ⟨x, g x⟩).right = ⟨x, g x⟩) ∨
     (0 < g x ∧ (s.place ⟨x, g x⟩).left = ⟨x, g x⟩ ∧ (s.place ⟨x, g x⟩).right = s.right) ∨ g x = 0) := by
  have c : 0 ≤ x ∧ x ≤ S ∧ g x = g x := ⟨B.low.trans h1, h2.trans B.high, rfl⟩
  unfold StretchSearch.place
  simp only
  rw [if_neg (not_lt.2 h1), if_pos ⟨h1, h2⟩]
  rcases lt_trichotomy (g x) 0 with h | h | h
  · rw [if_pos h]
    refine ⟨⟨B.low, ?_, h2.trans B.high, B.left, rfl, B.above, h.le, h.trans_le B.above, Or.inr c⟩, rfl,
      Or.inl ⟨h, rfl, rfl⟩⟩
    rcases h1.lt_or_eq with q | q
    · exact q
    · exfalso
      have := B.above
      rw [B.left, q] at this
      linarith
  · rw [if_neg (by rw [h]; exact lt_irrefl _), if_neg (by rw [h]; exact lt_irrefl _)]
    exact ⟨⟨B.low, B.order, B.high, B.left, B.right, B.above, B.below, B.apart, Or.inr c⟩, rfl, Or.inr (Or.inr h)⟩
  · rw [if_neg (not_lt.2 h.le), if_pos h]
    refine ⟨⟨c.1, ?_, B.high, rfl, B.right, h.le, B.below, B.below.trans_lt h, Or.inr c⟩, rfl,
      Or.inr (Or.inl ⟨h, rfl, rfl⟩)⟩
    rcases h2.lt_or_eq with q | q
    · exact q
    · exfalso
      have := B.below
      rw [B.right, ← q] at this
      linarith

/-- The search stays between its ends. -/
theorem stretchLoop_bracket {S : ℝ} {g : ℝ → ℝ} {f : ℝ → Res (Option ℝ)}
    (hf : ∀ x, 0 ≤ x → x ≤ S → f x = .val (some (g x))) : ∀ (n : ℕ) (s : StretchSearch), StretchBracket S g s →
    stretchLoop f n s = .val .failed ∨
      ∃ x, stretchLoop f n s = .val (.found x) ∧ 0 ≤ x ∧ x ≤ S ∧ |g x| ≤ 0.01 := by
  intro n
  induction n with
  | zero => exact fun s _ => Or.inl rfl
  | succ n ih =>
    intro s B
    have nd : ¬ (s.right.x = s.left.x ∨ s.right.y = s.left.y) := by
      rintro (h | h)
      · exact B.order.ne' h
      · exact B.apart.ne h
    unfold stretchLoop
    by_cases h1 : 0.01 < |s.current.y - 0|
    · rw [if_pos h1, if_neg nd]
      obtain ⟨p1, p2, p3⟩ := B.point
      simp only
      rw [p1, hf _ (B.low.trans p2) (p3.trans B.high)]
      exact ih _ (B.place p2 p3).1
    · right
      rw [if_neg h1]
      rw [sub_zero] at h1
      rcases B.current with c | ⟨c1, c2, c3⟩
      · exact absurd c h1
      · exact ⟨_, rfl, c1, c2, by rw [← c3]; exact not_lt.1 h1⟩

/-- With differences that fall at a rate between `m` and `M`, one of the ends gets closer by the factor `1 - m / M` in
each pass. -/
theorem stretchLoop_converges {S P m M : ℝ} {g : ℝ → ℝ} {f : ℝ → Res (Option ℝ)} {N : ℕ}
    (hf : ∀ x, 0 ≤ x → x ≤ S → f x = .val (some (g x))) (m0 : 0 < m) (mM : m ≤ M)
    (hg : ∀ x y, 0 ≤ x → x ≤ y → y ≤ S → m * (y - x) ≤ g x - g y ∧ g x - g y ≤ M * (y - x))
    (hP : P * (1 - m / M) ^ N ≤ 0.01) : ∀ (n : ℕ) (s : StretchSearch) (a b : ℕ), StretchBracket S g s →
    s.left.y ≤ P * (1 - m / M) ^ a → -s.right.y ≤ P * (1 - m / M) ^ b → 2 * N ≤ n + a + b → 1 ≤ n →
    (a < N ∧ b < N) ∨ |s.current.y| ≤ 0.01 →
    ∃ x, stretchLoop f n s = .val (.found x) ∧ 0 ≤ x ∧ x ≤ S ∧ |g x| ≤ 0.01 := by
  have M0 : 0 < M := m0.trans_le mM
  have q0 : 0 ≤ 1 - m / M := by rw [sub_nonneg, div_le_one M0]; exact mM
  intro n
  induction n with
  | zero => intro s a b _ _ _ _ h; omega
  | succ n ih =>
    intro s a b B ha hb hn _ hab
    have nd : ¬ (s.right.x = s.left.x ∨ s.right.y = s.left.y) := by
      rintro (h | h)
      · exact B.order.ne' h
      · exact B.apart.ne h
    unfold stretchLoop
    by_cases h1 : 0.01 < |s.current.y - 0|
    · rw [if_pos h1, if_neg nd]
      rw [sub_zero] at h1
      obtain ⟨aN, bN⟩ : a < N ∧ b < N := by
        rcases hab with h | h
        · exact h
        · exact absurd h1 (not_lt.2 h)
      obtain ⟨p1, p2, p3⟩ := B.point
      simp only
      rw [p1, hf _ (B.low.trans p2) (p3.trans B.high)]
      simp only
      set x := s.left.x + s.left.y * (s.right.x - s.left.x) / (s.left.y - s.right.y) with hx
      obtain ⟨B', c, k⟩ := B.place p2 p3
      have d : 0 < s.left.y - s.right.y := sub_pos.2 B.apart
      have e : 0 < s.right.x - s.left.x := sub_pos.2 B.order
      have rate : s.left.y - s.right.y ≤ M * (s.right.x - s.left.x) := by
        rw [B.left, B.right]
        exact (hg _ _ B.low B.order.le B.high).2
      have up : g x ≤ s.left.y * (1 - m / M) := by
        have h := (hg _ _ B.low p2 (p3.trans B.high)).1
        rw [← B.left] at h
        have : s.left.y / M ≤ x - s.left.x := by
          rw [hx, add_sub_cancel_left, div_le_div_iff₀ M0 d]
          nlinarith [B.above]
        have : m * (s.left.y / M) ≤ m * (x - s.left.x) := mul_le_mul_of_nonneg_left this m0.le
        have r : s.left.y * (1 - m / M) = s.left.y - m * (s.left.y / M) := by ring
        rw [r]; linarith
      have down : -g x ≤ -s.right.y * (1 - m / M) := by
        have h := (hg _ _ (B.low.trans p2) p3 B.high).1
        rw [← B.right] at h
        have : -s.right.y / M ≤ s.right.x - x := by
          have : s.right.x - x = -s.right.y * (s.right.x - s.left.x) / (s.left.y - s.right.y) := by
            have q : (x - s.left.x) * (s.left.y - s.right.y) = s.left.y * (s.right.x - s.left.x) := by
              rw [hx, add_sub_cancel_left, div_mul_cancel₀ _ d.ne']
            rw [eq_div_iff d.ne']
            linear_combination -q
          rw [this, div_le_div_iff₀ M0 d]
          nlinarith [B.below]
        have : m * (-s.right.y / M) ≤ m * (s.right.x - x) := mul_le_mul_of_nonneg_left this m0.le
        have r : -s.right.y * (1 - m / M) = -s.right.y - m * (-s.right.y / M) := by ring
        rw [r]; linarith
      rcases k with ⟨k, k1, k2⟩ | ⟨k, k1, k2⟩ | k
      · have hb' : -g x ≤ P * (1 - m / M) ^ (b + 1) := by
          rw [pow_succ, ← mul_assoc]
          exact down.trans (mul_le_mul_of_nonneg_right hb q0)
        refine ih _ a (b + 1) B' (by rw [k1]; exact ha) (by rw [k2]; exact hb') (by omega) (by omega) ?_
        by_cases hN : b + 1 < N
        · exact Or.inl ⟨aN, hN⟩
        · right
          have : b + 1 = N := by omega
          rw [this] at hb'
          rw [c]
          show |g x| ≤ 0.01
          rw [abs_of_neg k]
          exact hb'.trans hP
      · have ha' : g x ≤ P * (1 - m / M) ^ (a + 1) := by
          rw [pow_succ, ← mul_assoc]
          exact up.trans (mul_le_mul_of_nonneg_right ha q0)
        refine ih _ (a + 1) b B' (by rw [k1]; exact ha') (by rw [k2]; exact hb) (by omega) (by omega) ?_
        by_cases hN : a + 1 < N
        · exact Or.inl ⟨hN, bN⟩
        · right
          have : a + 1 = N := by omega
          rw [this] at ha'
          rw [c]
          show |g x| ≤ 0.01
          rw [abs_of_pos k]
          exact ha'.trans hP
      · have z : (s.place ⟨x, g x⟩).left = s.left ∧ (s.place ⟨x, g x⟩).right = s.right := by
          unfold StretchSearch.place
          simp only
          rw [if_neg (not_lt.2 p2), if_pos ⟨p2, p3⟩, if_neg (by rw [k]; exact lt_irrefl _),
            if_neg (by rw [k]; exact lt_irrefl _)]
          exact ⟨rfl, rfl⟩
        obtain ⟨j, rfl⟩ : ∃ j, n = j + 1 := ⟨n - 1, by omega⟩
        refine ⟨x, ?_, B.low.trans p2, p3.trans B.high, by rw [k, abs_zero]; norm_num⟩
        unfold stretchLoop
        rw [c]
        simp only
        rw [if_neg (by rw [k]; norm_num)]
    · rw [if_neg h1]
      rw [sub_zero] at h1
      rcases B.current with c | ⟨c1, c2, c3⟩
      · exact absurd c h1
      · exact ⟨_, rfl, c1, c2, by rw [← c3]; exact not_lt.1 h1⟩

theorem stretch_start {S : ℝ} {g : ℝ → ℝ} {f : ℝ → Res (Option ℝ)} (S0 : 0 < S)
    (hf : ∀ x, 0 ≤ x → x ≤ S → f x = .val (some (g x))) (h0 : 0 ≤ g 0) (h1 : g S ≤ 0) (h2 : g S < g 0) :
    stretchSearch f S = stretchLoop f 99 ⟨⟨0, g 0⟩, ⟨S, g S⟩, ⟨-999999, -999999⟩⟩ ∧
    StretchBracket S g ⟨⟨0, g 0⟩, ⟨S, g S⟩, ⟨-999999, -999999⟩⟩ := by
  constructor
  · unfold stretchSearch
    rw [hf 0 le_rfl S0.le]
    simp only
    rw [hf S S0.le le_rfl]
  · exact ⟨le_rfl, S0, le_rfl, rfl, rfl, h0, h1, h2, Or.inl (by norm_num)⟩

/-- The average tension after a reload, with the stretch load `x` before it. -/
def ReloadsTo (s : LineLoader) (rel : ElongationModel) (v : V3) (S : ℝ) (A : ℝ → ℝ) : Prop :=
  ∀ x, 0 ≤ x → x ≤ S → averageReloaded s.catenary (s.stretched x) rel v = .val (some (A x))

theorem reloads_difference {s : LineLoader} {rel : ElongationModel} {v : V3} {S : ℝ} {A : ℝ → ℝ}
    (h : ReloadsTo s rel v S A) (x : ℝ) (h0 : 0 ≤ x) (h1 : x ≤ S) :
    s.stretchDifference rel v x = .val (some (A x - x)) := by
  unfold LineLoader.stretchDifference
  rw [h x h0 h1]
  rfl

/-- **C196**: whenever the reloads with stretch loads up to the rated strength succeed, and the tension without
stretch is not negative while the one with the rated strength as stretch is below it, the search for the stretch of
the constraint returns: either a stretch load between zero and the rated strength that the reload reproduces within 0.01, or no
success and no stretch.  It is never undefined. -/
theorem C196_bracket {s : LineLoader} {c : SectionCable} {k : Cable} {rel : ElongationModel}
    {w : Option WeatherLoadCase} {v : V3} {A : ℝ → ℝ} (hc : c.cable = some k) (hw : c.unitLoad w = .val v)
    (S0 : 0 < k.strengthRated) (hA : ReloadsTo s rel v k.strengthRated A) (h0 : 0 ≤ A 0)
    (h1 : A k.strengthRated < k.strengthRated) :
    s.solveConstraintStretch c rel w = .ok { s with modelConstraint := s.stretched 0 } false ∨
    ∃ x, s.solveConstraintStretch c rel w = .ok { s with modelConstraint := s.stretched x } true ∧ 0 ≤ x ∧
      x ≤ k.strengthRated ∧ |A x - x| ≤ 0.01 := by
  obtain ⟨e, B⟩ := stretch_start (g := fun x => A x - x) S0 (reloads_difference hA) (by simpa using h0)
    (by simpa using h1.le) (by linarith)
  unfold LineLoader.solveConstraintStretch
  simp only [hw, hc]
  rw [e]
  rcases stretchLoop_bracket (reloads_difference hA) 99 _ B with h | ⟨x, h, h2, h3, h4⟩
  · rw [h]; exact Or.inl rfl
  · rw [h]; exact Or.inr ⟨x, rfl, h2, h3, h4⟩

/-- **C196**: if more stretch does not raise the reloaded tension and lowers it by no more than itself, the search
succeeds for every rated strength up to 2·10¹². -/
theorem C196_found {s : LineLoader} {c : SectionCable} {k : Cable} {rel : ElongationModel}
    {w : Option WeatherLoadCase} {v : V3} {A : ℝ → ℝ} (hc : c.cable = some k) (hw : c.unitLoad w = .val v)
    (S0 : 0 < k.strengthRated) (S1 : k.strengthRated ≤ 2000000000000) (hA : ReloadsTo s rel v k.strengthRated A)
    (h0 : 0 ≤ A 0) (h1 : A 0 < k.strengthRated)
    (hd : ∀ x y, 0 ≤ x → x ≤ y → y ≤ k.strengthRated → 0 ≤ A x - A y ∧ A x - A y ≤ y - x) :
    ∃ x, s.solveConstraintStretch c rel w = .ok { s with modelConstraint := s.stretched x } true ∧ 0 ≤ x ∧
      x ≤ k.strengthRated ∧ |A x - x| ≤ 0.01 := by
  have d := hd 0 k.strengthRated le_rfl S0.le le_rfl
  obtain ⟨e, B⟩ := stretch_start (g := fun x => A x - x) S0 (reloads_difference hA) (by simpa using h0)
    (by linarith [d.1]) (by linarith [d.1])
  unfold LineLoader.solveConstraintStretch
  simp only [hw, hc]
  rw [e]
  obtain ⟨x, h, h2, h3, h4⟩ := stretchLoop_converges (m := 1) (M := 2) (P := 4000000000000) (N := 49)
    (reloads_difference hA) one_pos one_le_two (fun x y a b c => by
      have := hd x y a b c
      constructor <;> linarith [this.1, this.2]) (by norm_num) 99 _ 0 0 B (by simp; linarith) (by
      simp only [pow_zero, mul_one]
      linarith [d.1, d.2, h0]) (by norm_num) (by norm_num) (Or.inl (by norm_num))
  exact ⟨x, by rw [h], h2, h3, h4⟩

/-! ## A cable whose unloading follows its load-strain line -/

open Verif.CatenaryReloader Verif.ElongationModel Verif.ComponentModel

/-- Such a component, of slope 1000000. -/
noncomputable def springPart : CableComponent :=
  ⟨1, 0, [0, 1000000, 0, 0, 0], [0, 1000000, 0, 0, 0], 100, 100, 1, 1000000, 1, 1⟩

/-- A cable with two of them and a rated strength of 150. -/
noncomputable def springCable : Cable := ⟨1, 1, springPart, springPart, 1, 1, [], 150, 0, 1⟩

theorem spring_enabled : springPart.Enabled := by
  refine ⟨⟨1000000, ?_, by norm_num⟩, ⟨1000000, ?_, by norm_num⟩⟩ <;> simp [springPart]

/-- Its points after a stretch load `h`. -/
noncomputable def springPoints (h : ℝ) : Regions := ⟨⟨0, 0⟩, ⟨h / 1000000, h⟩, ⟨100 / 1000000, 100⟩⟩

theorem spring_read {s : CableState} (hs : s.type = .loadStrain) {ss : CableStretchState} (ht : ss.type = .loadStrain) :
    compRead springPart 0 s ss = .val (some (0, springPoints ss.load)) := by
  have h3 : springPart.thermal 0 s.temperature = 0 := by
    unfold CableComponent.thermal springPart; simp
  have hc : springPart.coefficients s.type = some [0, 1000000, 0, 0, 0] := by rw [hs]; rfl
  have hm : springPart.limit s.type = some 100 := by rw [hs]; rfl
  have h1 : ComponentModel.spec springPart 0 s ss = .val (some (ss.load, 0, springPoints ss.load)) := by
    refine ComponentModel.spec_eq (ComponentModel.stretchOf_same (Or.inl (hs.trans ht.symm))) ?_
    rw [ComponentModel.regionsOf_eq hc (by simp) hm, h3]
    unfold CableComponent.regions CableComponent.strainPolynomial springPoints CableComponent.strainLinear
    rw [polynomialX_linear (by norm_num), polynomialX_linear (by norm_num)]
    simp [springPart]
    ring
  unfold compRead
  rw [if_pos spring_enabled, h1]

theorem spring_load {h x : ℝ} (h0 : 0 ≤ h) (h1 : h ≤ 100) (x0 : 0 ≤ x) (x1 : x ≤ 100 / 1000000) :
    springPart.load .loadStrain (springPoints h) 0 x = 1000000 * x := by
  unfold CableComponent.load springPoints
  simp only
  rw [if_neg (by linarith)]
  by_cases c : x ≤ h / 1000000
  · rw [if_pos ⟨x0, c⟩]
    show h + (x - h / 1000000) * 1000000 = _
    ring
  · rw [if_neg (by rintro ⟨_, q⟩; exact c q)]
    rw [not_le] at c
    rcases x1.lt_or_eq with q | q
    · rw [if_pos ⟨c, q⟩]
      show springPart.loadPolynomial [0, 1000000, 0, 0, 0] 0 x = _
      unfold CableComponent.loadPolynomial
      simp only [Poly.evalY, Poly.yLoop, springPart]
      ring
    · rw [if_neg (by rintro ⟨_, r⟩; linarith), if_pos q.ge, if_neg (by decide)]
      show 100 + (x - 100 / 1000000) * _ = _
      rw [q]
      ring

theorem spring_both {s : CableState} (hs : s.type = .loadStrain) {h x : ℝ} (h0 : 0 ≤ h) (h1 : h ≤ 100) (x0 : 0 ≤ x)
    (x1 : x ≤ 100 / 1000000) :
    bothOf CableComponent.load springCable s (some (0, springPoints h), some (0, springPoints h)) x = 2000000 * x := by
  have ha : ansOf CableComponent.load springPart s (some (0, springPoints h)) x = 1000000 * x := by
    unfold ansOf
    rw [if_pos spring_enabled]
    show springPart.load s.type (springPoints h) 0 x = _
    rw [hs]
    exact spring_load h0 h1 x0 x1
  show ansOf CableComponent.load springPart s (some (0, springPoints h)) x +
    ansOf CableComponent.load springPart s (some (0, springPoints h)) x = _
  rw [ha]
  ring

theorem spring_points {s : CableState} (hs : s.type = .loadStrain) {h : ℝ} (h0 : 0 ≤ h) (h1 : h ≤ 100) :
    pointsOf springCable s (some (0, springPoints h), some (0, springPoints h)) =
      [⟨0, 0⟩, ⟨0, 0⟩, ⟨h / 1000000, 2 * h⟩, ⟨h / 1000000, 2 * h⟩, ⟨100 / 1000000, 200⟩, ⟨100 / 1000000, 200⟩] := by
  have hst : strainsOf springPart (some (0, springPoints h)) = [0, h / 1000000, 100 / 1000000] := by
    unfold strainsOf springPoints
    rw [if_pos spring_enabled]
  have p0 : 0 ≤ h / 1000000 := by positivity
  have p1 : h / 1000000 ≤ 100 / 1000000 := by linarith
  have p2 : (0:ℝ) ≤ 100 / 1000000 := by norm_num
  have e0 := spring_both hs h0 h1 (le_refl 0) p2
  have e1 := spring_both hs h0 h1 p0 p1
  have e2 := spring_both hs h0 h1 p2 (le_refl _)
  rw [mul_zero] at e0
  rw [show (2000000:ℝ) * (h / 1000000) = 2 * h by ring] at e1
  rw [show (2000000:ℝ) * (100 / 1000000) = 200 by norm_num] at e2
  unfold pointsOf
  show ((strainsOf springPart _ ++ strainsOf springPart _).insertionSort (· ≤ ·)).map _ = _
  rw [hst]
  have hperm : ([0, h / 1000000, 100 / 1000000] ++ [0, h / 1000000, 100 / 1000000] : List ℝ).insertionSort (· ≤ ·) =
      [0, 0, h / 1000000, h / 1000000, 100 / 1000000, 100 / 1000000] := by
    refine List.Perm.eq_of_pairwise (le := (· ≤ ·)) (fun a b _ _ p q => le_antisymm p q) (List.pairwise_insertionSort _ _) ?_ ?_
    · simp [p0, p1, p2]
    · refine (List.perm_insertionSort _ _).trans ?_
      rw [List.perm_iff_count]
      intro a
      simp only [List.cons_append, List.nil_append, List.count_cons, List.count_nil]
      ring
  rw [hperm]
  simp only [List.map_cons, List.map_nil]
  rw [e0, e1, e2]

/-- On a straight line the strain is found at once. -/
theorem line_strain {f : ℝ → ℝ} {l a b : ℝ} (ab : a < b) (ha : 2000000 * a ≤ l) (hb : l ≤ 2000000 * b)
    (h0 : 0 ≤ l) (hf : f (l / 2000000) = l) :
    (let s := strainLoop f l 99 ⟨⟨a, 2000000 * a⟩, ⟨b, 2000000 * b⟩, ⟨-999999, -999999⟩, 1⟩
     if s.iter < 100 then s.current.x else -999999) = l / 2000000 := by
  have hx : a + (l - 2000000 * a) / ((2000000 * b - 2000000 * a) / (b - a)) = l / 2000000 := by
    have : b - a ≠ 0 := (sub_pos.2 ab).ne'
    have e : (2000000 * b - 2000000 * a) / (b - a) = 2000000 := by
      rw [div_eq_iff this]; ring
    rw [e]; ring
  have hst : StrainSearch.step f l ⟨⟨a, 2000000 * a⟩, ⟨b, 2000000 * b⟩, ⟨-999999, -999999⟩, 1⟩ =
      ⟨⟨a, 2000000 * a⟩, ⟨b, 2000000 * b⟩, ⟨l / 2000000, l⟩, 2⟩ := by
    unfold StrainSearch.step
    simp only
    rw [hx, hf, if_neg (by linarith), if_pos ⟨by linarith, by linarith⟩, if_neg (lt_irrefl _), if_neg (lt_irrefl _)]
  have hlo : strainLoop f l 99 ⟨⟨a, 2000000 * a⟩, ⟨b, 2000000 * b⟩, ⟨-999999, -999999⟩, 1⟩ =
      ⟨⟨a, 2000000 * a⟩, ⟨b, 2000000 * b⟩, ⟨l / 2000000, l⟩, 2⟩ := by
    rw [strainLoop, if_pos (by simp only; rw [abs_of_neg (by linarith)]; norm_num; linarith), hst, strainLoop,
      if_neg (by norm_num)]
  rw [hlo]
  norm_num

theorem spring_combined {s : CableState} (hs : s.type = .loadStrain) {h l : ℝ} (h0 : 0 ≤ h) (h1 : h < 100) (l0 : 0 ≤ l)
    (l1 : l < 200) :
    strainCombined (bothOf CableComponent.load springCable s (some (0, springPoints h), some (0, springPoints h)))
      (pointsOf springCable s (some (0, springPoints h), some (0, springPoints h))) l = .val (l / 2000000) := by
  rw [spring_points hs h0 h1.le]
  set f := bothOf CableComponent.load springCable s (some (0, springPoints h), some (0, springPoints h)) with hf
  have fx : f (l / 2000000) = l := by
    rw [hf, spring_both hs h0 h1.le (by positivity) (by linarith)]; ring
  unfold strainCombined strainStart
  simp only [List.head?_cons, List.getLast?_cons_cons, List.getLast?_singleton]
  rcases l0.lt_or_eq with l0 | l0
  · rw [if_neg (by linarith), if_neg (by linarith)]
    by_cases c : l ≤ 2 * h
    · have hfr : findRegion l [⟨0, 0⟩, ⟨0, 0⟩, ⟨h / 1000000, 2 * h⟩, ⟨h / 1000000, 2 * h⟩, ⟨100 / 1000000, 200⟩,
          ⟨100 / 1000000, 200⟩] = some (⟨0, 0⟩, ⟨h / 1000000, 2 * h⟩) := by
        unfold findRegion
        rw [if_neg (by rintro ⟨_, q⟩; linarith)]
        unfold findRegion
        rw [if_pos ⟨l0.le, c⟩]
      rw [hfr]
      simp only
      have key := line_strain (f := f) (l := l) (a := 0) (b := h / 1000000) (by
        have : 0 < h := by linarith
        positivity) (by linarith) (by linarith) l0.le fx
      simp only at key
      rw [show (2000000:ℝ) * 0 = 0 by norm_num, show (2000000:ℝ) * (h / 1000000) = 2 * h by ring] at key
      rw [key]
    · rw [not_le] at c
      have hfr : findRegion l [⟨0, 0⟩, ⟨0, 0⟩, ⟨h / 1000000, 2 * h⟩, ⟨h / 1000000, 2 * h⟩, ⟨100 / 1000000, 200⟩,
          ⟨100 / 1000000, 200⟩] = some (⟨h / 1000000, 2 * h⟩, ⟨100 / 1000000, 200⟩) := by
        unfold findRegion
        rw [if_neg (by rintro ⟨_, q⟩; linarith)]
        unfold findRegion
        rw [if_neg (by rintro ⟨_, q⟩; linarith)]
        unfold findRegion
        rw [if_neg (by rintro ⟨_, q⟩; linarith)]
        unfold findRegion
        rw [if_pos ⟨c.le, l1.le⟩]
      rw [hfr]
      simp only
      have key := line_strain (f := f) (l := l) (a := h / 1000000) (b := 100 / 1000000) (by linarith) (by linarith)
        (by linarith) l0.le fx
      simp only at key
      rw [show (2000000:ℝ) * (100 / 1000000) = 200 by norm_num, show (2000000:ℝ) * (h / 1000000) = 2 * h by ring] at key
      rw [key]
  · subst l0
    rw [if_pos (le_refl _)]
    simp

theorem spring_known {s : CableState} (hs : s.type = .loadStrain) {ss : CableStretchState} (ht : ss.type = .loadStrain)
    (h0 : 0 ≤ ss.load) (h1 : ss.load < 200) :
    knownOf springCable s ss = .val (some (0, springPoints (ss.load / 2)), some (0, springPoints (ss.load / 2))) := by
  have rd : ∀ (q : CableState) (l : ℝ), q.type = .loadStrain → readOf springCable q ss (l, l) =
      .val (some (0, springPoints l), some (0, springPoints l)) := by
    intro q l hq
    unfold readOf
    simp only [springCable]
    rw [spring_read (ss := { ss with load := l }) hq ht]
  have hl : loadsOf springCable ss = .val (ss.load / 2, ss.load / 2) := by
    unfold loadsOf
    by_cases z : ss.load = 0
    · rw [if_pos z, z]; norm_num
    · have hb : ss.base.type = .loadStrain := ht
      rw [if_neg z, rd _ 0 hb]
      simp only
      rw [spring_combined hb le_rfl (by norm_num) h0 h1]
      simp only
      have ha : ansOf CableComponent.load springPart ss.base (some (0, springPoints 0)) (ss.load / 2000000) =
          ss.load / 2 := by
        unfold ansOf
        rw [if_pos spring_enabled]
        show springPart.load ss.base.type (springPoints 0) 0 _ = _
        rw [hb, spring_load le_rfl (by norm_num) (by positivity) (by linarith)]
        ring
      show Res.val (ansOf CableComponent.load springPart _ _ _, ansOf CableComponent.load springPart _ _ _) = _
      rw [ha]
  unfold knownOf
  rw [hl]
  exact rd s _ hs

theorem spring_like {T T' x : ℝ} (h0 : 0 ≤ x) (h1 : x < 200) :
    HookeLike 1000000 (some (modelOf springCable ⟨T, .loadStrain⟩ ⟨T', .loadStrain, x⟩)) := by
  intro l l0 l1
  have hG : Good springCable (modelOf springCable ⟨T, .loadStrain⟩ ⟨T', .loadStrain, x⟩) :=
    good_flags_false (attach_att springCable ElongationModel.new springCable rfl) rfl rfl
  have kn : knownOf springCable (modelOf springCable ⟨T, .loadStrain⟩ ⟨T', .loadStrain, x⟩).state
      (modelOf springCable ⟨T, .loadStrain⟩ ⟨T', .loadStrain, x⟩).stretch =
      .val (some (0, springPoints (x / 2)), some (0, springPoints (x / 2))) :=
    spring_known (s := ⟨T, .loadStrain⟩) (ss := ⟨T', .loadStrain, x⟩) rfl rfl h0 h1
  have key : strainOf springCable (modelOf springCable ⟨T, .loadStrain⟩ ⟨T', .loadStrain, x⟩).state
      (some (0, springPoints (x / 2)), some (0, springPoints (x / 2))) l .combined = .val (l / (2 * 1000000)) := by
    rw [show (2:ℝ) * 1000000 = 2000000 by norm_num]
    exact spring_combined (s := ⟨T, .loadStrain⟩) rfl (by positivity) (by linarith) l0 l1
  rcases hG.strain rfl .combined l with ⟨o, y, m', a1, a2, a3, -⟩ | ⟨⟨o, a1, a2⟩, -⟩ | ⟨a1, -⟩
  · cases kn.symm.trans a1
    cases a2.symm.trans key
    unfold strainThrough
    simp only
    rw [a3]
  · cases kn.symm.trans a1
    cases a2.symm.trans key
  · cases kn.symm.trans a1

/-- The loader of a line cable with that cable, whose constraint applies after load. -/
noncomputable def springLoader : LineLoader :=
  { LineLoader.new with
    catenary := levelSpan 100 1 70
    modelConstraint := modelOf springCable ⟨60, .loadStrain⟩ ⟨60, .loadStrain, 0⟩ }

/-- The line cable. -/
noncomputable def springLine : SectionCable :=
  ⟨some springCable, [], ⟨some exCalm, .load, 70, .horizontalTension⟩, ⟨100, 0, 0⟩, some exCalm, some exCalm⟩

theorem spring_stretched (x : ℝ) :
    springLoader.stretched x = modelOf springCable ⟨60, .loadStrain⟩ ⟨60, .loadStrain, x⟩ := rfl

/-- All its reloads succeed with the same tension, which is below the rated strength. -/
theorem spring_reloads : ∃ a, 0 ≤ a ∧ a < 150 ∧
    ReloadsTo springLoader (modelOf springCable ⟨60, .loadStrain⟩ ⟨60, .loadStrain, 0⟩) ⟨0, 0, 1⟩ 150 fun _ => a := by
  set rel := modelOf springCable ⟨60, .loadStrain⟩ ⟨60, .loadStrain, 0⟩ with hrel
  have each : ∀ x, 0 ≤ x → x ≤ 150 → ∃ y, (CatenaryReloader.given (levelSpan 100 1 70) (springLoader.stretched x) rel
      ⟨0, 0, 1⟩).found (levelSpan 100 1 70) ⟨0, 0, 1⟩ = .ok y true ∧ |y - 70| ≤ 0.01 := by
    intro x h0 h1
    obtain ⟨r, u, b⟩ := level_reloads (r := CatenaryReloader.given (levelSpan 100 1 70) (springLoader.stretched x) rel
      ⟨0, 0, 1⟩) rfl rfl rfl (spring_like h0 (by linarith)) (spring_like le_rfl (by norm_num))
    obtain ⟨y, f, c, -⟩ := update_found (r := CatenaryReloader.given (levelSpan 100 1 70) (springLoader.stretched x) rel
      ⟨0, 0, 1⟩) rfl rfl rfl u
    rw [level_trial] at c
    rw [c] at b
    exact ⟨y, f, b⟩
  obtain ⟨y, f0, b⟩ := each 0 le_rfl (by norm_num)
  rw [_root_.abs_le] at b
  have av := levelSpan_tension (s := 100) (w := 1) (h := y) (by norm_num) one_pos (by linarith [b.1])
  have t70 := levelSpan_tension (s := 100) (w := 1) (h := 70) (by norm_num) one_pos (by norm_num)
  refine ⟨(levelSpan 100 1 y).tensionAverage, by linarith [av.1, b.1], by linarith [av.2, b.2], ?_⟩
  intro x h0 h1
  have same : gap (levelSpan 100 1 70) (some (springLoader.stretched x)) (some rel) ⟨0, 0, 1⟩ =
      gap (levelSpan 100 1 70) (some (springLoader.stretched 0)) (some rel) ⟨0, 0, 1⟩ := by
    funext h
    have e1 := spring_like (T := 60) (T' := 60) h0 (by linarith) (levelSpan 100 1 70).tensionAverage (by linarith [t70.1])
      (by linarith [t70.2])
    have e2 := spring_like (T := 60) (T' := 60) (x := 0) le_rfl (by norm_num) (levelSpan 100 1 70).tensionAverage
      (by linarith [t70.1]) (by linarith [t70.2])
    unfold gap CableStrainer.lengthFinish trialStrainer
    simp only
    rw [spring_stretched, spring_stretched, e1, e2]
  have fx : (CatenaryReloader.given (levelSpan 100 1 70) (springLoader.stretched x) rel ⟨0, 0, 1⟩).found
      (levelSpan 100 1 70) ⟨0, 0, 1⟩ = .ok y true := by
    rw [← f0]
    unfold CatenaryReloader.found
    exact congrArg (searchOn · _) same
  have k0 : springLoader.catenary = levelSpan 100 1 70 := rfl
  unfold averageReloaded CatenaryReloader.update
  rw [k0, if_neg (by show ¬ false = true; decide), solve_eq (k := levelSpan 100 1 70) (w := ⟨0, 0, 1⟩) rfl rfl, fx]
  show Res.val (some (trial (levelSpan 100 1 70) ⟨0, 0, 1⟩ y).tensionAverage) = _
  rw [level_trial]

/-- The search of that loader succeeds: its stretch is the tension itself, within 0.01. -/
example : ∃ x, springLoader.solveConstraintStretch springLine
    (modelOf springCable ⟨60, .loadStrain⟩ ⟨60, .loadStrain, 0⟩) (some exCalm) =
      .ok { springLoader with modelConstraint := modelOf springCable ⟨60, .loadStrain⟩ ⟨60, .loadStrain, x⟩ } true ∧
    0 ≤ x ∧ x ≤ 150 := by
  obtain ⟨a, a0, a1, hA⟩ := spring_reloads
  obtain ⟨x, h1, h2, h3, -⟩ := C196_found (s := springLoader) (c := springLine) (k := springCable) (w := some exCalm)
    (v := ⟨0, 0, 1⟩) (A := fun _ => a) rfl exHung_load (by norm_num [springCable]) (by norm_num [springCable]) hA a0 a1
    (fun x y _ h _ => ⟨by simp, by simpa using h⟩)
  exact ⟨x, h1, h2, h3⟩

/-- So does C196_bracket apply to it. -/
example : ∃ A : ℝ → ℝ, ReloadsTo springLoader (modelOf springCable ⟨60, .loadStrain⟩ ⟨60, .loadStrain, 0⟩) ⟨0, 0, 1⟩
    springCable.strengthRated A ∧ 0 ≤ A 0 ∧ A springCable.strengthRated < springCable.strengthRated := by
  obtain ⟨a, a0, a1, hA⟩ := spring_reloads
  exact ⟨_, hA, a0, a1⟩

end Verif.Props
