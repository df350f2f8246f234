import Mathlib.Analysis.Calculus.Deriv.MeanValue
import Mathlib.Analysis.Real.Cardinality
import Mathlib.Topology.Algebra.Module.Cardinality
import Verif.Props.LineSagger
import Verif.Props.ReloadAgain

/-!
# A line cable that can be sagged

A search for a tension halves an interval and fails if it meets the tension exactly (`C61_bracket`), so a sagged line
cable, whose limit is such a tension, cannot be reloaded to its own loading.  The example uses two loadings `1` and `v`.
For all but countably many `v` no reload between them meets its tension exactly.
-/

set_option linter.unusedSectionVars false

namespace Verif.Props
open Verif Verif.CatenaryReloader Verif.ElongationModel

/-! ## Level spans of 100 -/

theorem cosh_one_le : Real.cosh 1 ≤ 1.55 := by
  have h1 := Real.exp_one_lt_d9
  have h3 := Real.exp_one_gt_d9
  have h4 := Real.exp_pos (-1)
  have h2 : Real.exp 1 * Real.exp (-1) = 1 := by rw [← Real.exp_add]; norm_num
  rw [Real.cosh_eq]
  norm_num at h1 h3 ⊢
  nlinarith

/-- `sinh t / t` grows at least as `t ^ 2 / 6`. -/
theorem sinh_div_growth {u v : ℝ} (hu : 0 < u) (h : u < v) :
    (v ^ 2 - u ^ 2) / 6 ≤ Real.sinh v / v - Real.sinh u / u := by
  have hk : ∀ t, 0 < t → 0 ≤ t * Real.cosh t - Real.sinh t - t ^ 3 / 3 := by
    intro t ht
    have hd : ∀ x, HasDerivAt (fun x => x * Real.cosh x - Real.sinh x - x ^ 3 / 3) (x * (Real.sinh x - x)) x := by
      intro x
      have := (((hasDerivAt_id x).mul (Real.hasDerivAt_cosh x)).sub (Real.hasDerivAt_sinh x)).sub
        ((hasDerivAt_pow 3 x).div_const 3)
      refine this.congr_deriv ?_
      simp
      ring
    obtain ⟨c, ⟨hc1, -⟩, hc⟩ := exists_hasDerivAt_eq_slope (fun x => x * Real.cosh x - Real.sinh x - x ^ 3 / 3)
      (fun x => x * (Real.sinh x - x)) ht (fun x _ => (hd x).continuousAt.continuousWithinAt) fun x _ => hd x
    have hs : 0 ≤ c * (Real.sinh c - c) :=
      mul_nonneg hc1.le (sub_nonneg.2 (Real.self_le_sinh_iff.2 hc1.le))
    rw [eq_div_iff (by linarith)] at hc
    simp at hc
    nlinarith
  have hd : ∀ x, 0 < x → HasDerivAt (fun x => Real.sinh x / x - x ^ 2 / 6)
      ((x * Real.cosh x - Real.sinh x - x ^ 3 / 3) / x ^ 2) x := by
    intro x hx
    have := ((Real.hasDerivAt_sinh x).div (hasDerivAt_id x) hx.ne').sub ((hasDerivAt_pow 2 x).div_const 6)
    refine this.congr_deriv ?_
    simp
    field_simp
    ring
  obtain ⟨c, ⟨hc1, -⟩, hc⟩ := exists_hasDerivAt_eq_slope (fun x => Real.sinh x / x - x ^ 2 / 6)
    (fun x => (x * Real.cosh x - Real.sinh x - x ^ 3 / 3) / x ^ 2) h
    (fun x hx => (hd x (by linarith [hx.1])).continuousAt.continuousWithinAt) fun x hx => hd x (by linarith [hx.1])
  have hs : 0 ≤ (c * Real.cosh c - Real.sinh c - c ^ 3 / 3) / c ^ 2 := div_nonneg (hk c (by linarith)) (by positivity)
  rw [eq_div_iff (by linarith)] at hc
  nlinarith

/-- `sinh t / t` does not grow faster than `1.55` times the logarithm up to 1. -/
theorem sinh_div_slow {u v : ℝ} (hu : 0 < u) (h : u < v) (h1 : v ≤ 1) :
    Real.sinh v / v - Real.sinh u / u ≤ 1.55 * (v / u - 1) := by
  have hv : 0 < v := hu.trans h
  obtain ⟨c, ⟨hc1, hc2⟩, hc⟩ := exists_hasDerivAt_eq_slope Real.sinh Real.cosh h
    Real.continuous_sinh.continuousOn fun y _ => Real.hasDerivAt_sinh y
  have hb : Real.cosh c ≤ 1.55 := (Real.cosh_le_cosh.2 (by
    rw [abs_of_pos (by linarith), abs_of_pos one_pos]; linarith)).trans cosh_one_le
  rw [eq_div_iff (by linarith)] at hc
  have hs : 0 < Real.sinh v := Real.sinh_pos_iff.2 hv
  have e : Real.sinh v / v ≤ Real.sinh v / u := div_le_div_of_nonneg_left hs.le hu h.le
  have : Real.sinh v / u - Real.sinh u / u ≤ 1.55 * (v / u - 1) := by
    rw [← sub_div, ← hc, div_le_iff₀ hu]
    have : 1.55 * (v / u - 1) * u = 1.55 * (v - u) := by field_simp
    rw [this]
    exact mul_le_mul_of_nonneg_right hb (by linarith)
  linarith

/-- The length of a level span of 100 depends on the ratio of the tension to the load only. -/
theorem level_length {w h : ℝ} (hw : 0 < w) (hh : 0 < h) :
    (levelSpan 100 w h).length = 100 * (Real.sinh (50 / (h / w)) / (50 / (h / w))) := by
  rw [(levelSpan_facts (by norm_num) hw hh).1]
  have : (100:ℝ) * w / (2 * h) = 50 / (h / w) := by field_simp; norm_num
  rw [this]
  field_simp
  norm_num

theorem level_length_le {w h : ℝ} (hw : 0 < w) (hh : 50 * w ≤ h) :
    0 < (levelSpan 100 w h).length ∧ (levelSpan 100 w h).length ≤ 155 := by
  have p : 0 < h := lt_of_lt_of_le (by positivity) hh
  rw [level_length hw p]
  have hu : 0 < 50 / (h / w) := by positivity
  have hu1 : 50 / (h / w) ≤ 1 := by rw [div_le_one (by positivity), le_div_iff₀ hw]; exact hh
  have hs : 0 < Real.sinh (50 / (h / w)) := Real.sinh_pos_iff.2 hu
  refine ⟨by positivity, ?_⟩
  obtain ⟨c, ⟨hc1, hc2⟩, hc⟩ := exists_hasDerivAt_eq_slope Real.sinh Real.cosh hu
    Real.continuous_sinh.continuousOn fun y _ => Real.hasDerivAt_sinh y
  have hb : Real.cosh c ≤ 1.55 := (Real.cosh_le_cosh.2 (by
    rw [abs_of_pos (by linarith), abs_of_pos one_pos]; linarith)).trans cosh_one_le
  rw [Real.sinh_zero, sub_zero, sub_zero] at hc
  rw [← hc]
  norm_num at hb ⊢
  linarith

theorem elongate_near {l a b d : ℝ} (hl : 0 < l) (hd : 0 ≤ d) (h : |b - a| ≤ d) :
    l * (1 - d) ≤ CableStrainer.elongate l a b ∧ CableStrainer.elongate l a b ≤ l * (1 + d) := by
  obtain ⟨h1, h2⟩ := abs_le.1 h
  unfold CableStrainer.elongate
  simp only
  by_cases hn : b - a < 0
  · rw [if_pos hn, abs_of_neg hn]
    have p : 0 < 1 + -(b - a) := by linarith
    refine ⟨?_, ?_⟩
    · rw [le_div_iff₀ p]
      have : (1 - d) * (1 + -(b - a)) ≤ 1 := by nlinarith
      nlinarith
    · rw [div_le_iff₀ p]
      have : 1 ≤ (1 + d) * (1 + -(b - a)) := by nlinarith
      nlinarith
  · rw [if_neg hn]
    refine ⟨?_, ?_⟩ <;> nlinarith

/-- The tensions of the example stay below 200, its strains within 0.0001. -/
theorem level_strains {w h : ℝ} (hw : 0 < w) (hh : 50 * w ≤ h) (h1 : 1.6 * h < 200) :
    0 ≤ (levelSpan 100 w h).tensionAverage / (2 * 1000000) ∧
      (levelSpan 100 w h).tensionAverage / (2 * 1000000) ≤ 0.0001 := by
  obtain ⟨a1, a2⟩ := levelSpan_tension (s := 100) (by norm_num) hw (by norm_num; linarith)
  have p : 0 < h := lt_of_lt_of_le (by positivity) hh
  refine ⟨div_nonneg (by linarith) (by norm_num), ?_⟩
  rw [div_le_iff₀ (by norm_num)]
  norm_num at *
  linarith

theorem level_gap_near {w h v x : ℝ} (hw : 0 < w) (hh : 50 * w ≤ h) (h1 : 1.6 * h < 200) (hv : 0 < v)
    (hx : 50 * v ≤ x) (h2 : 1.6 * x < 200) :
    |levelGap 1000000 100 w h v x - ((levelSpan 100 v x).length - (levelSpan 100 w h).length)| ≤ 0.0155 := by
  obtain ⟨l0, l1⟩ := level_length_le hw hh
  obtain ⟨a1, a2⟩ := level_strains hw hh h1
  obtain ⟨b1, b2⟩ := level_strains hv hx h2
  obtain ⟨e1, e2⟩ := elongate_near (d := 0.0001) (a := (levelSpan 100 w h).tensionAverage / (2 * 1000000))
    (b := (levelSpan 100 v x).tensionAverage / (2 * 1000000)) l0 (by norm_num)
    (abs_le.2 ⟨by linarith, by linarith⟩)
  unfold levelGap
  rw [abs_le]
  norm_num at *
  constructor <;> linarith

/-- A ratio of tension to load larger by 1 makes the span shorter by more than 0.03. -/
theorem level_length_gap {w h v x : ℝ} (hw : 0 < w) (hh : 50 * w ≤ h) (hv : 0 < v) (hx : 50 * v ≤ x)
    (h1 : x / v ≤ 100) (h2 : h / w + 1 ≤ x / v) :
    (levelSpan 100 v x).length + 0.04 ≤ (levelSpan 100 w h).length := by
  have p : 0 < h := lt_of_lt_of_le (by positivity) hh
  have p' : 0 < x := lt_of_lt_of_le (by positivity) hx
  rw [level_length hw p, level_length hv p']
  set a := h / w
  set b := x / v
  have ha : 50 ≤ a := by rw [le_div_iff₀ hw]; exact hh
  have hab : 50 / b < 50 / a := div_lt_div_of_pos_left (by norm_num) (by linarith) (by linarith)
  have a0 : 0 < a := by linarith
  have b0 : 0 < b := by linarith
  clear_value a b
  have g := sinh_div_growth (u := 50 / b) (v := 50 / a) (by positivity) hab
  have : 0.0004 * 6 ≤ (50 / a) ^ 2 - (50 / b) ^ 2 := by
    rw [div_pow, div_pow, div_sub_div _ _ (by positivity) (by positivity), le_div_iff₀ (by positivity)]
    have h3 : a ^ 2 + 2 * a ≤ b ^ 2 - 1 := by nlinarith
    have h4 : a ^ 2 * b ^ 2 ≤ a * 100 * 10000 := by
      have : a ^ 2 ≤ a * 100 := by nlinarith
      have : b ^ 2 ≤ 10000 := by nlinarith
      have := mul_le_mul ‹a ^ 2 ≤ a * 100› this (by positivity) (by nlinarith)
      linarith
    norm_num
    nlinarith
  norm_num at *
  linarith

theorem level_gap_pos {w h v x : ℝ} (hw : 0 < w) (hh : 50 * w ≤ h) (h1 : 1.6 * h < 200) (hv : 0 < v)
    (hx : 50 * v ≤ x) (h2 : 1.6 * x < 200) (h3 : h / w ≤ 100) (h4 : x / v + 1 ≤ h / w) :
    0 < levelGap 1000000 100 w h v x := by
  have a := abs_le.1 (level_gap_near hw hh h1 hv hx h2)
  have b := level_length_gap hv hx hw hh h3 h4
  norm_num at a b ⊢
  linarith

theorem level_gap_neg {w h v x : ℝ} (hw : 0 < w) (hh : 50 * w ≤ h) (h1 : 1.6 * h < 200) (hv : 0 < v)
    (hx : 50 * v ≤ x) (h2 : 1.6 * x < 200) (h3 : x / v ≤ 100) (h4 : h / w + 1 ≤ x / v) :
    levelGap 1000000 100 w h v x < 0 := by
  have a := abs_le.1 (level_gap_near hw hh h1 hv hx h2)
  have b := level_length_gap hw hh hv hx h3 h4
  norm_num at a b ⊢
  linarith

/-- Within 0.01 the difference of the lengths changes by less than 0.1. -/
theorem level_gap_close {w h v x y : ℝ} (hw : 0 < w) (hh : 50 * w ≤ h) (h1 : 1.6 * h < 200) (hv : 1 ≤ v)
    (hx : 50 * v ≤ x) (h2 : 1.6 * y < 200) (hxy : x < y) (hc : y - x ≤ 0.01) :
    levelGap 1000000 100 w h v x < levelGap 1000000 100 w h v y + 0.1 := by
  have v0 : 0 < v := by linarith
  have x0 : 0 < x := by linarith
  have y0 : 0 < y := x0.trans hxy
  have a := abs_le.1 (level_gap_near hw hh h1 v0 hx (by linarith))
  have b := abs_le.1 (level_gap_near hw hh h1 v0 (x := y) (by linarith) h2)
  have e1 := level_length v0 x0
  have e2 := level_length v0 (x0.trans hxy)
  have s := sinh_div_slow (u := 50 / (y / v)) (v := 50 / (x / v)) (by positivity)
    (div_lt_div_of_pos_left (by norm_num) (by positivity) (div_lt_div_of_pos_right hxy v0))
    (by rw [div_le_one (by positivity), le_div_iff₀ v0]; exact hx)
  have e3 : 50 / (x / v) / (50 / (y / v)) - 1 = (y - x) / x := by
    field_simp
  have e4 : (y - x) / x ≤ 0.0002 := by
    rw [div_le_iff₀ x0]
    norm_num at hc ⊢
    linarith
  rw [e3] at s
  norm_num at *
  linarith

/-! ## Reloads that do not meet their tension exactly -/

/-- The tensions tried by a search, in units of the least tension. -/
def Tried (g : ℝ) : Prop := ∃ n i : ℕ, g = 1 + i / 2 ^ n

theorem tried_countable : {g | Tried g}.Countable := by
  have : {g | Tried g} = Set.range fun p : ℕ × ℕ => (1 + p.2 / 2 ^ p.1 : ℝ) := by
    ext g
    constructor
    · rintro ⟨n, i, h⟩; exact ⟨(n, i), h.symm⟩
    · rintro ⟨⟨n, i⟩, h⟩; exact ⟨n, i, h.symm⟩
  rw [this]
  exact Set.countable_range _

/-- A level span under the load `w` with the tension `h` can be reloaded to the load `v`. -/
structure Clear (w h v : ℝ) : Prop where
  w0 : 0 < w
  low : 51 * w ≤ h
  high : h ≤ 99 * w
  small : 1.6 * h < 200
  v1 : 1 ≤ v
  v2 : v ≤ 1.2
  off : ∀ g, Tried g → g ≤ 2 → levelGap 1000000 100 w h v (50 * v * g) ≠ 0

theorem level_step {r : CatenaryReloader} {w h v : ℝ} (C : Clear w h v) (hk : r.catenary = some (levelSpan 100 w h))
    (hw : r.weight = some ⟨0, 0, v⟩) (hu : r.isUpdated = false) (hm : HookeLike 1000000 r.modelReference)
    (hn : HookeLike 1000000 r.modelReloaded) :
    ∃ r' g, r.update = .ok r' true ∧ r'.catenaryReloaded = levelSpan 100 v (50 * v * g) ∧ Tried g ∧
      |50 * g - h / w| ≤ 1.02 ∧ TriedFrom (50 * v) (50 * v * g) := by
  obtain ⟨w0, low, high, small, v1, v2, off⟩ := C
  have v0 : 0 < v := by linarith
  have hh : 50 * w ≤ h := by linarith
  have e := level_magnitudes (s := 100) (v := v) (by norm_num) v0 w h
  have e' : (100:ℝ) / 2 * v = 50 * v := by norm_num
  rw [e'] at e
  have a1 : 51 ≤ h / w := by rw [le_div_iff₀ w0]; exact low
  have a2 : h / w ≤ 99 := by rw [div_le_iff₀ w0]; exact high
  have hgap : ∀ x, 50 * v ≤ x → x ≤ 2 * (50 * v) → gap (levelSpan 100 w h) r.modelReference r.modelReloaded ⟨0, 0, v⟩ x =
      .val (levelGap 1000000 100 w h v x) := by
    intro x h1 h2
    exact level_gap_like hm hn (by norm_num) w0 (by norm_num; exact hh) v0 (by norm_num; exact h1) small
      (by norm_num at *; linarith)
  have hl : 0 < levelGap 1000000 100 w h v (50 * v) := by
    refine level_gap_pos w0 hh small v0 (le_refl _) (by norm_num at *; linarith) (by linarith) ?_
    rw [mul_div_cancel_right₀ _ v0.ne']
    linarith
  have hr : levelGap 1000000 100 w h v (2 * (50 * v)) < 0 := by
    have : 2 * (50 * v) / v = 100 := by field_simp; norm_num
    refine level_gap_neg w0 hh small v0 (by linarith) (by norm_num at *; linarith) (by rw [this]) ?_
    rw [this]
    linarith
  have key := reload_bracket hk hw hu (g := levelGap 1000000 100 w h v)
    (P := fun x => ∃ g, Tried g ∧ x = 50 * v * g) (by rw [e]; exact hgap)
    (by rw [e]; positivity) (by rw [e]; norm_num at *; linarith) (by rw [e]; exact hl) (by rw [e]; exact hr)
    (by
      rintro x y ⟨g, ⟨n, i, h1⟩, h2⟩ ⟨g', ⟨m, j, h3⟩, h4⟩
      refine ⟨(g + g') / 2, ⟨n + m + 1, i * 2 ^ m + j * 2 ^ n, ?_⟩, by rw [h2, h4]; ring⟩
      rw [h1, h3]
      push_cast
      field_simp
      ring)
    (by rw [e]; exact ⟨1, ⟨0, 0, by norm_num⟩, by ring⟩)
    (by rw [e]; exact ⟨2, ⟨0, 1, by norm_num⟩, by ring⟩)
  obtain ⟨r', b, h1, ⟨g, hg, hx⟩, h2, h3, h4, h5⟩ := key
  rw [e] at h2 h3 h4
  set x := r'.catenaryReloaded.tensionHorizontal with hxd
  have hne : levelGap 1000000 100 w h v x ≠ 0 := by
    rw [hx]
    refine off g hg ?_
    rw [hx] at h3
    nlinarith
  obtain ⟨lo, hi, q1, q2, q3, q4, q5, q6, q7⟩ := h4 (Or.inr hne)
  have hlo : levelGap 1000000 100 w h v lo < 0.1 := by
    have := level_gap_close w0 hh small v1 q1 (by norm_num at *; linarith) q5 q6
    linarith
  have hb : b = true := by
    by_contra hb
    have hb : b = false := by simpa using hb
    rcases h5 hb with h | h
    · rcases q7 with q7 | q7 <;> rw [q7] at h <;> linarith
    · exact hne h
  subst hb
  obtain ⟨z, -, h6, -⟩ := update_found hk hw hu h1
  rw [level_trial] at h6
  have hz : x = z := by rw [hxd, h6]; rfl
  have hT := reload_tried hk hw hu (g := levelGap 1000000 100 w h v) (by rw [e]; exact hgap) (by rw [e]; positivity)
    (by rw [e]; exact hl) (by rw [e]; exact hr) h1
  rw [e, ← hxd, hx] at hT
  refine ⟨r', g, h1, ?_, hg, ?_, hT⟩
  · rw [h6, ← hz, hx]
  · have b1 : lo / v < h / w + 1 := by
      by_contra hc
      have := level_gap_neg w0 hh small v0 q1 (by norm_num at *; linarith)
        (by rw [div_le_iff₀ v0]; linarith) (not_lt.1 hc)
      linarith
    have b2 : h / w < hi / v + 1 := by
      by_contra hc
      have := level_gap_pos w0 hh small v0 (by linarith) (by norm_num at *; linarith)
        (by linarith) (not_lt.1 hc)
      linarith
    have b3 : hi / v ≤ lo / v + 0.01 := by
      rw [div_le_iff₀ v0]
      have : (lo / v + 0.01) * v = lo + 0.01 * v := by field_simp
      rw [this]
      norm_num at *
      linarith
    have b4 : 50 * g = x / v := by rw [hx]; field_simp
    have b5 : lo / v ≤ x / v := div_le_div_of_nonneg_right (by rcases q7 with h | h <;> linarith) v0.le
    have b6 : x / v ≤ hi / v := div_le_div_of_nonneg_right (by rcases q7 with h | h <;> linarith) v0.le
    rw [b4, abs_le]
    norm_num at *
    constructor <;> linarith

theorem elongate_anti {l l' a a' b : ℝ} (hl : 0 < l) (hll : l ≤ l') (h : a' ≤ a) (hs : l < l' ∨ a' < a) :
    CableStrainer.elongate l a b < CableStrainer.elongate l' a' b := by
  have key : ∀ {l a a' : ℝ}, 0 < l → a' < a → CableStrainer.elongate l a b < CableStrainer.elongate l a' b := by
    intro l a a' hl h
    unfold CableStrainer.elongate
    simp only
    by_cases h1 : b - a < 0
    · rw [if_pos h1, abs_of_neg h1]
      by_cases h2 : b - a' < 0
      · rw [if_pos h2, abs_of_neg h2]
        exact div_lt_div_of_pos_left hl (by linarith) (by linarith)
      · rw [if_neg h2, div_lt_iff₀ (by linarith)]
        have : 1 < (1 + (b - a')) * (1 + -(b - a)) := by nlinarith
        nlinarith
    · rw [if_neg h1, if_neg (by linarith)]
      exact mul_lt_mul_of_pos_left (by linarith) hl
  have key2 : ∀ {l l' a : ℝ}, l < l' → CableStrainer.elongate l a b < CableStrainer.elongate l' a b := by
    intro l l' a h
    unfold CableStrainer.elongate
    simp only
    by_cases h1 : b - a < 0
    · rw [if_pos h1, if_pos h1]
      exact div_lt_div_of_pos_right h (by positivity)
    · rw [if_neg h1, if_neg h1]
      exact mul_lt_mul_of_pos_right h (by linarith)
  rcases hll.eq_or_lt with rfl | h1
  · rcases hs with h2 | h2
    · exact absurd h2 (lt_irrefl _)
    · exact key hl h2
  · rcases h.eq_or_lt with rfl | h2
    · exact key2 h1
    · exact (key2 h1).trans (key (hl.trans h1) h2)

/-- At a given tension the difference grows with the tension before. -/
theorem level_gap_source {w h h' v x : ℝ} (hw : 0 < w) (hh : 50 * w ≤ h) (h1 : h < h') :
    levelGap 1000000 100 w h v x < levelGap 1000000 100 w h' v x := by
  obtain ⟨a1, a2⟩ := levelSpan_mono (s := 100) (by norm_num) hw (by norm_num; exact hh) h1
  have := elongate_anti (b := (levelSpan 100 v x).tensionAverage / (2 * 1000000))
    (level_length_le hw (hh.trans h1.le)).1 a1.le
    (div_lt_div_of_pos_right a2 (by norm_num : (0:ℝ) < 2 * 1000000)).le (Or.inl a1)
  unfold levelGap
  linarith

/-- At a given multiple of the least tension the difference falls with the load after. -/
theorem level_gap_target {w h v v' g : ℝ} (hw : 0 < w) (hh : 50 * w ≤ h) (hv : 0 < v) (h1 : v < v') (hg : 1 ≤ g) :
    levelGap 1000000 100 w h v' (50 * v' * g) < levelGap 1000000 100 w h v (50 * v * g) := by
  have g0 : 0 < g := by linarith
  have hv' : 0 < v' := hv.trans h1
  obtain ⟨-, t1⟩ := levelSpan_facts (s := 100) (w := v) (h := 50 * v * g) (by norm_num) hv (by positivity)
  obtain ⟨-, t2⟩ := levelSpan_facts (s := 100) (w := v') (h := 50 * v' * g) (by norm_num) hv' (by positivity)
  have l1 := level_length (w := v) (h := 50 * v * g) hv (by positivity)
  have l2 := level_length (w := v') (h := 50 * v' * g) hv' (by positivity)
  have e1 : 50 * v * g / v = 50 * g := by field_simp
  have e2 : 50 * v' * g / v' = 50 * g := by field_simp
  have e3 : 100 * v / (2 * (50 * v * g)) = 1 / g := by field_simp; norm_num
  have e4 : 100 * v' / (2 * (50 * v' * g)) = 1 / g := by field_simp; norm_num
  rw [e1] at l1
  rw [e2] at l2
  rw [e3] at t1
  rw [e4] at t2
  have hs : 0 < Real.sinh (1 / g) := Real.sinh_pos_iff.2 (by positivity)
  have hc := Real.cosh_pos (1 / g)
  have ht : (levelSpan 100 v (50 * v * g)).tensionAverage < (levelSpan 100 v' (50 * v' * g)).tensionAverage := by
    rw [t1, t2]
    refine mul_lt_mul_of_pos_right ?_ (by positivity)
    nlinarith
  have := elongate_lt (a := (levelSpan 100 w h).tensionAverage / (2 * 1000000)) (level_length_le hw hh).1
    (div_lt_div_of_pos_right ht (by norm_num : (0:ℝ) < 2 * 1000000))
  unfold levelGap
  rw [l1, l2]
  linarith

theorem tried_one {g : ℝ} (h : Tried g) : 1 ≤ g := by
  obtain ⟨n, i, rfl⟩ := h
  have : (0:ℝ) ≤ i / 2 ^ n := by positivity
  linarith

/-- There is a load between 1 and 1.1 to which the spans under the load 1 can be reloaded, if their tension was found
by a search. -/
theorem clear_load : ∃ v : ℝ, 1 < v ∧ v < 1.1 ∧ ∀ g, Tried g → 51 ≤ 50 * g → 50 * g ≤ 99 → Clear 1 (50 * g) v := by
  have hc : {v : ℝ | ∃ g, Tried g ∧ ∃ g', Tried g' ∧ 0 < v ∧ levelGap 1000000 100 1 (50 * g) v (50 * v * g') = 0}.Countable := by
    have : {v : ℝ | ∃ g, Tried g ∧ ∃ g', Tried g' ∧ 0 < v ∧ levelGap 1000000 100 1 (50 * g) v (50 * v * g') = 0} =
        ⋃ g ∈ {g | Tried g}, ⋃ g' ∈ {g | Tried g}, {v : ℝ | 0 < v ∧ levelGap 1000000 100 1 (50 * g) v (50 * v * g') = 0} := by
      ext v; simp only [Set.mem_ofPred_eq, Set.mem_iUnion, exists_prop]
    rw [this]
    refine tried_countable.biUnion fun g hg => tried_countable.biUnion fun g' hg' => Set.Subsingleton.countable ?_
    have t1 := tried_one hg
    have t2 := tried_one hg'
    rintro v ⟨h1, h2⟩ v' ⟨h3, h4⟩
    rcases lt_trichotomy v v' with h | h | h
    · have := level_gap_target (w := 1) (h := 50 * g) one_pos (by linarith) h1 h t2
      linarith
    · exact h
    · have := level_gap_target (w := 1) (h := 50 * g) one_pos (by linarith) h3 h t2
      linarith
  obtain ⟨v, hv, h1, h2⟩ := (hc.dense_compl ℝ).exists_between (show (1:ℝ) < 1.1 by norm_num)
  refine ⟨v, h1, h2, fun g hg g1 g2 => ⟨one_pos, by linarith, by linarith, by norm_num; linarith, h1.le, by
    norm_num at h2 ⊢; linarith, fun g' hg' _ h0 => hv ⟨g, hg, g', hg', by linarith, h0⟩⟩⟩

/-- Between any two tensions there is one with which a span can be reloaded to two loads. -/
theorem clear_tension {v w a b : ℝ} (hv : 1 ≤ v) (hv2 : v ≤ 1.2) (hw : 1 ≤ w) (hw2 : w ≤ 1.2) (hab : a < b)
    (ha : 51 * v ≤ a) (hb : b ≤ 99 * v) : ∃ h, a < h ∧ h < b ∧ Clear v h v ∧ Clear v h w := by
  have key : ∀ u, {h : ℝ | 50 * v ≤ h ∧ ∃ g, Tried g ∧ levelGap 1000000 100 v h u (50 * u * g) = 0}.Countable := by
    intro u
    have : {h : ℝ | 50 * v ≤ h ∧ ∃ g, Tried g ∧ levelGap 1000000 100 v h u (50 * u * g) = 0} =
        ⋃ g ∈ {g | Tried g}, {h : ℝ | 50 * v ≤ h ∧ levelGap 1000000 100 v h u (50 * u * g) = 0} := by
      ext h
      simp
    rw [this]
    refine tried_countable.biUnion fun g hg => Set.Subsingleton.countable ?_
    rintro h ⟨h1, h2⟩ h' ⟨h3, h4⟩
    rcases lt_trichotomy h h' with q | q | q
    · have := level_gap_source (v := u) (x := 50 * u * g) (by linarith) h1 q
      linarith
    · exact q
    · have := level_gap_source (v := u) (x := 50 * u * g) (by linarith) h3 q
      linarith
  obtain ⟨h, hh, h1, h2⟩ := (((key v).union (key w)).dense_compl ℝ).exists_between hab
  have c : ∀ u, 1 ≤ u → u ≤ 1.2 → h ∉ {h : ℝ | 50 * v ≤ h ∧ ∃ g, Tried g ∧ levelGap 1000000 100 v h u (50 * u * g) = 0} →
      Clear v h u := fun u u1 u2 hu => ⟨by linarith, by linarith, by linarith, by norm_num at *; linarith, u1, u2,
        fun g hg _ h0 => hu ⟨by linarith, g, hg, h0⟩⟩
  exact ⟨h, h1, h2, c v hv hv2 fun q => hh (Or.inl q), c w hw hw2 fun q => hh (Or.inr q)⟩

/-! ## The line cable -/

/-- Ice that gives the cable the unit load `w`. -/
noncomputable def icy (w : ℝ) : WeatherLoadCase :=
  ⟨(w - 1) / (Cylinder.volume ⟨3, 1⟩ - Cylinder.volume ⟨1, 1⟩), 0, 60, 1⟩

theorem ice_volume : 0 < Cylinder.volume ⟨3, 1⟩ - Cylinder.volume ⟨1, 1⟩ := by
  unfold Cylinder.volume Cylinder.areaCrossSection
  simp only
  unfold Units.kPi
  norm_num

/-- A line cable with the limit `l` of type `t` under the load `w`; the stretch is caused by the load `v`. -/
noncomputable def icyLineOf (v w l : ℝ) (t : LimitType) : SectionCable :=
  ⟨some (hookeCable 1000000), [], ⟨some (icy w), .initial, l, t⟩, ⟨100, 0, 0⟩, some (icy v), some (icy v)⟩

/-- A line cable strung with the horizontal tension `h` under the load `w`; the stretch is caused by the load `v`. -/
noncomputable def icyLine (v w h : ℝ) : SectionCable := icyLineOf v w h .horizontalTension

theorem icyOf_load (v w l : ℝ) (t : LimitType) (u : ℝ) : (icyLineOf v w l t).unitLoad (some (icy u)) = .val ⟨0, 0, u⟩ := by
  show Res.val (⟨0, ((1:ℝ) + 2 * 1) * 1 * 0, 1 + (Cylinder.volume ⟨1 + 2 * 1, 1⟩ - Cylinder.volume ⟨1, 1⟩) *
    ((u - 1) / (Cylinder.volume ⟨3, 1⟩ - Cylinder.volume ⟨1, 1⟩))⟩ : V3) = _
  have := ice_volume
  rw [show (1:ℝ) + 2 * 1 = 3 by norm_num, mul_div_cancel₀ _ this.ne']
  norm_num

theorem icy_load (v w h u : ℝ) : (icyLine v w h).unitLoad (some (icy u)) = .val ⟨0, 0, u⟩ := icyOf_load v w h _ u

theorem icy_ruling (v w h : ℝ) : (icyLine v w h).catenaryRulingSpan = .val (levelSpan 100 w h) := by
  unfold SectionCable.catenaryRulingSpan
  have : (icyLine v w h).loadUnit = .val ⟨0, 0, w⟩ := icy_load v w h w
  rw [this]
  rfl

/-- A reload of the span is accepted. -/
theorem icy_step {w h v : ℝ} (C : Clear w h v) {t t' : PolynomialType} (ht : t ≠ .null) (ht' : t' ≠ .null)
    (a b : CableStretchState) (ha : a.load = 0) (hb : b.load = 0) :
    ∃ r g, (CatenaryReloader.given (levelSpan 100 w h) (modelOf (hookeCable 1000000) ⟨60, t⟩ a)
      (modelOf (hookeCable 1000000) ⟨60, t'⟩ b) ⟨0, 0, v⟩).validate = .ok r true ∧
      r.catenaryReloaded = levelSpan 100 v (50 * v * g) ∧ Tried g ∧ |50 * g - h / w| ≤ 1.02 ∧
      TriedFrom (50 * v) (50 * v * g) := by
  obtain ⟨r, g, h1, h2, h3, h4⟩ := level_step C (r := CatenaryReloader.given (levelSpan 100 w h)
    (modelOf (hookeCable 1000000) ⟨60, t⟩ a) (modelOf (hookeCable 1000000) ⟨60, t'⟩ b) ⟨0, 0, v⟩) rfl rfl rfl
    (hung_like ht ha) (hung_like ht' hb)
  refine ⟨r, g, ?_, h2, h3, h4⟩
  unfold CatenaryReloader.validate
  have e1 : (CatenaryReloader.given (levelSpan 100 w h) (modelOf (hookeCable 1000000) ⟨60, t⟩ a)
      (modelOf (hookeCable 1000000) ⟨60, t'⟩ b) ⟨0, 0, v⟩).modelReference = some (modelOf (hookeCable 1000000) ⟨60, t⟩ a) := rfl
  have e2 : (CatenaryReloader.given (levelSpan 100 w h) (modelOf (hookeCable 1000000) ⟨60, t⟩ a)
      (modelOf (hookeCable 1000000) ⟨60, t'⟩ b) ⟨0, 0, v⟩).modelReloaded = some (modelOf (hookeCable 1000000) ⟨60, t'⟩ b) := rfl
  have e3 : (CatenaryReloader.given (levelSpan 100 w h) (modelOf (hookeCable 1000000) ⟨60, t⟩ a)
      (modelOf (hookeCable 1000000) ⟨60, t'⟩ b) ⟨0, 0, v⟩).catenary = some (levelSpan 100 w h) := rfl
  have e4 : (CatenaryReloader.given (levelSpan 100 w h) (modelOf (hookeCable 1000000) ⟨60, t⟩ a)
      (modelOf (hookeCable 1000000) ⟨60, t'⟩ b) ⟨0, 0, v⟩).weight = some ⟨0, 0, v⟩ := rfl
  have v1 : validCatenary (some (levelSpan 100 w h)) = true :=
    level_valid (by norm_num) C.w0 (by have := C.low; have := C.w0; norm_num; linarith)
  have v2 : validWeight (some ⟨0, 0, v⟩) = true := by
    unfold validWeight
    have := C.v1
    simp
    linarith
  rw [e1, e2, e3, e4, hung_valid ht (calm_state ht) ha, hung_valid ht' (calm_state ht') hb, v1, v2]
  exact h1

/-- Loading the example gives the stretch caused by its creep and load weather cases. -/
theorem icyOf_base {v w h l : ℝ} {t : LimitType} (C : Clear w h v)
    (hr : (icyLineOf v w l t).catenaryRulingSpan = .val (levelSpan 100 w h)) {s : LineLoader} (hc : s.lineCable = some (icyLineOf v w l t)) :
    ∃ s', s.update = .ok s' true ∧ s'.lineCable = some (icyLineOf v w l t) ∧ s'.catenary = levelSpan 100 w h ∧
    s'.modelConstraint = modelOf (hookeCable 1000000) ⟨60, .loadStrain⟩ ⟨0, .loadStrain, 0⟩ := by
  obtain ⟨r1, g1, h1, -⟩ := icy_step C (t := .loadStrain) (t' := .creep) (by decide) (by decide) ⟨0, .loadStrain, 0⟩
    ⟨60, .creep, 0⟩ rfl rfl
  obtain ⟨r2, g2, h2, -⟩ := icy_step C (t := .loadStrain) (t' := .loadStrain) (by decide) (by decide) ⟨0, .loadStrain, 0⟩
    ⟨60, .loadStrain, 0⟩ rfl rfl
  have hv : (levelSpan 100 w h).validate.1 = true :=
    level_valid (by norm_num) C.w0 (by have := C.low; have := C.w0; norm_num; linarith)
  have a1 : s.updateCatenary (icyLineOf v w l t) = .ok { s with catenary := levelSpan 100 w h } true := by
    unfold LineLoader.updateCatenary
    rw [hr]
    simp only
    rw [if_pos hv]
  have a3 : ∀ x : LineLoader, x.catenary = levelSpan 100 w h →
      x.modelConstraint = modelOf (hookeCable 1000000) ⟨60, .loadStrain⟩ ⟨0, .loadStrain, 0⟩ →
      x.modelCreep = modelOf (hookeCable 1000000) ⟨60, .creep⟩ ⟨60, .creep, 0⟩ →
      x.modelLoad = modelOf (hookeCable 1000000) ⟨60, .loadStrain⟩ ⟨60, .loadStrain, 0⟩ →
      x.updateLoadStretch (icyLineOf v w l t) = .ok { x with
        stretchCreep := ⟨60, .creep, r1.catenaryReloaded.tensionAverage⟩
        stretchLoad := ⟨60, .loadStrain, r2.catenaryReloaded.tensionAverage⟩ } true := by
    intro x e1 e2 e3 e4
    have b1 : x.updateStretchCreep (icyLineOf v w l t) =
        .ok { x with stretchCreep := ⟨60, .creep, r1.catenaryReloaded.tensionAverage⟩ } true := by
      have q : x.solveStretch (icyLineOf v w l t) x.modelCreep (icyLineOf v w l t).weatherCreep =
          .val (some ⟨60, .creep, r1.catenaryReloaded.tensionAverage⟩) := by
        unfold LineLoader.solveStretch
        have : (icyLineOf v w l t).unitLoad (icyLineOf v w l t).weatherCreep = .val ⟨0, 0, v⟩ := icyOf_load v w l t v
        rw [this, e1, e2, e3]
        simp only
        rw [h1]
        rfl
      unfold LineLoader.updateStretchCreep
      rw [if_neg (by show ¬ CableCondition.initial = _; decide), q]
    have b2 : ∀ y : LineLoader, y.catenary = levelSpan 100 w h →
      y.modelConstraint = modelOf (hookeCable 1000000) ⟨60, .loadStrain⟩ ⟨0, .loadStrain, 0⟩ →
      y.modelLoad = modelOf (hookeCable 1000000) ⟨60, .loadStrain⟩ ⟨60, .loadStrain, 0⟩ →
      y.updateStretchLoad (icyLineOf v w l t) =
        .ok { y with stretchLoad := ⟨60, .loadStrain, r2.catenaryReloaded.tensionAverage⟩ } true := by
      intro y e1 e2 e4
      have q : y.solveStretch (icyLineOf v w l t) y.modelLoad (icyLineOf v w l t).weatherLoad =
          .val (some ⟨60, .loadStrain, r2.catenaryReloaded.tensionAverage⟩) := by
        unfold LineLoader.solveStretch
        have : (icyLineOf v w l t).unitLoad (icyLineOf v w l t).weatherLoad = .val ⟨0, 0, v⟩ := icyOf_load v w l t v
        rw [this, e1, e2, e4]
        simp only
        rw [h2]
        rfl
      unfold LineLoader.updateStretchLoad
      rw [if_neg (by show ¬ CableCondition.initial = _; decide), q]
    unfold LineLoader.updateLoadStretch
    rw [b1]
    simp only [Run.bind]
    rw [if_pos trivial]
    exact b2 _ e1 e2 e4
  have a2 : ∀ x : LineLoader, x.initModels (icyLineOf v w l t) = .ok { x with
      modelConstraint := modelOf (hookeCable 1000000) ⟨60, .loadStrain⟩ ⟨0, .loadStrain, 0⟩
      modelCreep := modelOf (hookeCable 1000000) ⟨60, .creep⟩ ⟨60, .creep, 0⟩
      modelLoad := modelOf (hookeCable 1000000) ⟨60, .loadStrain⟩ ⟨60, .loadStrain, 0⟩ } true := fun x => rfl
  have a4 : ∀ x : LineLoader, x.updateConstraintModel (icyLineOf v w l t) = .ok x true := fun x => rfl
  unfold LineLoader.update
  rw [hc]
  simp only
  rw [a1]
  simp only [Run.bind]
  rw [if_neg (by decide), a2]
  simp only
  rw [a4]
  simp only
  rw [if_neg (by decide)]
  erw [a3 _ rfl rfl rfl rfl]
  exact ⟨_, rfl, hc, rfl, rfl⟩

/-- The example can be reloaded to a load `u`. -/
theorem icyOf_reloads {v w h u l : ℝ} {t : LimitType} (C : Clear w h v) (C' : Clear w h u)
    (hr : (icyLineOf v w l t).catenaryRulingSpan = .val (levelSpan 100 w h)) :
    ∃ s g, (reloaderOf (icyLineOf v w l t) (some (icy u)) .initial).update = .ok s true ∧
      s.catenary = levelSpan 100 u (50 * u * g) ∧ Tried g ∧ |50 * g - h / w| ≤ 1.02 ∧
      TriedFrom (50 * u) (50 * u * g) := by
  set z := reloaderOf (icyLineOf v w l t) (some (icy u)) .initial with hz
  obtain ⟨b, h1, h2, h3, h4⟩ := icyOf_base C hr (s := z.base) rfl
  obtain ⟨r, g, k1, k2, k3, k4⟩ := icy_step C' (t := .loadStrain) (t' := .loadStrain) (by decide) (by decide)
    ⟨0, .loadStrain, 0⟩ ⟨0, .loadStrain, 0⟩ rfl rfl
  have u1 : z.updateBase = .ok { z with base := b } true := by
    have : z.updateBase = z.base.update.mapState fun b => { z with base := b } := rfl
    rw [this, h1]
    rfl
  have u2 : ({ z with base := b } : LineReloader).updateModel = .ok { z with
      base := b
      model := modelOf (hookeCable 1000000) ⟨60, .loadStrain⟩ ⟨0, .loadStrain, 0⟩
      updatedModel := true } true := by
    have : ({ z with base := b } : LineReloader).modelValue =
        .val (some (modelOf (hookeCable 1000000) ⟨60, .loadStrain⟩ ⟨0, .loadStrain, 0⟩)) := by
      unfold LineReloader.modelValue
      have e : ({ z with base := b } : LineReloader).base.lineCable = some (icyLineOf v w l t) := h2
      rw [e]
      rfl
    unfold LineReloader.updateModel
    rw [this]
  have u3 : ∀ x : LineReloader, x.base = b → x.weather = some (icy u) →
      x.model = modelOf (hookeCable 1000000) ⟨60, .loadStrain⟩ ⟨0, .loadStrain, 0⟩ →
      x.updateReloaded = .ok { x with catenary := r.catenaryReloaded, updatedCatenary := true } true := by
    intro x e1 e2 e3
    have : x.catenaryValue = .val (some r.catenaryReloaded) := by
      unfold LineReloader.catenaryValue
      rw [e1, h2, e2, e3]
      simp only
      rw [icyOf_load]
      simp only
      rw [h3, h4, k1]
    unfold LineReloader.updateReloaded
    rw [this]
  unfold LineReloader.update
  rw [u1]
  simp only [Run.bind]
  rw [if_neg (by decide), if_neg (by show ¬ false = true; decide), u2]
  simp only
  rw [if_neg (by decide), if_neg (by show ¬ false = true; decide), u3 _ rfl rfl rfl]
  exact ⟨_, g, rfl, k2, k3, k4⟩

theorem icy_weather {w : ℝ} (hw : 1 ≤ w) : (icy w).validate = (true, []) := by
  have : ¬ (icy w).densityIce < 0 := not_lt.2 (div_nonneg (by linarith) ice_volume.le)
  unfold WeatherLoadCase.validate
  rw [if_neg this]
  simp [icy]
  norm_num

theorem icyOf_valid {v w h l : ℝ} {t : LimitType} (hv : 1 ≤ v) (hw : 1 ≤ w) (hh : 50 * w ≤ h) (hl : 0 ≤ l)
    (ht : t ≠ .null) (hr : (icyLineOf v w l t).catenaryRulingSpan = .val (levelSpan 100 w h)) (heap : Heap ℝ) :
    ∃ m, (icyLineOf v w l t).validate heap = .val (true, m) := by
  have w0 : 0 < w := by linarith
  have hk : (levelSpan 100 w h).validate.1 = true := level_valid (by norm_num) w0 (by norm_num; exact hh)
  have hm : (icyLineOf v w l t).validateMembers.1 = true := by
    have hl : ¬ l < 0 := not_lt.2 hl
    simp [SectionCable.validateMembers, SectionCable.validateCable, icyLineOf, hookeCable, Cable.validate,
      CableConstraint.validate, validateWeather, icy_weather hv, icy_weather hw, hl, ht]
    norm_num
  unfold SectionCable.validate
  simp only
  rw [hm, if_neg (by decide), hr]
  simp only [hk]
  have : SectionCable.validateConnections heap (icyLineOf v w l t).connections = .val (false, ["Not enough connections"]) := rfl
  rw [this]
  exact ⟨_, rfl⟩

theorem Clear.vpos {w h v : ℝ} (C : Clear w h v) : 1 ≤ v := C.v1

/-- The reloader of the example is accepted. -/
theorem icyOf_checked {v w h u l : ℝ} {t : LimitType} (C : Clear w h v) (C' : Clear w h u) (hw : 1 ≤ w) (hl : 0 ≤ l)
    (ht : t ≠ .null) (hr : (icyLineOf v w l t).catenaryRulingSpan = .val (levelSpan 100 w h)) (heap : Heap ℝ) :
    ∃ g, Sagger.reloadChecked heap (reloaderOf (icyLineOf v w l t) (some (icy u)) .initial) =
        some (.val (some (levelSpan 100 u (50 * u * g)))) ∧
      (reloaderOf (icyLineOf v w l t) (some (icy u)) .initial).tensionHorizontal.result = some (.val (50 * u * g)) ∧
      Tried g ∧ |50 * g - h / w| ≤ 1.02 ∧ TriedFrom (50 * u) (50 * u * g) := by
  obtain ⟨s, g, h1, h2, h3, h4⟩ := icyOf_reloads C C' hr
  set z := reloaderOf (icyLineOf v w l t) (some (icy u)) .initial with hz
  obtain ⟨k1, k2⟩ := LineReloader.update_sound (Sagger.reloaderOf_sound (icyLineOf v w l t) (some (icy u)) .initial)
  have hk := k1 s (by rw [← hz, h1]; rfl)
  have hu := k2 s h1
  refine ⟨g, ?_, ?_, h3, h4⟩
  · have hb : z.base.validMembers heap = .val true := by
      obtain ⟨m, hm⟩ := icyOf_valid C.vpos hw (by have := C.low; have := C.w0; linarith) hl ht hr heap
      have e1 : z.base.lineCable = some (icyLineOf v w l t) := rfl
      have e2 : (icyLineOf v w l t).cable = some (hookeCable 1000000) := rfl
      unfold LineLoader.validMembers
      simp only [e1, e2, hm, (hooke_valid (e := 1000000)).1, Bool.and_self]
    have hi : s.validInputs = true := by
      have e1 : s.weather = some (icy u) := hk.2.2.2
      have e2 : s.condition = .initial := hk.2.2.1
      unfold LineReloader.validInputs
      rw [e1, e2]
      simp [icy_weather C'.vpos]
    have hv : z.validate heap = .ok s true := by
      unfold LineReloader.validate LineReloader.validateBase
      rw [hb]
      simp only [Run.ofRes, Run.bind, if_true, h1, hi, Bool.and_self, LineReloader.update_updated hu]
    unfold Sagger.reloadChecked
    rw [hv]
    simp only
    have e : s.catenaryReloaded.result = some (.val s.catenary) := by
      unfold LineReloader.catenaryReloaded LineReloader.ask
      rw [if_pos hu]
      rfl
    rw [e, h2]
  · unfold LineReloader.tensionHorizontal LineReloader.ask
    have e : z.isUpdated = false := rfl
    rw [e, if_neg (by decide), h1]
    show some (Res.val s.catenary.tensionHorizontal) = _
    rw [h2]
    rfl

theorem icy_base {v w h : ℝ} (C : Clear w h v) {s : LineLoader} (hc : s.lineCable = some (icyLine v w h)) :
    ∃ s', s.update = .ok s' true ∧ s'.lineCable = some (icyLine v w h) ∧ s'.catenary = levelSpan 100 w h ∧
    s'.modelConstraint = modelOf (hookeCable 1000000) ⟨60, .loadStrain⟩ ⟨0, .loadStrain, 0⟩ :=
  icyOf_base C (icy_ruling v w h) hc

theorem icy_valid {v w h : ℝ} (hv : 1 ≤ v) (hw : 1 ≤ w) (hh : 50 * w ≤ h) (heap : Heap ℝ) :
    ∃ m, (icyLine v w h).validate heap = .val (true, m) :=
  icyOf_valid hv hw hh (by linarith) (by decide) (icy_ruling v w h) heap

theorem icy_checked {v w h u : ℝ} (C : Clear w h v) (C' : Clear w h u) (hw : 1 ≤ w) (heap : Heap ℝ) :
    ∃ g, Sagger.reloadChecked heap (reloaderOf (icyLine v w h) (some (icy u)) .initial) =
        some (.val (some (levelSpan 100 u (50 * u * g)))) ∧
      (reloaderOf (icyLine v w h) (some (icy u)) .initial).tensionHorizontal.result = some (.val (50 * u * g)) ∧
      Tried g ∧ |50 * g - h / w| ≤ 1.02 ∧ TriedFrom (50 * u) (50 * u * g) :=
  icyOf_checked C C' hw (by have := C.low; have := C.w0; linarith) (by decide) (icy_ruling v w h) heap

/-- A design constraint: the tension `h` under the load `v`. -/
noncomputable def icyLimit (v h : ℝ) : CableConstraint := ⟨some (icy v), .initial, h, .horizontalTension⟩

/-- The sagger of the example: two design constraints under the load `v`, and a line cable whose constraint has the
load 1. -/
noncomputable def icySagger (v h h' : ℝ) : Sagger :=
  (Sagger.new.setConstraints (some [icyLimit v h, icyLimit v h'])).setLineCable (some (icyLine v 1 70))

/-- The line cable can be sagged: the constraint with the lower tension controls. -/
theorem icy_sags (heap : Heap ℝ) : ∃ v h h' x k, 1 < v ∧ v < 1.1 ∧ 75 * v < h ∧ h < 76 * v ∧ 70 * v < h' ∧ h' < 71 * v ∧
    |x - 70.5| ≤ 2 ∧ |k.tensionHorizontal - 70.5 * v| ≤ 4 * v ∧
    (icySagger v h h').update heap =
      .ok ⟨some [icyLimit v h, icyLimit v h'], some (icyLine v 1 x), [k, k], 1, true⟩ true := by
  obtain ⟨v, v1, v2, hv⟩ := clear_load
  have v0 : 0 < v := by linarith
  have v3 : v ≤ 1.2 := by norm_num at *; linarith
  obtain ⟨h, a1, a2, a3, a4⟩ := clear_tension (v := v) (w := 1) (a := 75 * v) (b := 76 * v) v1.le v3 (le_refl _)
    (by norm_num) (by linarith) (by linarith) (by linarith)
  obtain ⟨h', b1, b2, b3, b4⟩ := clear_tension (v := v) (w := 1) (a := 70 * v) (b := 71 * v) v1.le v3 (le_refl _)
    (by norm_num) (by linarith) (by linarith) (by linarith)
  obtain ⟨g, -, c2, -, c4, -⟩ := icy_checked a3 a4 v1.le heap
  obtain ⟨g', d1, d2, d3, d4, -⟩ := icy_checked b3 b4 v1.le heap
  have r1 : 75 < h / v := by rw [lt_div_iff₀ v0]; exact a1
  have r2 : h / v < 76 := by rw [div_lt_iff₀ v0]; exact a2
  have r3 : 70 < h' / v := by rw [lt_div_iff₀ v0]; exact b1
  have r4 : h' / v < 71 := by rw [div_lt_iff₀ v0]; exact b2
  obtain ⟨q1, q2⟩ := abs_le.1 c4
  obtain ⟨q3, q4⟩ := abs_le.1 d4
  norm_num at q1 q2 q3 q4
  obtain ⟨g2, f1, -, -, f4, -⟩ := icy_checked (hv g' d3 (by linarith) (by linarith)) (hv g' d3 (by linarith) (by linarith))
    (le_refl _) heap
  obtain ⟨q5, q6⟩ := abs_le.1 f4
  norm_num at q5 q6
  refine ⟨v, h, h', 50 * g', levelSpan 100 v (50 * v * g2), v1, v2, a1, a2, b1, b2, ?_, ?_, ?_⟩
  · rw [abs_le]; norm_num; constructor <;> linarith
  · show |50 * v * g2 - 70.5 * v| ≤ 4 * v
    rw [show 50 * v * g2 - 70.5 * v = (50 * g2 - 70.5) * v by ring, abs_mul, abs_of_pos v0]
    refine mul_le_mul_of_nonneg_right ?_ v0.le
    rw [abs_le]; norm_num; constructor <;> linarith
  have t1 : Sagger.tensionOf (icyLine v 1 70) (icyLimit v h) = some (.val (50 * 1 * g)) := c2
  have t2 : Sagger.tensionOf (icyLine v 1 70) (icyLimit v h') = some (.val (50 * 1 * g')) := d2
  have i1 : (icySagger v h h').updateIndex = .ok { icySagger v h h' with index := 1 } true := by
    have : (icySagger v h h').updateIndex = (Sagger.controlLoop (Sagger.tensionOf (icyLine v 1 70))
      [icyLimit v h, icyLimit v h'] 0 999999 (-9999)).mapState fun i => { icySagger v h h' with index := i } := rfl
    rw [this]
    unfold Sagger.controlLoop
    rw [t1]
    simp only
    rw [if_neg (by intro h; linarith), if_pos (by linarith)]
    unfold Sagger.controlLoop
    rw [t2]
    simp only
    rw [if_neg (by intro h; linarith), if_pos (by linarith)]
    rfl
  have hk : Sagger.resag (icyLine v 1 70) (levelSpan 100 1 (50 * 1 * g')) = icyLine v 1 (50 * g') := by
    have : Sagger.resag (icyLine v 1 70) (levelSpan 100 1 (50 * 1 * g')) = icyLine v 1 (50 * 1 * g') := rfl
    rw [this, mul_one]
  have i2 : (icySagger v h h').updateLimit heap =
      .ok { icySagger v h h' with index := 1, lineCable := some (icyLine v 1 (50 * g')) } true := by
    unfold Sagger.updateLimit
    rw [i1]
    simp only [Run.bind]
    have e1 : (icySagger v h h').constraints = some [icyLimit v h, icyLimit v h'] := rfl
    have e2 : (icySagger v h h').lineCable = some (icyLine v 1 70) := rfl
    have e3 : validIndex 1 [icyLimit v h, icyLimit v h'].length = true := rfl
    have e4 : [icyLimit v h, icyLimit v h'][(1:ℤ).toNat]? = some (icyLimit v h') := rfl
    rw [if_neg (by decide), e1, e2]
    simp only [e3, e4, if_true]
    have e5 : Sagger.reloadChecked heap (reloaderOf { icyLine v 1 70 with constraint := icyLimit v h' }
      (icyLine v 1 70).constraint.caseWeather (icyLine v 1 70).constraint.condition) =
      some (.val (some (levelSpan 100 1 (50 * 1 * g')))) := d1
    rw [e5]
    simp only
    rw [hk]
  unfold Sagger.update
  rw [if_neg (by show ¬ false = true; decide), i2]
  simp only [Run.bind]
  rw [if_neg (by decide)]
  have e6 : ∀ q, Sagger.reloadChecked heap (reloaderOf (icyLine v 1 (50 * g')) (icyLimit v q).caseWeather
      (icyLimit v q).condition) = some (.val (some (levelSpan 100 v (50 * v * g2)))) := fun _ => f1
  unfold Sagger.updateActual
  have e1 : (icySagger v h h').constraints = some [icyLimit v h, icyLimit v h'] := rfl
  simp only [e1]
  unfold Sagger.actualLoop
  rw [e6]
  simp only
  unfold Sagger.actualLoop
  rw [e6]
  rfl

theorem icy_run {v h h' : ℝ} : Sagger.run .new [.setConstraints (some [icyLimit v h, icyLimit v h']),
    .setLineCable (some (icyLine v 1 70))] = some (icySagger v h h') := rfl

theorem icy_asked {A : Type} {s t : Sagger} {heap : Heap ℝ} (h : s.update heap = .ok t true) (d : A)
    (f : Sagger → Run Sagger A) : s.ask heap d f = f t := by
  unfold Sagger.ask
  rw [h]
  rfl

/-- C76: the second of the two constraints controls, and its tension is lower. -/
example (heap : Heap ℝ) : ∃ v h h' t t', ((icySagger v h h').indexControlling heap).result = some (.val 1) ∧
    (restrung (icyLine v 1 70) (icyLimit v h')).tensionHorizontal.result = some (.val t) ∧
    (restrung (icyLine v 1 70) (icyLimit v h)).tensionHorizontal.result = some (.val t') ∧ t < t' := by
  obtain ⟨v, h, h', x, k, -, -, -, -, -, -, -, -, hu⟩ := icy_sags heap
  have hi : ((icySagger v h h').indexControlling heap).result = some (.val 1) := by
    unfold Sagger.indexControlling
    rw [icy_asked hu]
    rfl
  obtain ⟨qs, c, n, q, e1, e2, e3, e4, e5⟩ := C76_lowest icy_run hi (by norm_num)
  cases e1
  cases e2
  have e3 : n = 1 := by omega
  subst e3
  cases e4
  obtain ⟨t, t', p1, p2, -, p4⟩ := e5 0 (icyLimit v h) rfl (by decide)
  exact ⟨v, h, h', t, t', hi, p1, p2, p4 (by decide)⟩

/-- C77 and C119: the sagged line cable has another limit, the tension of the controlling constraint, and sagging it
again changes nothing. -/
example (heap : Heap ℝ) : ∃ v h h' t c' K k,
    ((Sagger.new.setConstraints (some [icyLimit v h, icyLimit v h'])).setLineCable
      (some (icyLine v 1 70))).indexControlling heap = .ok t 1 ∧
    t.lineCable = some c' ∧ |c'.constraint.limit - 70.5| ≤ 2 ∧
    ((Sagger.new.setConstraints t.constraints).setLineCable t.lineCable).limitSagged heap = .ok t c'.constraint.limit ∧
    c'.catenaryRulingSpan = .val K ∧
    (restrung (icyLine v 1 70) (icyLimit v h')).catenaryReloaded.result = some (.val k) ∧
    K.tensionHorizontal = k.tensionHorizontal := by
  obtain ⟨v, h, h', x, k, -, -, -, -, -, -, hx, -, hu⟩ := icy_sags heap
  have hi : ((Sagger.new.setConstraints (some [icyLimit v h, icyLimit v h'])).setLineCable
      (some (icyLine v 1 70))).indexControlling heap =
      .ok ⟨some [icyLimit v h, icyLimit v h'], some (icyLine v 1 x), [k, k], 1, true⟩ 1 := icy_asked hu _ _
  obtain ⟨-, c', e1, -, e2⟩ := C77_again (u := Sagger.new) hi (by norm_num)
  obtain ⟨qs, q, k', c2, K, f1, f2, f3, f4, f5, -, -, -, f6⟩ := C119_tension_partial hi (by norm_num)
  cases f1
  cases f2
  cases e1
  cases f4
  exact ⟨v, h, h', _, _, K, k', hi, rfl, hx, e2, f5, f3, f6⟩

/-- C120: the reports for the first constraint are those of the sagged line cable under its load. -/
example (heap : Heap ℝ) : ∃ v h h' c k a, ((icySagger v h h').tensionHorizontalActual heap 0).result = some (.val a) ∧
    ((icySagger v h h').capacityAllowable heap 0).result = some (.val (a / h)) ∧
    (loadedAt c (icyLimit v h)).catenaryReloaded.result = some (.val k) ∧ |c.constraint.limit - 70.5| ≤ 2 ∧
    a = k.tensionHorizontal ∧ a / h * h = a ∧ |a - 70.5 * v| ≤ 4 * v := by
  obtain ⟨v, h, h', x, k, v1, v2, h1, -, -, -, hx, hk, hu⟩ := icy_sags heap
  have h0 : h ≠ 0 := by linarith
  have ha : ((icySagger v h h').tensionHorizontalActual heap 0).result = some (.val k.tensionHorizontal) := by
    unfold Sagger.tensionHorizontalActual Sagger.askActual
    rw [icy_asked hu]
    rfl
  have hb : ((icySagger v h h').tensionSupportActual heap 0).result = some (.val k.tensionMax) := by
    unfold Sagger.tensionSupportActual Sagger.askActual
    rw [icy_asked hu]
    rfl
  have hd : ((icySagger v h h').constantActual heap 0).result = some (.val k.constant) := by
    unfold Sagger.constantActual Sagger.askActual
    rw [icy_asked hu]
    rfl
  have hc : (icySagger v h h').capacityAllowable heap 0 =
      if h = 0 then .nan else .ok ⟨some [icyLimit v h, icyLimit v h'], some (icyLine v 1 x), [k, k], 1, true⟩
        (k.tensionHorizontal / h) := by
    unfold Sagger.capacityAllowable
    rw [icy_asked hu]
    rfl
  rw [if_neg h0] at hc
  have hpos : k.tensionHorizontal ≠ -999999 := by
    have := (abs_le.1 hk).1
    norm_num at this
    intro e
    rw [e] at this
    linarith
  have hx0 : k.tensionHorizontal / h ≠ -999999 := by
    intro e
    rw [div_eq_iff h0] at e
    have := (abs_le.1 hk).1
    norm_num at this
    nlinarith
  obtain ⟨t, qs, c, q, k', e1, e2, e3, -, e4, e5, e6, e7, e8⟩ := C120_actual icy_run ha hb hd hpos
  obtain ⟨t2, qs2, c2, q2, k2, f1, f2, f3, -, f4, f5, f6, f7⟩ := C120_capacity icy_run (heap := heap) (i := 0)
    (x := k.tensionHorizontal / h) (by rw [hc]; rfl) hx0
  rw [hc] at f1
  cases f1
  cases f2
  cases f3
  cases f4
  have f7 : k.tensionHorizontal / h * h = k2.tensionHorizontal := f7
  refine ⟨v, h, h', _, k2, k.tensionHorizontal, ha, by rw [hc]; rfl, f5, hx, ?_, ?_, hk⟩
  · rw [← f7]; field_simp
  · field_simp

/-! ## C128 -/

/-- A level span with a tension that the search tries cannot be reloaded to its own load. -/
theorem icy_stuck {x : ℝ} (hx : TriedFrom 50 x) (h1 : 50 < x) (h2 : x < 100) {t t' : PolynomialType} (ht : t ≠ .null)
    (ht' : t' ≠ .null) (a b : CableStretchState) (ha : a.load = 0) (hb : b.load = 0) :
    ∃ r, (CatenaryReloader.given (levelSpan 100 1 x) (modelOf (hookeCable 1000000) ⟨60, t⟩ a)
      (modelOf (hookeCable 1000000) ⟨60, t'⟩ b) ⟨0, 0, 1⟩).validate = .ok r false := by
  obtain ⟨r, h3⟩ := level_meets (r := CatenaryReloader.given (levelSpan 100 1 x)
    (modelOf (hookeCable 1000000) ⟨60, t⟩ a) (modelOf (hookeCable 1000000) ⟨60, t'⟩ b) ⟨0, 0, 1⟩) rfl rfl rfl
    (hung_like ht ha) (hung_like ht' hb) hx h1 h2
  refine ⟨r, ?_⟩
  unfold CatenaryReloader.validate
  have e1 : (CatenaryReloader.given (levelSpan 100 1 x) (modelOf (hookeCable 1000000) ⟨60, t⟩ a)
      (modelOf (hookeCable 1000000) ⟨60, t'⟩ b) ⟨0, 0, 1⟩).modelReference = some (modelOf (hookeCable 1000000) ⟨60, t⟩ a) := rfl
  have e2 : (CatenaryReloader.given (levelSpan 100 1 x) (modelOf (hookeCable 1000000) ⟨60, t⟩ a)
      (modelOf (hookeCable 1000000) ⟨60, t'⟩ b) ⟨0, 0, 1⟩).modelReloaded = some (modelOf (hookeCable 1000000) ⟨60, t'⟩ b) := rfl
  have e3 : (CatenaryReloader.given (levelSpan 100 1 x) (modelOf (hookeCable 1000000) ⟨60, t⟩ a)
      (modelOf (hookeCable 1000000) ⟨60, t'⟩ b) ⟨0, 0, 1⟩).catenary = some (levelSpan 100 1 x) := rfl
  have e4 : (CatenaryReloader.given (levelSpan 100 1 x) (modelOf (hookeCable 1000000) ⟨60, t⟩ a)
      (modelOf (hookeCable 1000000) ⟨60, t'⟩ b) ⟨0, 0, 1⟩).weight = some ⟨0, 0, 1⟩ := rfl
  have v1 : validCatenary (some (levelSpan 100 1 x)) = true :=
    level_valid (by norm_num) one_pos (by norm_num; linarith)
  have v2 : validWeight (some ⟨0, 0, 1⟩) = true := by unfold validWeight; norm_num
  rw [e1, e2, e3, e4, hung_valid ht (calm_state ht) ha, hung_valid ht' (calm_state ht') hb, v1, v2]
  exact h3

/-- A line cable with such a limit cannot be loaded. -/
theorem icy_unloadable {x : ℝ} (hx : TriedFrom 50 x) (h1 : 50 < x) (h2 : x < 100) (heap : Heap ℝ) :
    Sagger.reloadChecked heap (reloaderOf (icyLine 1 1 x) (some (icy 1)) .initial) = some (.val none) := by
  set z := reloaderOf (icyLine 1 1 x) (some (icy 1)) .initial with hz
  obtain ⟨r1, q1⟩ := icy_stuck hx h1 h2 (t := .loadStrain) (t' := .creep) (by decide) (by decide) ⟨0, .loadStrain, 0⟩
    ⟨60, .creep, 0⟩ rfl rfl
  have hv : (levelSpan 100 1 x).validate.1 = true := level_valid (by norm_num) one_pos (by norm_num; linarith)
  have a1 : ∀ s : LineLoader, s.updateCatenary (icyLine 1 1 x) = .ok { s with catenary := levelSpan 100 1 x } true := by
    intro s
    unfold LineLoader.updateCatenary
    rw [icy_ruling]
    simp only
    rw [if_pos hv]
  have a2 : ∀ s : LineLoader, s.initModels (icyLine 1 1 x) = .ok { s with
      modelConstraint := modelOf (hookeCable 1000000) ⟨60, .loadStrain⟩ ⟨0, .loadStrain, 0⟩
      modelCreep := modelOf (hookeCable 1000000) ⟨60, .creep⟩ ⟨60, .creep, 0⟩
      modelLoad := modelOf (hookeCable 1000000) ⟨60, .loadStrain⟩ ⟨60, .loadStrain, 0⟩ } true := fun _ => rfl
  have a4 : ∀ s : LineLoader, s.updateConstraintModel (icyLine 1 1 x) = .ok s true := fun _ => rfl
  have a3 : ∀ s : LineLoader, s.catenary = levelSpan 100 1 x →
      s.modelConstraint = modelOf (hookeCable 1000000) ⟨60, .loadStrain⟩ ⟨0, .loadStrain, 0⟩ →
      s.modelCreep = modelOf (hookeCable 1000000) ⟨60, .creep⟩ ⟨60, .creep, 0⟩ →
      s.updateLoadStretch (icyLine 1 1 x) = .ok s false := by
    intro s e1 e2 e3
    have b1 : s.updateStretchCreep (icyLine 1 1 x) = .ok s false := by
      have q : s.solveStretch (icyLine 1 1 x) s.modelCreep (icyLine 1 1 x).weatherCreep = .val none := by
        unfold LineLoader.solveStretch
        have : (icyLine 1 1 x).unitLoad (icyLine 1 1 x).weatherCreep = .val ⟨0, 0, 1⟩ := icy_load 1 1 x 1
        rw [this, e1, e2, e3]
        simp only
        rw [q1]
      unfold LineLoader.updateStretchCreep
      rw [if_neg (by show ¬ CableCondition.initial = _; decide), q]
    unfold LineLoader.updateLoadStretch
    rw [b1]
    rfl
  have hb : ∃ b, z.base.update = .ok b false := by
    unfold LineLoader.update
    have : z.base.lineCable = some (icyLine 1 1 x) := rfl
    rw [this]
    simp only
    rw [a1]
    simp only [Run.bind]
    rw [if_neg (by decide), a2]
    simp only
    rw [a4]
    simp only
    rw [if_neg (by decide)]
    erw [a3 _ rfl rfl rfl]
    exact ⟨_, rfl⟩
  obtain ⟨b, hb⟩ := hb
  have hu : z.update = .ok { z with base := b } false := by
    have : z.updateBase = z.base.update.mapState fun b => { z with base := b } := rfl
    unfold LineReloader.update
    rw [this, hb]
    rfl
  have hm : z.base.validMembers heap = .val true := by
    obtain ⟨m, hm⟩ := icy_valid (v := 1) (w := 1) (h := x) (le_refl _) (le_refl _) (by linarith) heap
    have e1 : z.base.lineCable = some (icyLine 1 1 x) := rfl
    have e2 : (icyLine 1 1 x).cable = some (hookeCable 1000000) := rfl
    unfold LineLoader.validMembers
    simp only [e1, e2, hm, (hooke_valid (e := 1000000)).1, Bool.and_self]
  have hv : ∃ s, z.validate heap = .ok s false := by
    unfold LineReloader.validate LineReloader.validateBase
    rw [hm]
    simp only [Run.ofRes, Run.bind, if_true, hu, Bool.false_and, Bool.false_eq_true, if_false]
    exact ⟨_, rfl⟩
  obtain ⟨s, hv⟩ := hv
  unfold Sagger.reloadChecked
  rw [hv]

/-- **C128** is false.  A valid line cable is sagged to its own constraint, a horizontal tension of 70, which it meets.
The sagger reports failure, and leaves the line cable with another limit. -/
theorem C128_fails (heap : Heap ℝ) : ∃ (c c' : SectionCable) (s t : Sagger) (m : List String),
    Sagger.run .new [.setConstraints (some [c.constraint]), .setLineCable (some c)] = some s ∧
    c.validate heap = .val (true, m) ∧ c.constraint.validate.1 = true ∧ c.constraint.typeLimit = .horizontalTension ∧
    c.constraint.limit = 70 ∧
    s.validate heap = .ok t false ∧ s.indexControlling heap = .ok t (-9999) ∧
    t.lineCable = some c' ∧ c'.constraint.limit ≠ 70 := by
  have C : Clear 1 70 1 := by
    refine ⟨one_pos, by norm_num, by norm_num, by norm_num, le_refl _, by norm_num, ?_⟩
    rintro g ⟨n, i, hg⟩ g2 h0
    have g1 := tried_one ⟨n, i, hg⟩
    have hs : levelGap 1000000 100 1 70 1 70 = 0 := level_gap_self
    rcases lt_trichotomy (50 * 1 * g) 70 with q | q | q
    · have := level_gap_anti (e := 1000000) (s := 100) (w := 1) (h := 70) (v := 1) (by norm_num) (by norm_num)
        (by norm_num) (by norm_num) (by norm_num) (by linarith) q
      linarith
    · exact seventy_off_grid n i (by rw [← q, hg]; ring)
    · have := level_gap_anti (e := 1000000) (s := 100) (w := 1) (h := 70) (v := 1) (by norm_num) (by norm_num)
        (by norm_num) (by norm_num) (by norm_num) (by norm_num) q
      linarith
  obtain ⟨g, d1, d2, ⟨n, i, hg⟩, d4, hT⟩ := icy_checked C C (le_refl _) heap
  obtain ⟨q3, q4⟩ := abs_le.1 d4
  norm_num at q3 q4
  rw [mul_one] at hT d1
  have hk : Sagger.resag (icyLine 1 1 70) (levelSpan 100 1 (50 * g)) = icyLine 1 1 (50 * g) := rfl
  set s : Sagger := (Sagger.new.setConstraints (some [icyLimit 1 70])).setLineCable (some (icyLine 1 1 70)) with hs
  have i1 : s.updateIndex = .ok { s with index := 0 } true := rfl
  have i2 : s.updateLimit heap = .ok { s with index := 0, lineCable := some (icyLine 1 1 (50 * g)) } true := by
    unfold Sagger.updateLimit
    rw [i1]
    simp only [Run.bind]
    have e1 : s.constraints = some [icyLimit 1 70] := rfl
    have e2 : s.lineCable = some (icyLine 1 1 70) := rfl
    have e3 : validIndex 0 [icyLimit 1 70].length = true := rfl
    have e4 : [icyLimit 1 70][(0:ℤ).toNat]? = some (icyLimit 1 70) := rfl
    rw [if_neg (by decide), e1, e2]
    simp only [e3, e4, if_true]
    have e5 : Sagger.reloadChecked heap (reloaderOf { icyLine 1 1 70 with constraint := icyLimit 1 70 }
      (icyLine 1 1 70).constraint.caseWeather (icyLine 1 1 70).constraint.condition) =
      some (.val (some (levelSpan 100 1 (50 * g)))) := d1
    rw [e5]
    simp only
    rw [hk]
  have hu : s.update heap = .ok ⟨some [icyLimit 1 70], some (icyLine 1 1 (50 * g)), [], 0, false⟩ false := by
    unfold Sagger.update
    rw [if_neg (by show ¬ false = true; decide), i2]
    simp only [Run.bind]
    rw [if_neg (by decide)]
    have e6 : Sagger.reloadChecked heap (reloaderOf (icyLine 1 1 (50 * g)) (icyLimit 1 70).caseWeather
        (icyLimit 1 70).condition) = some (.val none) :=
      icy_unloadable hT (by linarith) (by linarith) heap
    unfold Sagger.updateActual
    have e1 : s.constraints = some [icyLimit 1 70] := rfl
    simp only [e1]
    unfold Sagger.actualLoop
    rw [e6]
    rfl
  obtain ⟨m, hm⟩ := icy_valid (v := 1) (w := 1) (h := 70) (le_refl _) (le_refl _) (by norm_num) heap
  have hq : (icyLimit 1 70).validate.1 = true := by
    simp [icyLimit, CableConstraint.validate, validateWeather, icy_weather (le_refl 1)]
    norm_num
  refine ⟨icyLine 1 1 70, icyLine 1 1 (50 * g), s,
    ⟨some [icyLimit 1 70], some (icyLine 1 1 (50 * g)), [], 0, false⟩, m, rfl, hm, hq, rfl, rfl, ?_, ?_, rfl, ?_⟩
  · have : s.validMembers heap = .val true := by
      have e1 : s.constraints = some [icyLimit 1 70] := rfl
      have e2 : s.lineCable = some (icyLine 1 1 70) := rfl
      unfold Sagger.validMembers
      simp only [e1, e2, hm, List.all_cons, hq, List.all_nil, Bool.and_self]
    unfold Sagger.validate
    rw [this]
    simp only [Run.ofRes, Run.bind, if_true, hu]
  · unfold Sagger.indexControlling Sagger.ask
    rw [hu]
    rfl
  · show 50 * g ≠ 70
    intro h
    exact seventy_off_grid n i (by rw [← h, hg])

/-- **C128**, the part that holds, for every answer, failure or exception: the line cable is the one that was given, or
it differs only in its limit, which is then that of a catenary to which the line cable, strung to one of the design
constraints, reloads under the loading of its own constraint.  What is missing: the first alternative whenever the
sagger reports failure. -/
theorem C128_partial {s t : Sagger} {heap : Heap ℝ} (h : (s.indexControlling heap).state? = some t) :
    t.constraints = s.constraints ∧ (t.lineCable = s.lineCable ∨
      ∃ qs q c k, s.constraints = some qs ∧ q ∈ qs ∧ s.lineCable = some c ∧
        (restrung c q).catenaryReloaded.result = some (.val k) ∧
        t.lineCable = some { c with constraint := { c.constraint with limit :=
          match c.constraint.typeLimit with
          | .horizontalTension => k.tensionHorizontal
          | .catenaryConstant => k.constant
          | .supportTension => k.tensionMax
          | _ => c.constraint.limit } }) := by
  set P : Sagger → Prop := fun t => t.constraints = s.constraints ∧ (t.lineCable = s.lineCable ∨
      ∃ qs q c k, s.constraints = some qs ∧ q ∈ qs ∧ s.lineCable = some c ∧
        (restrung c q).catenaryReloaded.result = some (.val k) ∧ t.lineCable = some (Sagger.resag c k)) with hP
  have hL : Run.All P (s.updateLimit heap) := by
    intro u hu
    by_cases hok : s.updateLimit heap = .ok u true
    · obtain ⟨qs, c, i, q, k, e1, e2, -, -, e5, -, e7, rfl⟩ := Sagger.updateLimit_true hok
      exact ⟨rfl, Or.inr ⟨qs, q, c, k, e1, List.mem_of_getElem? e5, e2,
        (Sagger.reloadChecked_some (Sagger.reloaderOf_sound _ _ _) e7).1, rfl⟩⟩
    · refine ⟨(Sagger.updateLimit_keeps heap s u hu).1.1, Or.inl ?_⟩
      unfold Sagger.updateLimit at hu hok
      have hi := Sagger.updateIndex_keeps s
      generalize s.updateIndex = o at hu hok hi
      match o, hi with
      | .ok v b, hi =>
        have hv := (hi v rfl).2.1
        simp only [Run.bind] at hu hok
        by_cases hb : b = false
        · rw [if_pos hb] at hu; cases hu; exact hv
        rw [if_neg hb] at hu hok
        split at hu
        swap
        · cases hu
        rename_i qs c hq hc
        by_cases hx : validIndex v.index qs.length = true
        swap
        · rw [if_neg hx] at hu; cases hu; exact hv
        rw [if_pos hx] at hu
        split at hu
        swap
        · cases hu; exact hv
        rename_i q hqq
        split at hu
        · rename_i k hk
          cases hu
          refine absurd ?_ hok
          simp only [hq, hc, if_pos hx, hqq, hk]
        · cases hu; exact hv
        · cases hu; exact hv
        · cases hu
        · cases hu
      | .throws v, hi => cases hu; exact (hi _ rfl).2.1
      | .ub, _ => cases hu
      | .nan, _ => cases hu
  have key : Run.All P (s.update heap) := by
    unfold Sagger.update
    split_ifs with hu
    · intro t e; cases e; exact ⟨rfl, Or.inl rfl⟩
    refine Run.All.bind hL (fun _ h => h) fun v b _ hv => ?_
    by_cases hb : b = false
    · rw [if_pos hb]; intro u e; cases e; exact hv
    rw [if_neg hb]
    refine Run.All.bind (P := P) ?_ (fun _ h => h) fun w b _ hw => ?_
    · unfold Sagger.updateActual
      split
      · intro u e
        generalize Sagger.actualLoop _ _ _ = o at e
        match o with
        | .ok ks b => cases e; exact hv
        | .throws ks => cases e; exact hv
        | .ub => cases e
        | .nan => cases e
      · intro u e; cases e
    · intro u e; cases e; exact hw
  unfold Sagger.indexControlling Sagger.ask at h
  generalize s.update heap = o at h key
  have h : o.state? = some t := by
    match o with
    | .ok u true => exact h
    | .ok u false => exact h
    | .throws u => exact h
    | .ub => cases h
    | .nan => cases h
  obtain ⟨h1, h2 | ⟨qs, q, c, k, e1, e2, e3, e4, e5⟩⟩ := key t h
  · exact ⟨h1, Or.inl h2⟩
  · refine ⟨h1, Or.inr ⟨qs, q, c, k, e1, e2, e3, e4, ?_⟩⟩
    rw [e5]
    unfold Sagger.resag Sagger.limitOf
    cases c.constraint.typeLimit <;> rfl
