import Verif.Sagging
import Verif.Catenary3dLemmas

/-! # Lemmas on the saggers -/

set_option linter.unusedSectionVars false

namespace Verif
namespace TransitSagger

theorem scan_spec (angle : ℕ → ℝ) : ∀ (is : List ℕ) (low : ℝ) (j : Option ℕ),
    (scan angle is low j = j ∧ ∀ i ∈ is, low ≤ angle i) ∨
      ∃ r ∈ is, scan angle is low j = some r ∧ angle r < low ∧ ∀ i ∈ is, angle r ≤ angle i := by
  intro is
  induction is with
  | nil => intro low j; left; simp [scan]
  | cons a is ih =>
    intro low j
    unfold scan
    split_ifs with h
    · right
      rcases ih (angle a) (some a) with ⟨h1, h2⟩ | ⟨r, hr, h1, h2, h3⟩
      · refine ⟨a, by simp, h1, h, ?_⟩
        intro i hi
        rcases List.mem_cons.1 hi with rfl | hi
        · exact le_rfl
        · exact h2 i hi
      · refine ⟨r, by simp [hr], h1, h2.trans h, ?_⟩
        intro i hi
        rcases List.mem_cons.1 hi with rfl | hi
        · exact h2.le
        · exact h3 i hi
    · have h := not_lt.1 h
      rcases ih low j with ⟨h1, h2⟩ | ⟨r, hr, h1, h2, h3⟩
      · left
        refine ⟨h1, ?_⟩
        intro i hi
        rcases List.mem_cons.1 hi with rfl | hi
        · exact h
        · exact h2 i hi
      · right
        refine ⟨r, by simp [hr], h1, h2, ?_⟩
        intro i hi
        rcases List.mem_cons.1 hi with rfl | hi
        · exact h2.le.trans h
        · exact h3 i hi

/-- The sight angle from the transit to the cable point at a position. -/
noncomputable def sight (s : TransitSagger) (p : ℝ) : ℝ :=
  angleVertical s.pointTransit (s.catenary.coordinate p)

theorem angle_le (v : V2) : v.angle true ≤ 180 := by
  by_cases hv : v.x = 0 ∧ v.y = 0
  · unfold V2.angle; rw [if_pos hv]; norm_num
  · obtain ⟨h0, h1, -⟩ := v.angle_spec hv
    rw [v.angle_true hv]
    split <;> linarith

theorem sight_lt (s : TransitSagger) (p : ℝ) : s.sight p < 999999 := by
  unfold sight angleVertical
  exact lt_of_le_of_lt (angle_le _) (by norm_num)

/-- One scan: it returns the sample with the lowest angle. -/
theorem positionLow_spec (s : TransitSagger) (back ahead : ℝ) :
    ∃ j ≤ 10, s.positionLowAngle back ahead = .val (back + (j : ℕ) * ((ahead - back) / 10)) ∧
      ∀ i : ℕ, i ≤ 10 → s.sight (back + j * ((ahead - back) / 10)) ≤ s.sight (back + i * ((ahead - back) / 10)) := by
  have e : ((11:ℝ) - 1) = 10 := by norm_num
  rcases scan_spec (fun i : ℕ => s.sight (back + i * ((ahead - back) / 10))) (List.range 11) 999999 none with
    ⟨h1, h2⟩ | ⟨r, hr, h1, h2, h3⟩
  · exact absurd (h2 0 (by simp)) (not_le.2 (sight_lt s _))
  · refine ⟨r, by simpa [Nat.lt_succ_iff] using hr, ?_, fun i hi => h3 i (by simpa [Nat.lt_succ_iff] using hi)⟩
    unfold positionLowAngle
    simp only [e]
    unfold sight at h1
    rw [h1]

/-- The intervals of the search: ten steps of width `t` on a grid that contains 0 and 1. -/
structure Grid (t back ahead : ℝ) (m N : ℕ) : Prop where
  unit : (N : ℝ) * t = 1
  fits : m + 10 ≤ N
  back_eq : back = m * t
  ahead_eq : ahead = (m + 10 : ℕ) * t

theorem Grid.pos {t back ahead : ℝ} {m N : ℕ} (g : Grid t back ahead m N) : 0 < t := by
  have h := g.unit
  have hN : (0:ℝ) < N := by exact_mod_cast (by have := g.fits; omega : 0 < N)
  by_contra hc
  nlinarith [not_lt.1 hc]

theorem Grid.step {t back ahead : ℝ} {m N : ℕ} (g : Grid t back ahead m N) : (ahead - back) / 10 = t := by
  rw [g.ahead_eq, g.back_eq]; push_cast; ring

/-- After a pass the interval around the sample is again such a grid, five or ten times as fine, and
contains the sample. -/
theorem Grid.next {t back ahead : ℝ} {m N : ℕ} (g : Grid t back ahead m N) {j : ℕ} (hj : j ≤ 10) :
    let q := back + j * t
    ∃ t' m' N', Grid t' (if q - t < 0 then 0 else q - t) (if 1 < q + t then 1 else q + t) m' N' ∧
      t' ≤ t / 5 ∧ ∃ i : ℕ, i ≤ 10 ∧ q = (if q - t < 0 then 0 else q - t) + i * t' := by
  intro q
  have ht := g.pos
  have hfit := g.fits
  have hu := g.unit
  have hq : q = (m + j : ℕ) * t := by
    show back + j * t = _
    rw [g.back_eq]; push_cast; ring
  have hmj : m + j ≤ N := by omega
  have key : ∀ a b : ℕ, (a : ℝ) * t ≤ b * t ↔ a ≤ b := by
    intro a b
    rw [mul_le_mul_iff_left₀ ht]; exact_mod_cast Iff.rfl
  by_cases h0 : m + j = 0
  · have hq0 : q = 0 := by rw [hq, h0]; simp
    have hlt : ¬ 1 < q + t := by
      rw [hq0, ← hu, zero_add]
      have := (key 1 N).2 (by omega)
      rw [Nat.cast_one, one_mul] at this
      exact not_lt.2 this
    rw [if_pos (by rw [hq0]; linarith), if_neg hlt]
    refine ⟨t / 10, 0, 10 * N, ⟨by push_cast; linarith, by omega, by simp, ?_⟩, by linarith, 0, by omega, ?_⟩
    · rw [hq0]; push_cast; ring
    · rw [hq0]; simp
  · have h1 : ¬ q - t < 0 := by
      rw [hq]
      have := (key 1 (m + j)).2 (by omega)
      rw [Nat.cast_one, one_mul] at this
      linarith
    rw [if_neg h1]
    by_cases hN : m + j = N
    · have hq1 : q = 1 := by rw [hq, hN, hu]
      rw [if_pos (by rw [hq1]; linarith)]
      refine ⟨t / 10, 10 * (N - 1), 10 * N, ⟨by push_cast; linarith, by omega, ?_, ?_⟩, by linarith, 10,
        by omega, ?_⟩
      · rw [hq1, ← hu]
        have : ((N - 1 : ℕ) : ℝ) = N - 1 := by rw [Nat.cast_sub (by omega)]; simp
        push_cast [this]; ring
      · have : ((10 * (N - 1) + 10 : ℕ) : ℝ) = 10 * N := by
          have : 10 * (N - 1) + 10 = 10 * N := by omega
          rw [this]; push_cast; ring
        rw [this]; linarith
      · push_cast; ring
    · have hlt : ¬ 1 < q + t := by
        rw [hq, ← hu]
        have := (key (m + j + 1) N).2 (by omega)
        push_cast at this ⊢
        linarith
      rw [if_neg hlt]
      refine ⟨t / 5, 5 * (m + j - 1), 5 * N, ⟨by push_cast; linarith, by omega, ?_, ?_⟩, by linarith, 5,
        by omega, ?_⟩
      · have : ((m + j - 1 : ℕ) : ℝ) = (m + j : ℕ) - 1 := by rw [Nat.cast_sub (by omega)]; simp
        rw [hq, Nat.cast_mul, this]; push_cast; ring
      · have : ((5 * (m + j - 1) + 10 : ℕ) : ℝ) = 5 * (m + j : ℕ) + 5 := by
          have : 5 * (m + j - 1) + 10 = 5 * (m + j) + 5 := by omega
          rw [this]; push_cast; ring
        rw [this, hq]; ring
      · push_cast; ring

/-- One pass of the search, unfolded. -/
theorem search_pass (s : TransitSagger) {tol back ahead pos : ℝ} {n : ℕ} (h : 0.00001 < tol) {q : ℝ}
    (hq : s.positionLowAngle back ahead = .val q) :
    s.search (n + 1) tol back ahead pos =
      s.search n ((ahead - back) / 10) (if q - (ahead - back) / 10 < 0 then 0 else q - (ahead - back) / 10)
        (if 1 < q + (ahead - back) / 10 then 1 else q + (ahead - back) / 10) q := by
  have e : ((11:ℝ) - 1) = 10 := by norm_num
  rw [search]
  simp only [if_pos h, hq, e]

theorem search_stop (s : TransitSagger) {tol back ahead pos : ℝ} {n : ℕ} (h : ¬ 0.00001 < tol) :
    s.search n tol back ahead pos = some (.val pos) := by
  rw [search.eq_def]; exact if_neg h

theorem search_out (s : TransitSagger) {tol back ahead pos : ℝ} (h : 0.00001 < tol) :
    s.search 0 tol back ahead pos = none := by
  rw [search.eq_def]; exact if_pos h

/-- The search stops. -/
theorem search_some (s : TransitSagger) : ∀ (n : ℕ) {tol back ahead pos t : ℝ} {m N : ℕ},
    Grid t back ahead m N → tol ≤ 0.00001 * 5 ^ n → t ≤ tol / 5 →
    ∃ p, s.search n tol back ahead pos = some (.val p) := by
  intro n
  induction n with
  | zero =>
    intro tol back ahead pos t m N g h h'
    exact ⟨pos, search_stop s (by simpa using h)⟩
  | succ n ih =>
    intro tol back ahead pos t m N g h h'
    by_cases hc : 0.00001 < tol
    · obtain ⟨j, hj, e, -⟩ := positionLow_spec s back ahead
      rw [search_pass s hc e, g.step]
      obtain ⟨t', m', N', g', h1, -⟩ := g.next hj
      exact ih g' (by rw [pow_succ] at h; linarith) h1
    · exact ⟨pos, search_stop s hc⟩

/-- A point of the search is never given up for one with a higher sight angle. -/
theorem search_le (s : TransitSagger) : ∀ (n : ℕ) {tol back ahead pos t : ℝ} {m N : ℕ} {r : Res ℝ},
    Grid t back ahead m N → (∃ i : ℕ, i ≤ 10 ∧ pos = back + i * t) →
    s.search n tol back ahead pos = some r → ∃ p, r = .val p ∧ 0 ≤ p ∧ p ≤ 1 ∧ s.sight p ≤ s.sight pos := by
  intro n
  induction n with
  | zero =>
    intro tol back ahead pos t m N r g hp h
    by_cases hc : 0.00001 < tol
    · rw [search_out s hc] at h; cases h
    · rw [search_stop s hc] at h
      injection h with h
      have ht := g.pos
      obtain ⟨i, hi, e⟩ := hp
      have e' : pos = (m + i : ℕ) * t := by rw [e, g.back_eq]; push_cast; ring
      refine ⟨pos, h.symm, by rw [e']; positivity, ?_, le_rfl⟩
      rw [e', ← g.unit]
      have : ((m + i : ℕ) : ℝ) ≤ N := by exact_mod_cast (by have := g.fits; omega)
      nlinarith
  | succ n ih =>
    intro tol back ahead pos t m N r g hp h
    by_cases hc : 0.00001 < tol
    · obtain ⟨j, hj, e, hmin⟩ := positionLow_spec s back ahead
      rw [search_pass s hc e, g.step] at h
      obtain ⟨t', m', N', g', h1, h2⟩ := g.next hj
      obtain ⟨p, hr, hp0, hp1, hle⟩ := ih g' h2 h
      obtain ⟨i, hi, e'⟩ := hp
      refine ⟨p, hr, hp0, hp1, hle.trans ?_⟩
      have := hmin i hi
      rw [g.step] at this
      rw [e']; exact this
    · rw [search_stop s hc] at h
      injection h with h
      have ht := g.pos
      obtain ⟨i, hi, e⟩ := hp
      have e' : pos = (m + i : ℕ) * t := by rw [e, g.back_eq]; push_cast; ring
      refine ⟨pos, h.symm, by rw [e']; positivity, ?_, le_rfl⟩
      rw [e', ← g.unit]
      have : ((m + i : ℕ) : ℝ) ≤ N := by exact_mod_cast (by have := g.fits; omega)
      nlinarith

theorem grid_start : Grid (1 / 10) 0 1 0 10 := ⟨by norm_num, le_rfl, by simp, by norm_num⟩

/-- Whatever the number of passes allowed, a search that stops gives the same answer. -/
theorem search_mono (s : TransitSagger) : ∀ (n : ℕ) {tol back ahead pos : ℝ} {r : Res ℝ},
    s.search n tol back ahead pos = some r → s.search (n + 1) tol back ahead pos = some r := by
  intro n
  induction n with
  | zero =>
    intro tol back ahead pos r h
    by_cases hc : 0.00001 < tol
    · rw [search_out s hc] at h; cases h
    · rw [search_stop s hc] at h ⊢; exact h
  | succ n ih =>
    intro tol back ahead pos r h
    by_cases hc : 0.00001 < tol
    · obtain ⟨j, hj, e, -⟩ := positionLow_spec s back ahead
      rw [search_pass s hc e] at h ⊢
      exact ih h
    · rw [search_stop s hc] at h ⊢; exact h

theorem search_mono' (s : TransitSagger) {n m : ℕ} (h : n ≤ m) {tol back ahead pos : ℝ} {r : Res ℝ}
    (hs : s.search n tol back ahead pos = some r) : s.search m tol back ahead pos = some r := by
  induction m, h using Nat.le_induction with
  | base => exact hs
  | succ m _ ih => exact search_mono s m ih

theorem searchResult_eq (s : TransitSagger) {n : ℕ} {r : Res ℝ}
    (h : s.search n ((1 - 0) / 2) 0 1 (-999999) = some r) : s.searchResult = some r := by
  have hex : ∃ n r, s.search n ((1 - 0) / 2) 0 1 (-999999) = some r := ⟨n, r, h⟩
  unfold searchResult
  rw [dif_pos hex]
  have h2 := hex.choose_spec.choose_spec
  have a := search_mono' s (le_max_left n hex.choose) h
  have b := search_mono' s (le_max_right n hex.choose) h2
  rw [a] at b
  exact b.symm

/-- The search as a whole. -/
theorem searchResult_spec (s : TransitSagger) :
    ∃ p, s.searchResult = some (.val p) ∧ 0 ≤ p ∧ p ≤ 1 ∧ ∀ i : ℕ, i ≤ 10 → s.sight p ≤ s.sight (i / 10) := by
  have g := grid_start
  obtain ⟨j, hj, e, hmin⟩ := positionLow_spec s 0 1
  rw [g.step] at e hmin
  have hc : (0.00001 : ℝ) < (1 - 0) / 2 := by norm_num
  obtain ⟨t', m', N', g', h1, h2⟩ := g.next hj
  obtain ⟨p, hp⟩ := search_some s 6 (pos := 0 + (j:ℝ) * (1 / 10)) g' (by norm_num) h1
  have hs : s.search 7 ((1 - 0) / 2) 0 1 (-999999) = some (.val p) := by
    rw [show (7:ℕ) = 6 + 1 from rfl, search_pass s hc (by rw [e]), g.step]; exact hp
  obtain ⟨p', hr, hp0, hp1, hle⟩ := search_le s 6 g' h2 hp
  injection hr with hr
  subst hr
  refine ⟨p, searchResult_eq s hs, hp0, hp1, fun i hi => hle.trans ?_⟩
  have := hmin i hi
  rw [show (0:ℝ) + i * (1 / 10) = i / 10 by ring] at this
  exact this

/-- Sight angles that fall and then rise along the cable (either part may be missing). -/
def Valley (s : TransitSagger) : Prop :=
  ∀ a b c : ℝ, 0 ≤ a → a < b → b < c → c ≤ 1 → s.sight b < max (s.sight a) (s.sight c)

/-- In a valley, the lowest point is within one step of the lowest sample. -/
theorem Valley.near {s : TransitSagger} (V : s.Valley) {t back ahead : ℝ} {m N : ℕ}
    (g : Grid t back ahead m N) {j : ℕ} (hj : j ≤ 10)
    (hmin : ∀ i : ℕ, i ≤ 10 → s.sight (back + j * t) ≤ s.sight (back + i * t)) {x : ℝ}
    (hx : back ≤ x) (hx' : x ≤ ahead) (hlow : ∀ p, 0 ≤ p → p ≤ 1 → s.sight x ≤ s.sight p) :
    |back + j * t - x| ≤ t := by
  have ht := g.pos
  have hb : 0 ≤ back := by rw [g.back_eq]; positivity
  have ha : ahead ≤ 1 := by
    rw [g.ahead_eq, ← g.unit]
    have : ((m + 10 : ℕ) : ℝ) ≤ N := by exact_mod_cast g.fits
    nlinarith
  have ha' : ahead = back + 10 * t := by rw [← g.step]; ring
  have hq0 : back ≤ back + j * t := by have : (0:ℝ) ≤ j * t := by positivity
                                       linarith
  have hq1 : back + j * t ≤ ahead := by
    have : (j : ℝ) ≤ 10 := by exact_mod_cast hj
    rw [ha']; nlinarith
  have hl := hlow (back + j * t) (by linarith) (by linarith)
  rw [abs_le]
  constructor
  · by_contra hc
    have hc : back + j * t + t < x := by linarith [not_le.1 hc]
    have hj' : j + 1 ≤ 10 := by
      by_contra h
      have : j = 10 := by omega
      rw [this] at hc
      push_cast at hc
      linarith
    have h1 := hmin (j + 1) hj'
    have h2 := V (back + j * t) (back + (j + 1 : ℕ) * t) x (by linarith) (by push_cast; linarith)
      (by push_cast; linarith) (by linarith)
    rw [max_eq_left hl] at h2
    linarith
  · by_contra hc
    have hc : x < back + j * t - t := by linarith [not_le.1 hc]
    have hj' : 1 ≤ j := by
      by_contra h
      have : j = 0 := by omega
      rw [this] at hc
      push_cast at hc
      linarith
    have h1 := hmin (j - 1) (by omega)
    have e : ((j - 1 : ℕ) : ℝ) = j - 1 := by rw [Nat.cast_sub hj']; simp
    rw [e] at h1
    have h2 := V x (back + (j - 1) * t) (back + j * t) (by linarith) (by linarith) (by linarith) (by linarith)
    rw [max_eq_right hl] at h2
    linarith

/-- In a valley the search ends within its tolerance of the lowest point. -/
theorem search_near {s : TransitSagger} (V : s.Valley) {x : ℝ} (hx0 : 0 ≤ x) (hx1 : x ≤ 1)
    (hlow : ∀ p, 0 ≤ p → p ≤ 1 → s.sight x ≤ s.sight p) :
    ∀ (n : ℕ) {tol back ahead pos t : ℝ} {m N : ℕ} {p : ℝ}, Grid t back ahead m N → back ≤ x → x ≤ ahead →
    |pos - x| ≤ tol → s.search n tol back ahead pos = some (.val p) → |p - x| ≤ 0.00001 := by
  intro n
  induction n with
  | zero =>
    intro tol back ahead pos t m N p g h1 h2 h3 h
    by_cases hc : 0.00001 < tol
    · rw [search_out s hc] at h; cases h
    · rw [search_stop s hc] at h
      injection h with h; injection h with h
      rw [← h]; linarith [not_lt.1 hc]
  | succ n ih =>
    intro tol back ahead pos t m N p g h1 h2 h3 h
    by_cases hc : 0.00001 < tol
    · obtain ⟨j, hj, e, hmin⟩ := positionLow_spec s back ahead
      rw [search_pass s hc e, g.step] at h
      rw [g.step] at hmin
      obtain ⟨t', m', N', g', -, -⟩ := g.next hj
      have hn := V.near g hj hmin h1 h2 hlow
      obtain ⟨ha, hb⟩ := abs_le.1 hn
      refine ih g' ?_ ?_ hn h
      · split_ifs
        · exact hx0
        · linarith
      · split_ifs
        · exact hx1
        · linarith
    · rw [search_stop s hc] at h
      injection h with h; injection h with h
      rw [← h]; linarith [not_lt.1 hc]

theorem searchResult_near {s : TransitSagger} (V : s.Valley) {x : ℝ} (hx0 : 0 ≤ x) (hx1 : x ≤ 1)
    (hlow : ∀ p, 0 ≤ p → p ≤ 1 → s.sight x ≤ s.sight p) {p : ℝ} (h : s.searchResult = some (.val p)) :
    |p - x| ≤ 0.00001 := by
  have g := grid_start
  obtain ⟨j, hj, e, hmin⟩ := positionLow_spec s 0 1
  rw [g.step] at e hmin
  have hc : (0.00001 : ℝ) < (1 - 0) / 2 := by norm_num
  obtain ⟨t', m', N', g', h1, h2⟩ := g.next hj
  obtain ⟨p', hp⟩ := search_some s 6 (pos := 0 + (j:ℝ) * (1 / 10)) g' (by norm_num) h1
  have hs : s.search 7 ((1 - 0) / 2) 0 1 (-999999) = some (.val p') := by
    rw [show (7:ℕ) = 6 + 1 from rfl, search_pass s hc (by rw [e]), g.step]; exact hp
  rw [searchResult_eq s hs] at h
  injection h with h; injection h with h
  subst h
  have hn := V.near g hj hmin hx0 hx1 hlow
  obtain ⟨ha, hb⟩ := abs_le.1 hn
  refine search_near V hx0 hx1 hlow 6 g' ?_ ?_ hn hp
  · split_ifs
    · exact hx0
    · linarith
  · split_ifs
    · exact hx1
    · linarith

end TransitSagger
end Verif
