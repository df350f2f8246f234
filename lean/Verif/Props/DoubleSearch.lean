import Verif.DoubleSearch
import Verif.DoubleLemmas

/-!
# C187: the sight line search of the transit in double arithmetic
-/

set_option linter.unusedSectionVars false

namespace Verif.Props

open Verif.Double Verif.Double.Transit

namespace SightSearch

/-! ## Rounding near 1 -/

theorem rnd_le_one {y : ℝ} (h : y ≤ 1 + 9 / 10 * u) : rnd y ≤ 1 := by
  have e : rnd (1 + 9 / 10 * u) = 1 := by
    have := rnd_eq (x := 1 + 9 / 10 * u) (2 ^ 52) (-52) (by norm_num)
      (by unfold u; rw [abs_of_pos (by norm_num)]; norm_num) (by unfold u; rw [abs_of_pos (by norm_num)]; norm_num)
      (by unfold u; rw [abs_of_pos (by norm_num)]; norm_num)
    rw [this]; norm_num
  rw [← e]; exact rnd_mono h

theorem one_le_rnd {y : ℝ} (h : 1 - 9 / 20 * u ≤ y) : 1 ≤ rnd y := by
  have e : rnd (1 - 9 / 20 * u) = 1 := by
    have := rnd_eq (x := 1 - 9 / 20 * u) (2 ^ 53) (-53) (by norm_num)
      (by unfold u; rw [abs_of_pos (by norm_num)]; norm_num) (by unfold u; rw [abs_of_pos (by norm_num)]; norm_num)
      (by unfold u; rw [abs_of_neg (by norm_num)]; norm_num)
    rw [this]; norm_num
  rw [← e]; exact rnd_mono h

theorem rnd_tenth : rnd (1 / 10) = 7205759403792794 * 2 ^ (-56 : ℤ) := by
  have := rnd_eq (x := 1 / 10) 7205759403792794 (-56) (by norm_num)
      (by rw [abs_of_pos (by norm_num)]; norm_num) (by rw [abs_of_pos (by norm_num)]; norm_num)
      (by rw [abs_of_neg (by norm_num)]; norm_num)
  rw [this]; norm_num

theorem tiny_normal {x : ℝ} (h : 2 ^ (-30 : ℤ) ≤ x) : (2 : ℝ) ^ (-1022 : ℤ) ≤ |x| :=
  (two_zpow_le (by norm_num)).trans (h.trans (le_abs_self x))

/-- What holds of the ends of the part of the cable that is searched. -/
structure Part (back ahead : ℝ) : Prop where
  back_double : IsDouble back
  ahead_double : IsDouble ahead
  back_nonneg : 0 ≤ back
  ahead_le : ahead ≤ 1
  short : ahead - back ≤ 0.21 ∨ back = 0 ∧ ahead = 1
  long : 0.000007 ≤ ahead - back

variable {back ahead : ℝ} (P : Part back ahead)
include P

theorem Part.width_le : ahead - back ≤ 1 := by have := P.ahead_le; have := P.back_nonneg; linarith

theorem Part.precision_near : |precision back ahead - (ahead - back) / 10| ≤ 2.1 * u * ((ahead - back) / 10) := by
  have hl := P.long
  have h1 := rnd_sub_relative P.ahead_double P.back_double
  rw [abs_of_pos (by linarith : 0 < ahead - back)] at h1
  have hu := u_small
  have hu0 := u_pos
  have h1' := abs_le.mp h1
  have hD : 0.000006 ≤ rnd (ahead - back) := by nlinarith
  have h2 := rnd_relative (x := rnd (ahead - back) / 10)
    (tiny_normal (by have : (2 : ℝ) ^ (-30 : ℤ) ≤ 0.0000006 := by norm_num
                     linarith))
  rw [abs_of_pos (by linarith : 0 < rnd (ahead - back) / 10)] at h2
  have h2' := abs_le.mp h2
  unfold precision
  rw [abs_le]
  constructor <;> nlinarith

theorem Part.precision_pos : 0.00000069 ≤ precision back ahead := by
  have h := abs_le.mp P.precision_near
  have hl := P.long
  have hw := P.width_le
  have hu := u_small
  have hu0 := u_pos
  nlinarith

theorem Part.offset_near {j : ℕ} (hj : j ≤ 10) :
    |rnd (j * precision back ahead) - j * ((ahead - back) / 10)| ≤ 3.3 * u * (j * ((ahead - back) / 10)) := by
  rcases Nat.eq_zero_or_pos j with rfl | h0
  · simp [rnd_zero]
  have hp := P.precision_pos
  have hj1 : (1 : ℝ) ≤ j := by exact_mod_cast h0
  have h1 := abs_le.mp P.precision_near
  have hl := P.long
  have hu := u_small
  have hu0 := u_pos
  have hjp : 0.00000069 ≤ j * precision back ahead := by nlinarith
  have h2 := rnd_relative (x := j * precision back ahead)
    (tiny_normal (le_trans (by norm_num) hjp))
  rw [abs_of_pos (lt_of_lt_of_le (by norm_num) hjp)] at h2
  have h2' := abs_le.mp h2
  generalize hs : (j : ℝ) * ((ahead - back) / 10) = s at *
  have hs0 : 0 ≤ s := by rw [← hs]; have : 0 ≤ (ahead - back) / 10 := by linarith
                         positivity
  have a : j * precision back ahead - s ≤ 2.1 * u * s := by
    rw [← hs]; nlinarith
  have b : -(2.1 * u * s) ≤ j * precision back ahead - s := by
    rw [← hs]; nlinarith
  rw [abs_le]
  constructor <;> nlinarith

theorem Part.place_le {j : ℕ} (hj : j ≤ 10) : (j : ℝ) * ((ahead - back) / 10) ≤ ahead - back := by
  have : (j : ℝ) ≤ 10 := by exact_mod_cast hj
  have := P.long
  nlinarith

theorem Part.position_ge {j : ℕ} : back ≤ position back ahead j := by
  refine le_rnd P.back_double ?_
  have : 0 ≤ rnd (j * precision back ahead) := rnd_nonneg (by have := P.precision_pos; positivity)
  linarith

theorem Part.position_zero : position back ahead 0 = back := by
  unfold position
  rw [Nat.cast_zero, zero_mul, rnd_zero, add_zero, rnd_of_isDouble P.back_double]

theorem Part.position_le {j : ℕ} (hj : j ≤ 10) : position back ahead j ≤ 1 := by
  have h := abs_le.mp (P.offset_near hj)
  have hp := P.place_le hj
  have ha := P.ahead_le
  have hu0 := u_pos
  rcases P.short with hs | ⟨hb, ha1⟩
  · refine rnd_le_one ?_
    nlinarith
  · have e : precision back ahead = rnd (1 / 10) := by
      unfold precision; rw [hb, ha1, sub_zero, rnd_of_isDouble isDouble_one]
    have hj' : (j : ℝ) ≤ 10 := by exact_mod_cast hj
    have : rnd (j * precision back ahead) ≤ 1 := by
      refine rnd_le_one ?_
      rw [e, rnd_tenth]
      unfold u
      norm_num
      linarith
    refine rnd_le isDouble_one ?_
    linarith

theorem Part.position_near {j : ℕ} (hj : j ≤ 10) :
    |position back ahead j - (back + j * ((ahead - back) / 10))| ≤ 5 * u := by
  have h := abs_le.mp (P.offset_near hj)
  have hp := P.place_le hj
  have hb := P.back_nonneg
  have ha := P.ahead_le
  have hw := P.width_le
  have hu0 := u_pos
  have hu := u_small
  have h0 : 0 ≤ rnd (j * precision back ahead) := rnd_nonneg (by have := P.precision_pos; positivity)
  have h2 := abs_le.mp (rnd_add_relative P.back_double (rnd_isDouble (j * precision back ahead)))
  rw [abs_of_nonneg (by linarith)] at h2
  have hs0 : 0 ≤ (j : ℝ) * ((ahead - back) / 10) := by have := P.long; have : 0 ≤ (ahead - back) / 10 := by linarith
                                                       positivity
  unfold position
  generalize (j : ℝ) * ((ahead - back) / 10) = s at *
  generalize rnd (j * precision back ahead) = q at *
  have : s ≤ 1 := by linarith
  have : u * s ≤ u := by nlinarith
  have : u * (back + q) ≤ 1.1 * u := by nlinarith
  rw [abs_le]
  constructor <;> linarith

omit P in
theorem nextBack_eq (p t : ℝ) : nextBack p t = max 0 (rnd (p - t)) := by
  unfold nextBack
  split
  · rw [max_eq_left (by linarith)]
  · rw [max_eq_right (by linarith)]

omit P in
theorem nextAhead_eq (p t : ℝ) : nextAhead p t = min 1 (rnd (p + t)) := by
  unfold nextAhead
  split
  · rw [min_eq_left (by linarith)]
  · rw [min_eq_right (by linarith)]

/-- The ends of the next part. -/
theorem Part.next {j : ℕ} (hj : j ≤ 10) {p t : ℝ} (hp : p = position back ahead j) (ht : t = precision back ahead) :
    IsDouble (nextBack p t) ∧ IsDouble (nextAhead p t) ∧ 0 ≤ nextBack p t ∧ nextAhead p t ≤ 1 ∧
    nextBack p t ≤ max 0 (p - t) + 2 * u ∧ min 1 (p + t) - 2 * u ≤ nextAhead p t ∧
    nextAhead p t - nextBack p t ≤ 2 * t + 3 * u ∧ t - 2 * u ≤ nextAhead p t - nextBack p t := by
  have hp0 : 0 ≤ p := by rw [hp]; exact P.back_nonneg.trans P.position_ge
  have hp1 : p ≤ 1 := by rw [hp]; exact P.position_le hj
  have hpd : IsDouble p := by rw [hp]; exact rnd_isDouble _
  have htd : IsDouble t := by rw [ht]; exact rnd_isDouble _
  have h := abs_le.mp P.precision_near
  have hw := P.width_le
  have hl := P.long
  have hu := u_small
  have hu0 := u_pos
  have ht0 : 0 < t := by have := P.precision_pos; rw [ht]; linarith
  have ht1 : t ≤ 0.101 := by rw [ht]; nlinarith
  have h1 := rnd_sub_relative hpd htd
  have h2 := rnd_add_relative hpd htd
  have b1 : |p - t| ≤ 1 := by rw [abs_le]; constructor <;> linarith
  have b2 : |p + t| ≤ 1.101 := by rw [abs_of_nonneg (by linarith)]; linarith
  have h1' := abs_le.mp (h1.trans (mul_le_mul_of_nonneg_left b1 hu0.le))
  have h2' := abs_le.mp (h2.trans (mul_le_mul_of_nonneg_left b2 hu0.le))
  have m1 : p ≤ rnd (p + t) := le_rnd hpd (by linarith)
  have m2 : rnd (p - t) ≤ p := rnd_le hpd (by linarith)
  have m3 : t ≤ rnd (p + t) := le_rnd htd (by linarith)
  rw [nextBack_eq, nextAhead_eq]
  refine ⟨?_, ?_, le_max_left _ _, min_le_left _ _, ?_, ?_, ?_, ?_⟩
  · rcases max_choice 0 (rnd (p - t)) with e | e <;> rw [e]
    exacts [isDouble_zero, rnd_isDouble _]
  · rcases min_choice 1 (rnd (p + t)) with e | e <;> rw [e]
    exacts [isDouble_one, rnd_isDouble _]
  · rcases max_cases 0 (rnd (p - t)) with ⟨e, _⟩ | ⟨e, _⟩ <;> rw [e]
    · have := le_max_left 0 (p - t); linarith
    · have := le_max_right 0 (p - t); linarith
  · rcases min_cases 1 (rnd (p + t)) with ⟨e, _⟩ | ⟨e, _⟩ <;> rw [e]
    · have := min_le_left 1 (p + t); linarith
    · have := min_le_right 1 (p + t); linarith
  · have a := min_le_right 1 (rnd (p + t))
    have b := le_max_right 0 (rnd (p - t))
    linarith
  · rcases max_cases 0 (rnd (p - t)) with ⟨e, _⟩ | ⟨e, _⟩ <;> rcases min_cases 1 (rnd (p + t)) with ⟨f, _⟩ | ⟨f, _⟩ <;>
      rw [e, f] <;> linarith

end SightSearch

namespace SightSearch

variable {angle : ℝ → Option ℝ}

/-- The scan with the lowest angle so far. -/
theorem scan_range (f : ℕ → Option ℝ) : ∀ (is : List ℕ) (low : ℝ) (j : Option ℕ),
    (scan f is low j = j ∧ ∀ i ∈ is, ∀ b, f i = some b → low ≤ b) ∨
    ∃ xs k ys a, is = xs ++ k :: ys ∧ scan f is low j = some k ∧ f k = some a ∧ a < low ∧
      (∀ i ∈ xs, ∀ b, f i = some b → a < b) ∧ ∀ i ∈ is, ∀ b, f i = some b → a ≤ b
  | [], low, j => .inl ⟨rfl, by simp⟩
  | i :: is, low, j => by
    unfold scan
    cases hf : f i with
    | none =>
      dsimp only
      rcases scan_range f is low j with ⟨h1, h2⟩ | ⟨xs, k, ys, a, h1, h2, h3, h4, h5, h6⟩
      · refine .inl ⟨h1, ?_⟩
        intro m hm b hb
        rcases List.mem_cons.mp hm with rfl | hm
        · rw [hf] at hb; cases hb
        · exact h2 m hm b hb
      · refine .inr ⟨i :: xs, k, ys, a, by rw [h1]; rfl, h2, h3, h4, ?_, ?_⟩
        · intro m hm b hb
          rcases List.mem_cons.mp hm with rfl | hm
          · rw [hf] at hb; cases hb
          · exact h5 m hm b hb
        · intro m hm b hb
          rcases List.mem_cons.mp hm with rfl | hm
          · rw [hf] at hb; cases hb
          · exact h6 m hm b hb
    | some c =>
      dsimp only
      split
      · next hc =>
        right
        rcases scan_range f is c (some i) with ⟨h1, h2⟩ | ⟨xs, k, ys, a, h1, h2, h3, h4, h5, h6⟩
        · refine ⟨[], i, is, c, rfl, h1, hf, hc, by simp, ?_⟩
          intro m hm b hb
          rcases List.mem_cons.mp hm with rfl | hm
          · rw [hf] at hb; cases hb; exact le_rfl
          · exact h2 m hm b hb
        · refine ⟨i :: xs, k, ys, a, by rw [h1]; rfl, h2, h3, h4.trans hc, ?_, ?_⟩
          · intro m hm b hb
            rcases List.mem_cons.mp hm with rfl | hm
            · rw [hf] at hb; cases hb; exact h4
            · exact h5 m hm b hb
          · intro m hm b hb
            rcases List.mem_cons.mp hm with rfl | hm
            · rw [hf] at hb; cases hb; exact h4.le
            · exact h6 m hm b hb
      · next hc =>
        rcases scan_range f is low j with ⟨h1, h2⟩ | ⟨xs, k, ys, a, h1, h2, h3, h4, h5, h6⟩
        · refine .inl ⟨h1, ?_⟩
          intro m hm b hb
          rcases List.mem_cons.mp hm with rfl | hm
          · rw [hf] at hb; cases hb; exact not_lt.mp hc
          · exact h2 m hm b hb
        · refine .inr ⟨i :: xs, k, ys, a, by rw [h1]; rfl, h2, h3, h4, ?_, ?_⟩
          · intro m hm b hb
            rcases List.mem_cons.mp hm with rfl | hm
            · rw [hf] at hb; cases hb; linarith
            · exact h5 m hm b hb
          · intro m hm b hb
            rcases List.mem_cons.mp hm with rfl | hm
            · rw [hf] at hb; cases hb; linarith
            · exact h6 m hm b hb

/-- One pass. -/
theorem pass (angle : ℝ → Option ℝ) (back ahead : ℝ) :
    (positionLowAngle angle back ahead = .ub ∧
      ∀ i ≤ 10, ∀ b, angle (position back ahead i) = some b → 999999 ≤ b) ∨
    ∃ j ≤ 10, ∃ a, positionLowAngle angle back ahead = .val (position back ahead j) ∧
      angle (position back ahead j) = some a ∧ a < 999999 ∧
      (∀ i ≤ 10, ∀ b, angle (position back ahead i) = some b → a ≤ b) ∧
      ∀ i < j, ∀ b, angle (position back ahead i) = some b → a < b := by
  unfold positionLowAngle
  have e : List.range 11 = [0, 1, 2, 3, 4, 5, 6, 7, 8, 9, 10] := rfl
  rcases scan_range (fun i => angle (position back ahead i)) (List.range 11) 999999 none with
    ⟨h1, h2⟩ | ⟨xs, k, ys, a, h1, h2, h3, h4, h5, h6⟩
  · left
    rw [h1]
    exact ⟨rfl, fun i hi b hb => h2 i (List.mem_range.mpr (by omega)) b hb⟩
  · right
    rw [h2]
    have hk : k ∈ List.range 11 := by rw [h1]; simp
    refine ⟨k, by have := List.mem_range.mp hk; omega, a, rfl, h3, h4,
      fun i hi b hb => h6 i (List.mem_range.mpr (by omega)) b hb, ?_⟩
    intro i hi b hb
    refine h5 i ?_ b hb
    have hs : (List.range 11).Pairwise (· < ·) := List.pairwise_lt_range
    have hi' : i ∈ List.range 11 := List.mem_range.mpr (by have := List.mem_range.mp hk; omega)
    rw [h1] at hs hi'
    rcases List.mem_append.mp hi' with h | h
    · exact h
    · exfalso
      have := (List.pairwise_append.mp hs).2.1
      rcases List.mem_cons.mp h with rfl | h
      · omega
      · have := (List.pairwise_cons.mp this).1 i h; omega

/-- What holds before pass `k`. -/
structure St (k : ℕ) (tol back ahead : ℝ) : Prop where
  back_double : IsDouble back
  ahead_double : IsDouble ahead
  back_nonneg : 0 ≤ back
  ahead_le : ahead ≤ 1
  start : k = 0 → back = 0 ∧ ahead = 1
  width : ahead - back ≤ 0.2 ^ k + 5 * u
  tol_le : tol ≤ 0.2 ^ k / 2 + 5 * u
  le_width : tol - 2 * u ≤ ahead - back

theorem threshold : 0.0000099999 ≤ rnd 0.00001 ∧ rnd 0.00001 ≤ 0.0000100001 := by
  have h := rnd_relative (x := 0.00001) (tiny_normal (by norm_num))
  rw [abs_of_pos (a := (0.00001 : ℝ)) (by norm_num)] at h
  have h' := abs_le.mp h
  have hu := u_small
  constructor <;> linarith

theorem St.part {k : ℕ} {tol back ahead : ℝ} (S : St k tol back ahead) (h : rnd 0.00001 < tol) : Part back ahead := by
  refine ⟨S.back_double, S.ahead_double, S.back_nonneg, S.ahead_le, ?_, ?_⟩
  · rcases Nat.eq_zero_or_pos k with h0 | h0
    · exact .inr (S.start h0)
    · left
      have h1 := S.width
      have h2 : (0.2 : ℝ) ^ k ≤ 0.2 ^ 1 := pow_le_pow_of_le_one (by norm_num) (by norm_num) h0
      have := u_small
      linarith
  · have := S.le_width
    have := threshold
    have := u_small
    linarith

theorem St.step {k : ℕ} {tol back ahead : ℝ} (S : St k tol back ahead) (h : rnd 0.00001 < tol) {j : ℕ} (hj : j ≤ 10)
    {p t : ℝ} (hp : p = position back ahead j) (ht : t = precision back ahead) :
    St (k + 1) t (nextBack p t) (nextAhead p t) := by
  have P := S.part h
  obtain ⟨n1, n2, n3, n4, -, -, n7, n8⟩ := P.next hj hp ht
  have hn := abs_le.mp P.precision_near
  rw [← ht] at hn
  have hw := S.width
  have hw1 := P.width_le
  have hl := P.long
  have hu0 := u_pos
  have hu := u_small
  have e : t ≤ (ahead - back) / 10 + 0.21 * u := by nlinarith
  have hk : (0.2 : ℝ) ^ (k + 1) = 0.2 ^ k * 0.2 := pow_succ _ _
  refine ⟨n1, n2, n3, n4, by omega, ?_, ?_, n8⟩
  · rw [hk]; linarith
  · rw [hk]; linarith

theorem St.stop {tol back ahead : ℝ} {k : ℕ} (hk : 7 ≤ k) (S : St k tol back ahead) : tol ≤ rnd 0.00001 := by
  have h := S.tol_le
  have h2 : (0.2 : ℝ) ^ k ≤ 0.2 ^ 7 := pow_le_pow_of_le_one (by norm_num) (by norm_num) hk
  have := threshold
  have := u_small
  have e : (0.2 : ℝ) ^ 7 = 0.0000128 := by norm_num
  linarith

theorem St.first : St 0 (rnd (rnd (1 - 0) / 2)) 0 1 := by
  have hu0 := u_pos
  have e : rnd (rnd (1 - 0) / 2) = 1 / 2 := by
    rw [sub_zero, rnd_of_isDouble isDouble_one]
    exact rnd_of_isDouble ⟨1, -1, by norm_num, by norm_num, by norm_num⟩
  rw [e]
  refine ⟨isDouble_zero, isDouble_one, le_rfl, le_rfl, fun _ => ⟨rfl, rfl⟩, ?_, ?_, ?_⟩ <;> norm_num <;> linarith

/-- Induction over the passes. -/
theorem search_induct (angle : ℝ → Option ℝ) (J : ℝ → ℝ → ℝ → ℝ → Prop)
    (step : ∀ tol back ahead pos j a, Part back ahead → J tol back ahead pos → j ≤ 10 →
      angle (position back ahead j) = some a →
      (∀ i ≤ 10, ∀ b, angle (position back ahead i) = some b → a ≤ b) →
      (∀ i < j, ∀ b, angle (position back ahead i) = some b → a < b) →
      J (precision back ahead) (nextBack (position back ahead j) (precision back ahead))
        (nextAhead (position back ahead j) (precision back ahead)) (position back ahead j)) :
    ∀ n k tol back ahead pos, 7 ≤ k + n → St k tol back ahead → J tol back ahead pos →
      (search angle n tol back ahead pos = some .ub ∧
        ∃ p, IsDouble p ∧ 0 ≤ p ∧ p ≤ 1 ∧ ∀ b, angle p = some b → 999999 ≤ b) ∨
      ∃ tol' back' ahead' p, search angle n tol back ahead pos = some (.val p) ∧ tol' ≤ rnd 0.00001 ∧
        J tol' back' ahead' p := by
  intro n
  induction n with
  | zero =>
    intro k tol back ahead pos hk S hJ
    have h := S.stop hk
    refine .inr ⟨tol, back, ahead, pos, ?_, h, hJ⟩
    unfold search
    rw [if_neg (not_lt.mpr h)]
  | succ n ih =>
    intro k tol back ahead pos hk S hJ
    by_cases h : rnd 0.00001 < tol
    · have P := S.part h
      rcases pass angle back ahead with ⟨h1, h2⟩ | ⟨j, hj, a, h1, h2, h3, h4, h5⟩
      · left
        refine ⟨?_, position back ahead 0, rnd_isDouble _, P.back_nonneg.trans P.position_ge, P.position_le (by omega),
          fun b hb => h2 0 (by omega) b hb⟩
        unfold search
        rw [if_pos h, h1]
      · have e : search angle (n + 1) tol back ahead pos = search angle n (precision back ahead)
            (nextBack (position back ahead j) (precision back ahead))
            (nextAhead (position back ahead j) (precision back ahead)) (position back ahead j) := by
          conv_lhs => unfold search
          rw [if_pos h, h1]
        rw [e]
        exact ih (k + 1) _ _ _ _ (by omega) (S.step h hj rfl rfl) (step _ _ _ _ _ _ P hJ hj h2 h4 h5)
    · refine .inr ⟨tol, back, ahead, pos, ?_, not_lt.mp h, hJ⟩
      unfold search
      rw [if_neg h]

theorem search_more (angle : ℝ → Option ℝ) : ∀ (n m : ℕ) (tol back ahead pos : ℝ) (r : Res ℝ), n ≤ m →
    search angle n tol back ahead pos = some r → search angle m tol back ahead pos = some r := by
  intro n
  induction n with
  | zero =>
    intro m tol back ahead pos r _ h
    unfold search at h ⊢
    split at h
    · cases h
    · rw [if_neg (by assumption)]; exact h
  | succ n ih =>
    intro m tol back ahead pos r hm h
    obtain ⟨m, rfl⟩ : ∃ l, m = l + 1 := ⟨m - 1, by omega⟩
    unfold search at h ⊢
    split at h
    · next hc =>
      rw [if_pos hc]
      dsimp only at h ⊢
      cases hp : positionLowAngle angle back ahead with
      | val p => rw [hp] at h; exact ih m _ _ _ _ _ (by omega) h
      | throws => rw [hp] at h; exact h
      | ub => rw [hp] at h; exact h
    · rw [if_neg (by assumption)]; exact h

theorem start_above : rnd 0.00001 < rnd (rnd (1 - 0) / 2) := by
  have e : rnd (rnd (1 - 0) / 2) = 1 / 2 := by
    rw [sub_zero, rnd_of_isDouble isDouble_one]
    exact rnd_of_isDouble ⟨1, -1, by norm_num, by norm_num, by norm_num⟩
  rw [e]
  have := threshold
  linarith

/-- Every position is within the cable. -/
theorem searchFrom_spec (angle : ℝ → Option ℝ) :
    (searchFrom angle 7 = some .ub ∧ ∃ p, IsDouble p ∧ 0 ≤ p ∧ p ≤ 1 ∧ ∀ b, angle p = some b → 999999 ≤ b) ∨
    ∃ p, searchFrom angle 7 = some (.val p) ∧ IsDouble p ∧ 0 ≤ p ∧ p ≤ 1 ∧ ∃ a, angle p = some a := by
  rcases search_induct angle (fun tol _ _ pos => (IsDouble pos ∧ 0 ≤ pos ∧ pos ≤ 1 ∧ ∃ a, angle pos = some a) ∨
      rnd 0.00001 < tol)
    (fun tol back ahead pos j a P _ hj h2 _ _ => .inl ⟨rnd_isDouble _, P.back_nonneg.trans P.position_ge,
      P.position_le hj, a, h2⟩) 7 0 _ 0 1 (-999999) (by omega) St.first (.inr start_above) with h | ⟨t, b, a, p, h1, h2, h3⟩
  · exact .inl h
  · right
    rcases h3 with h3 | h3
    · exact ⟨p, h1, h3⟩
    · exact absurd h3 (not_lt.mpr h2)

end SightSearch

open SightSearch

/-- **C187** (termination): whatever the angles are, the search ends, after at most seven passes. -/
theorem C187_terminates (angle : ℝ → Option ℝ) {n : ℕ} (hn : 7 ≤ n) :
    ∃ r, searchFrom angle 7 = some r ∧ searchFrom angle n = some r := by
  rcases searchFrom_spec angle with ⟨h, -⟩ | ⟨p, h, -⟩
  · exact ⟨_, h, search_more angle 7 n _ _ _ _ _ hn h⟩
  · exact ⟨_, h, search_more angle 7 n _ _ _ _ _ hn h⟩

/-- **C187** (position): a position that is found is on the cable, from 0 to 1, and its angle is a number; and if every
angle from a position on the cable is a number below 999999, a position is found. -/
theorem C187_position (angle : ℝ → Option ℝ) :
    (∀ p, searchFrom angle 7 = some (.val p) → IsDouble p ∧ 0 ≤ p ∧ p ≤ 1 ∧ ∃ a, angle p = some a) ∧
    ((∀ p, IsDouble p → 0 ≤ p → p ≤ 1 → ∃ a, angle p = some a ∧ a < 999999) →
      ∃ p, searchFrom angle 7 = some (.val p)) := by
  constructor
  · intro p hp
    rcases searchFrom_spec angle with ⟨h, -⟩ | ⟨q, h, h'⟩
    · rw [h] at hp; cases hp
    · rw [h] at hp; cases hp; exact h'
  · intro hn
    rcases searchFrom_spec angle with ⟨h, p, p1, p2, p3, p4⟩ | ⟨q, h, -⟩
    · obtain ⟨a, ha, hlt⟩ := hn p p1 p2 p3
      exact absurd (p4 a ha) (not_le.mpr hlt)
    · exact ⟨q, h⟩

/-- **C187** (NaN): if no angle is a number, as happens with coordinates that are not, the search reads outside of the
list of positions, in its first pass. -/
theorem C187_nan {n : ℕ} (hn : 1 ≤ n) : updatePoint (fun _ => none) n = some .ub := by
  obtain ⟨m, rfl⟩ : ∃ l, n = l + 1 := ⟨n - 1, by omega⟩
  have h : searchFrom (fun _ => none) (m + 1) = some .ub := by
    unfold searchFrom search
    rw [if_pos start_above]
    have : positionLowAngle (fun _ => none) 0 1 = .ub := by
      rcases pass (fun _ => none) 0 1 with ⟨h, -⟩ | ⟨j, -, a, -, h, -⟩
      · exact h
      · cases h
    rw [this]
  unfold updatePoint
  rw [h]

/-- **C187** (ends): if the lowest angle is that to the end ahead, or to the end back, then exactly that position is
found, so that the result is refused, in spite of rounding. -/
theorem C187_ends (angle : ℝ → Option ℝ) (hn : ∀ p, IsDouble p → 0 ≤ p → p ≤ 1 → ∃ a, angle p = some a ∧ a < 999999) :
    ((∀ a, angle 1 = some a → ∀ p, IsDouble p → 0 ≤ p → p < 1 → ∀ b, angle p = some b → a < b) →
      searchFrom angle 7 = some (.val 1) ∧ updatePoint angle 7 = some (.val (false, -999999))) ∧
    ((∀ a, angle 0 = some a → ∀ p, IsDouble p → 0 < p → p ≤ 1 → ∀ b, angle p = some b → a ≤ b) →
      searchFrom angle 7 = some (.val 0) ∧ updatePoint angle 7 = some (.val (false, -999999))) := by
  have hu0 := u_pos
  have hu := u_small
  have found := (C187_position angle).2 hn
  constructor
  · intro low
    obtain ⟨a1, ha1, -⟩ := hn 1 isDouble_one (by norm_num) le_rfl
    have key : searchFrom angle 7 = some (.val 1) := by
      refine (search_induct angle (fun tol back ahead pos => ahead = 1 ∧ (back = 0 ∨ ahead - back ≤ 0.1011) ∧
          (pos = 1 ∨ rnd 0.00001 < tol)) ?_ 7 0 _ 0 1 (-999999) (by omega) St.first
          ⟨rfl, .inl rfl, .inr start_above⟩).elim ?_ ?_
      · rintro tol back ahead pos j a P ⟨hah, hb, -⟩ hj h2 h4 -
        have hl := P.long
        have ten : position back ahead 10 = 1 := by
          refine le_antisymm (P.position_le le_rfl) ?_
          rcases hb with hb | hb
          · have e : precision back ahead = rnd (1 / 10) := by
              unfold precision; rw [hb, hah, sub_zero, rnd_of_isDouble isDouble_one]
            have h : 1 ≤ rnd ((10 : ℕ) * precision back ahead) := by
              refine one_le_rnd ?_
              rw [e, rnd_tenth]
              unfold u
              norm_num
            refine le_rnd isDouble_one ?_
            linarith
          · refine one_le_rnd ?_
            have h := abs_le.mp (P.offset_near (le_refl 10))
            have e : ((10 : ℕ) : ℝ) * ((ahead - back) / 10) = ahead - back := by push_cast; ring
            rw [e] at h
            nlinarith
        have hj10 : j = 10 := by
          by_contra hne
          have hj9 : (j : ℝ) ≤ 9 := by exact_mod_cast (by omega : j ≤ 9)
          have hnear := abs_le.mp (P.position_near hj)
          have hlt : position back ahead j < 1 := by nlinarith
          have := low a1 ha1 _ (rnd_isDouble _) (P.back_nonneg.trans P.position_ge) hlt a h2
          have := h4 10 le_rfl a1 (by rw [ten]; exact ha1)
          linarith
        rw [hj10, ten]
        have ht0 := P.precision_pos
        have hn := abs_le.mp P.precision_near
        have hw := P.width_le
        have ht : precision back ahead ≤ 0.101 := by nlinarith
        have e1 : nextAhead 1 (precision back ahead) = 1 := by
          rw [nextAhead_eq, min_eq_left]
          exact le_rnd isDouble_one (by linarith)
        refine ⟨e1, .inr ?_, .inl rfl⟩
        rw [e1, nextBack_eq]
        have r := abs_le.mp (rnd_sub_relative isDouble_one (rnd_isDouble (rnd (ahead - back) / 10)))
        change -(u * |1 - precision back ahead|) ≤ rnd (1 - precision back ahead) - (1 - precision back ahead) ∧ _ at r
        have r1 := r.1
        rw [abs_of_pos (by linarith)] at r1
        have := le_max_right 0 (rnd (1 - precision back ahead))
        nlinarith
      · rintro ⟨h, -⟩
        obtain ⟨p, hp⟩ := found
        unfold searchFrom at hp
        rw [h] at hp; cases hp
      · rintro ⟨t, b, a, p, h1, h2, -, -, h3⟩
        rcases h3 with h3 | h3
        · rw [← h3]; exact h1
        · exact absurd h3 (not_lt.mpr h2)
    refine ⟨key, ?_⟩
    unfold updatePoint
    rw [key]
    exact if_pos (.inr rfl)
  · intro low
    obtain ⟨a0, ha0, -⟩ := hn 0 isDouble_zero le_rfl (by norm_num)
    have key : searchFrom angle 7 = some (.val 0) := by
      refine (search_induct angle (fun tol back ahead pos => back = 0 ∧ (pos = 0 ∨ rnd 0.00001 < tol)) ?_ 7 0 _ 0 1
          (-999999) (by omega) St.first ⟨rfl, .inr start_above⟩).elim ?_ ?_
      · rintro tol back ahead pos j a P ⟨hb, -⟩ hj h2 - h5
        have zero : position back ahead 0 = 0 := by rw [P.position_zero, hb]
        have hj0 : j = 0 := by
          by_contra hne
          have := h5 0 (by omega) a0 (by rw [zero]; exact ha0)
          rcases (P.back_nonneg.trans (P.position_ge (j := j))).eq_or_lt with h | h
          · rw [← h, ha0] at h2; cases h2; linarith
          · have := low a0 ha0 _ (rnd_isDouble _) h (P.position_le hj) a h2
            linarith
        rw [hj0, zero]
        have ht0 := P.precision_pos
        refine ⟨?_, .inl rfl⟩
        rw [nextBack_eq, max_eq_left]
        exact rnd_nonpos (by linarith)
      · rintro ⟨h, -⟩
        obtain ⟨p, hp⟩ := found
        unfold searchFrom at hp
        rw [h] at hp; cases hp
      · rintro ⟨t, b, a, p, h1, h2, -, h3⟩
        rcases h3 with h3 | h3
        · rw [← h3]; exact h1
        · exact absurd h3 (not_lt.mpr h2)
    refine ⟨key, ?_⟩
    unfold updatePoint
    rw [key]
    exact if_pos (.inl rfl)

/-- **C187** (accuracy): if the angle falls towards a position `q` of the cable and rises from there, at least over
distances of a half millionth of the cable, then the position found is within a hundred-thousandth of `q`; and if `q` is
further than that from both ends, the position is taken. -/
theorem C187_accuracy (angle : ℝ → Option ℝ) (f : ℝ → ℝ)
    (hf : ∀ p, IsDouble p → 0 ≤ p → p ≤ 1 → angle p = some (f p) ∧ f p < 999999) {q : ℝ} (hq0 : 0 ≤ q) (hq1 : q ≤ 1)
    (falls : ∀ x y, IsDouble x → IsDouble y → 0 ≤ x → x + 0.0000005 ≤ y → y ≤ q → f y < f x)
    (rises : ∀ x y, IsDouble x → IsDouble y → q ≤ x → x + 0.0000005 ≤ y → y ≤ 1 → f x < f y) :
    ∃ p, searchFrom angle 7 = some (.val p) ∧ |p - q| ≤ 0.0000100002 ∧
      (0.0000100002 < q → q < 1 - 0.0000100002 → updatePoint angle 7 = some (.val (true, p))) := by
  have hu0 := u_pos
  have hu := u_small
  have found := (C187_position angle).2 (fun p h1 h2 h3 => ⟨f p, hf p h1 h2 h3⟩)
  have key : ∃ p, searchFrom angle 7 = some (.val p) ∧ |p - q| ≤ 0.0000100002 := by
    refine (search_induct angle (fun tol back ahead pos => back - 20 * u ≤ q ∧ q ≤ ahead + 20 * u ∧
        (|pos - q| ≤ tol + 12 * u ∨ rnd 0.00001 < tol)) ?_ 7 0 _ 0 1 (-999999) (by omega) St.first
        ⟨by linarith, by linarith, .inr start_above⟩).elim ?_ ?_
    · rintro tol back ahead pos j a P ⟨hb, hah, -⟩ hj h2 h4 -
      have dbl : ∀ i, IsDouble (position back ahead i) := fun i => rnd_isDouble _
      have ge : ∀ i, 0 ≤ position back ahead i := fun i => P.back_nonneg.trans P.position_ge
      have hl := P.long
      have hw := P.width_le
      have hnear := abs_le.mp (P.position_near hj)
      have hpr := abs_le.mp P.precision_near
      have ht0 := P.precision_pos
      have hpr1 : |precision back ahead - (ahead - back) / 10| ≤ 0.21 * u := by
        rw [abs_le]; constructor <;> nlinarith
      have hpr2 := abs_le.mp hpr1
      have ha : a = f (position back ahead j) := by
        have := (hf _ (dbl j) (ge j) (P.position_le hj)).1
        rw [h2] at this; exact Option.some.inj this
      have le : ∀ i ≤ 10, f (position back ahead j) ≤ f (position back ahead i) := by
        intro i hi
        rw [← ha]
        exact h4 i hi _ (hf _ (dbl i) (ge i) (P.position_le hi)).1
      have up : q ≤ position back ahead j + precision back ahead + 11 * u := by
        rcases hj.eq_or_lt with h10 | h10
        · subst h10
          push_cast at hnear
          nlinarith
        · have hn1 := abs_le.mp (P.position_near (j := j + 1) h10)
          push_cast at hn1
          have hlt : q < position back ahead (j + 1) := by
            by_contra hc
            have := falls _ _ (dbl j) (dbl (j + 1)) (ge j) (by nlinarith) (not_lt.mp hc)
            have := le (j + 1) h10
            linarith
          nlinarith
      have down : position back ahead j - precision back ahead - 11 * u ≤ q := by
        rcases Nat.eq_zero_or_pos j with h0 | h0
        · subst h0
          push_cast at hnear
          nlinarith
        · obtain ⟨i, rfl⟩ : ∃ l, j = l + 1 := ⟨j - 1, by omega⟩
          have hn1 := abs_le.mp (P.position_near (j := i) (by omega))
          push_cast at hnear
          have hlt : position back ahead i < q := by
            by_contra hc
            have := rises _ _ (dbl i) (dbl (i + 1)) (not_lt.mp hc) (by nlinarith) (P.position_le hj)
            have := le i (by omega)
            linarith
          nlinarith
      obtain ⟨-, -, -, -, n5, n6, -, -⟩ := P.next hj rfl rfl
      refine ⟨?_, ?_, .inl ?_⟩
      · rcases max_choice 0 (position back ahead j - precision back ahead) with e | e <;> rw [e] at n5 <;> linarith
      · rcases min_choice 1 (position back ahead j + precision back ahead) with e | e <;> rw [e] at n6 <;> linarith
      · rw [abs_le]; constructor <;> linarith
    · rintro ⟨h, -⟩
      obtain ⟨p, hp⟩ := found
      unfold searchFrom at hp
      rw [h] at hp; cases hp
    · rintro ⟨t, b, a, p, h1, h2, -, -, h3⟩
      refine ⟨p, h1, ?_⟩
      have := threshold
      rcases h3 with h3 | h3
      · linarith
      · exact absurd h3 (not_lt.mpr h2)
  obtain ⟨p, h1, h2⟩ := key
  refine ⟨p, h1, h2, ?_⟩
  intro g0 g1
  have h2' := abs_le.mp h2
  unfold updatePoint
  rw [h1]
  refine if_neg ?_
  rintro (h | h)
  · rw [h] at h2'; linarith
  · rw [h] at h2'; linarith

/-- Angles that fall towards the middle of the cable and rise from there. -/
example : ∃ p, searchFrom (fun p => some ((p - 1 / 2) ^ 2)) 7 = some (.val p) ∧ |p - 1 / 2| ≤ 0.0000100002 := by
  obtain ⟨p, h1, h2, -⟩ := C187_accuracy (fun p => some ((p - 1 / 2) ^ 2)) (fun p => (p - 1 / 2) ^ 2)
    (fun p _ h0 h1 => ⟨rfl, by nlinarith⟩) (q := 1 / 2) (by norm_num) (by norm_num)
    (fun x y _ _ h0 h1 h2 => by nlinarith) (fun x y _ _ h0 h1 h2 => by nlinarith)
  exact ⟨p, h1, h2⟩

/-- Angles that fall towards the end ahead. -/
example : updatePoint (fun p => some (-p)) 7 = some (.val (false, -999999)) :=
  ((C187_ends (fun p => some (-p)) (fun p _ h0 _ => ⟨-p, rfl, by linarith⟩)).1
    (fun a ha p _ _ h1 b hb => by cases ha; cases hb; linarith)).2

end Verif.Props
