import Verif.Props.DoubleLine
import Verif.AlignmentLemmas

/-!
# C189: the coordinates of stations in double arithmetic
-/

set_option linter.unusedSectionVars false

namespace Verif.Props

open Verif.Double Real

namespace Traverse

variable {L : SunLibrary} {al : ℕ → AlignmentPoint ℝ} {origin : P3} {n : ℕ}

/-- How far the alignment is from the origin of coordinates at point `k`, when compared with the segment before it. -/
noncomputable def shortness (al : ℕ → AlignmentPoint ℝ) (origin : P3) (k : ℕ) : ℝ :=
  if k = 0 then 0
  else (√(origin.x ^ 2 + origin.y ^ 2) + ((al k).station - (al 0).station)) / ((al k).station - (al (k - 1)).station)

theorem Regular.step_lt (h : Regular al origin n) {k : ℕ} (hk : k < n) : (al k).station < (al (k + 1)).station := by
  have := (two_zpow_pos (-100)).trans_le (h.near k hk)
  linarith

theorem Regular.lt (h : Regular al origin n) : ∀ {j k : ℕ}, j < k → k ≤ n → (al j).station < (al k).station := by
  intro j k hjk
  induction k with
  | zero => omega
  | succ k ih =>
    intro hk
    have := h.step_lt (k := k) (by omega)
    rcases Nat.lt_or_eq_of_le (Nat.lt_succ_iff.mp hjk) with h1 | h1
    · exact (ih h1 (by omega)).trans this
    · rw [h1]; exact this

theorem Regular.sorted (h : Regular al origin n) : Alignment.Sorted ((List.range (n + 1)).map al) := by
  unfold Alignment.Sorted
  rw [List.pairwise_iff_getElem]
  intro i j hi hj hij
  rw [List.length_map, List.length_range] at hi hj
  rw [List.getElem_map, List.getElem_map, List.getElem_range, List.getElem_range]
  exact h.lt hij (by omega)

/-- The segment a station is on. -/
theorem Regular.index (h : Regular al origin n) {k : ℕ} (hk : k < n) {s : ℝ} (h1 : (al k).station < s)
    (h2 : s < (al (k + 1)).station) : Alignment.indexSegment ((List.range (n + 1)).map al) s = .val (k : ℤ) := by
  have len : ((List.range (n + 1)).map al).length = n + 1 := by simp
  obtain ⟨i, hi, e, a1, a2, -⟩ := Alignment.segment_found h.sorted (by rw [len]; omega) s
    (by
      rw [List.getElem_map, List.getElem_range]
      exact (h.mono k hk.le).trans h1.le)
    (by
      rw [List.getElem_map, List.getElem_range]
      refine h2.le.trans ?_
      rw [len, Nat.add_sub_cancel]
      rcases Nat.lt_or_eq_of_le (Nat.succ_le_of_lt hk) with h3 | h3
      · exact (h.lt h3 le_rfl).le
      · exact le_of_eq (by rw [← h3]))
  rw [len] at hi
  rw [List.getElem_map, List.getElem_range] at a1 a2
  have : i = k := by
    by_contra hne
    rcases Nat.lt_or_gt_of_ne hne with h3 | h3
    · rcases Nat.lt_or_eq_of_le (Nat.succ_le_of_lt h3) with h4 | h4
      · have := h.lt h4 hk.le
        have e : i.succ = i + 1 := rfl
        rw [e] at this
        linarith
      · have e : i + 1 = k := h4
        rw [e] at a2
        linarith
    · rcases Nat.lt_or_eq_of_le (Nat.succ_le_of_lt h3) with h4 | h4
      · have := h.lt h4 (by omega)
        have e : k.succ = k + 1 := rfl
        rw [e] at this
        linarith
      · have e : k + 1 = i := h4
        rw [e] at h2
        linarith
  rw [e, this]

/-- The vector along the segment before. -/
theorem before (L : SunLibrary) (h : Regular al origin n) {k : ℕ} (hk : k ≤ n) (hs : shortness al origin k ≤ 1e14) :
    ∃ v : V2, Course.vectorBefore L (Course.pointsAlignment L origin ((List.range (n + 1)).map al)) k =
        .val (some v) ∧
      IsDouble v.x ∧ IsDouble v.y ∧ |‖toC v‖ - 1| ≤ 0.3 ∧
      ‖dir (toC v) - Complex.exp ((∑ l ∈ Finset.range k, turn (al l).rotation : ℝ) * Complex.I)‖ ≤
        2 * (k * 7e-13 + 2e-15 * shortness al origin k) := by
  cases k with
  | zero =>
    refine ⟨⟨1, 0⟩, rfl, isDouble_one, isDouble_zero, ?_, ?_⟩
    · have e : toC ⟨1, 0⟩ = 1 := rfl
      rw [e]; norm_num
    · have e : toC ⟨1, 0⟩ = 1 := rfl
      rw [e]
      simp [dir, shortness]
  | succ k =>
    have hD0 := (two_zpow_pos (-100)).trans_le (h.near k hk)
    have es : shortness al origin (k + 1) = (√(origin.x ^ 2 + origin.y ^ 2) + ((al (k + 1)).station - (al 0).station)) /
        ((al (k + 1)).station - (al k).station) := by
      unfold shortness; rw [if_neg (by omega)]; rfl
    rw [es] at hs ⊢
    obtain ⟨p, q, v, h1, h2, h3, h4⟩ := C188_segment_partial L al origin n h k hk ((div_le_iff₀ hD0).mp hs)
    have nE : ‖Complex.exp (heading al k * Complex.I)‖ = 1 := Complex.norm_exp_ofReal_mul_I _
    have hd : IsDouble v.x ∧ IsDouble v.y := by
      unfold Course.vectorSegment at h3
      dsimp only at h3
      split at h3
      · simp at h3
      · simp only [Option.some.injEq] at h3
        rw [← h3]
        exact ⟨rnd_isDouble _, rnd_isDouble _⟩
    have h4' : ‖toC v - Complex.exp (heading al k * Complex.I)‖ ≤ ((k + 1 : ℕ) : ℝ) * 7e-13 +
        2e-15 * ((√(origin.x ^ 2 + origin.y ^ 2) + ((al (k + 1)).station - (al 0).station)) /
          ((al (k + 1)).station - (al k).station)) := by
      push_cast; exact h4
    refine ⟨v, ?_, hd.1, hd.2, ?_, ?_⟩
    · unfold Course.vectorBefore
      rw [if_neg (by omega), Nat.add_sub_cancel, h1, h2]
      dsimp only
      rw [h3]
    · have a := abs_norm_sub_norm_le (toC v) (Complex.exp (heading al k * Complex.I))
      rw [nE] at a
      have hkk : ((k + 1 : ℕ) : ℝ) ≤ 1e11 := by
        have : ((k + 1 : ℕ) : ℝ) ≤ (10 ^ 11 : ℕ) := by exact_mod_cast hk.trans h.count
        refine this.trans (by norm_num)
      refine (a.trans h4').trans ?_
      linarith
    · have a := dir_near (a := toC v) (b := Complex.exp (heading al k * Complex.I)) (by rw [nE]; norm_num)
        (by rw [nE, mul_one])
      have e : dir (Complex.exp (heading al k * Complex.I)) = Complex.exp (heading al k * Complex.I) := by
        rw [dir, nE]; simp
      rw [e] at a
      exact a.trans (mul_le_mul_of_nonneg_left h4' (by norm_num))

/-- What the function does between two alignment points. -/
theorem fromStation_eq (L : SunLibrary) (h : Regular al origin n) {k : ℕ} (hk : k < n) {s : ℝ} (h1 : (al k).station < s)
    (h2 : s < (al (k + 1)).station) {v : Option V2}
    (hv : Course.vectorBefore L (Course.pointsAlignment L origin ((List.range (n + 1)).map al)) k = .val v) :
    Course.fromStation L ((List.range (n + 1)).map al) (Course.pointsAlignment L origin ((List.range (n + 1)).map al)) s =
      .val (v.map fun v => (Course.fromVector L (st L al origin k).1 (rnd (s - (al k).station))
        (rnd (rnd (rnd ((al (k + 1)).elevation - (al k).elevation) / rnd ((al (k + 1)).station - (al k).station)) *
          rnd (s - (al k).station))) (al k).rotation v).1) := by
  unfold Course.fromStation
  rw [h.index hk (by linarith) h2]
  dsimp only
  rw [if_neg (by omega), Int.toNat_natCast, point_at L al origin hk.le, point_at L al origin hk]
  dsimp only
  have g1 : ((List.range (n + 1)).map al)[k]? = some (al k) := by
    rw [List.getElem?_map, List.getElem?_range (by omega)]; rfl
  have g2 : ((List.range (n + 1)).map al)[k + 1]? = some (al (k + 1)) := by
    rw [List.getElem?_map, List.getElem?_range (by omega)]; rfl
  rw [g1, g2]
  dsimp only
  rw [if_neg (by linarith), if_neg (by linarith), hv]
  cases v <;> rfl

/-- The difference in elevation along a segment: rounded quotient, then rounded product. -/
theorem grade_near {e0 e1 s0 s1 s H : ℝ} (he0 : IsDouble e0) (he1 : IsDouble e1) (hs0 : IsDouble s0) (hs1 : IsDouble s1)
    (hs : IsDouble s) (h1 : s0 < s) (h2 : s < s1) (hfar : s1 - s0 ≤ 2 ^ (398 : ℤ)) (hH : |e1 - e0| ≤ 2 * H) :
    |rnd (rnd (rnd (e1 - e0) / rnd (s1 - s0)) * rnd (s - s0)) - (e1 - e0) * ((s - s0) / (s1 - s0))| ≤
      12 * u * H + 2 ^ (-600 : ℤ) := by
  have hu0 := u_pos
  have hu := u_small
  have a := abs_le.mp (rnd_sub_relative he1 he0)
  have b := abs_le.mp (rnd_sub_relative hs1 hs0)
  have c := abs_le.mp (rnd_sub_relative hs hs0)
  have hS : 0 < s1 - s0 := by linarith
  have hs' : 0 < s - s0 := by linarith
  rw [abs_of_pos hS] at b
  rw [abs_of_pos hs'] at c
  set E := e1 - e0 with hE
  set D := s1 - s0 with hD
  set T := s - s0 with hT
  have hTD : T ≤ D := by rw [hT, hD]; linarith
  set E' := rnd E
  set D' := rnd D
  set T' := rnd T
  have uD : u * D ≤ D / 9000000000000000 := by have := mul_le_mul_of_nonneg_right hu.le hS.le; linarith
  have uT : u * T ≤ T / 9000000000000000 := by have := mul_le_mul_of_nonneg_right hu.le hs'.le; linarith
  have hD' : 0 < D' := by linarith [b.1]
  have hT' : 0 < T' := by linarith [c.1]
  have q := rnd_error_le (E' / D')
  set Q := rnd (E' / D')
  have f := rnd_error_le (Q * T')
  have hH0 : 0 ≤ H := by have := abs_nonneg E; linarith
  -- ratio of the distances
  have r1 : |T' / D' - T / D| ≤ 2.1 * u := by
    rw [div_sub_div _ _ hD'.ne' hS.ne', abs_div, abs_of_pos (mul_pos hD' hS), div_le_iff₀ (mul_pos hD' hS)]
    have e : T' * D - D' * T = (T' - T) * D - (D' - D) * T := by ring
    rw [e]
    refine (abs_sub _ _).trans ?_
    rw [abs_mul, abs_mul, abs_of_pos hS, abs_of_pos hs']
    have c' : |T' - T| ≤ u * D := (abs_le.mpr c).trans (mul_le_mul_of_nonneg_left hTD hu0.le)
    have b' : |D' - D| * T ≤ u * D * D := mul_le_mul (abs_le.mpr b) hTD hs'.le (by positivity)
    have c'' := mul_le_mul_of_nonneg_right c' hS.le
    have : 2 * (u * D * D) ≤ 2.1 * u * (D' * D) := by
      have h3 : D * (2 / 2.1) ≤ D' := by linarith [b.1]
      have h4 := mul_le_mul_of_nonneg_left h3 (by positivity : 0 ≤ 2.1 * u * D)
      linarith
    linarith
  have r2 : |T' / D'| ≤ 1.1 := by
    have : |T / D| ≤ 1 := by rw [abs_of_pos (by positivity), div_le_one hS]; exact hTD
    have := abs_le.mp this
    have := abs_le.mp r1
    rw [abs_le]; constructor <;> linarith
  have e1' : |E' - E| ≤ u * (2 * H) := (abs_le.mpr a).trans (mul_le_mul_of_nonneg_left hH hu0.le)
  have uH : u * H ≤ H / 9000000000000000 := by have := mul_le_mul_of_nonneg_right hu.le hH0; linarith
  have e2 : |E'| ≤ 2.1 * H := by
    have := abs_le.mp e1'; have := abs_le.mp hH
    rw [abs_le]; constructor <;> linarith
  -- exact product of the rounded factors
  have m1 : |E' * (T' / D') - E * (T / D)| ≤ 7 * u * H := by
    have e : E' * (T' / D') - E * (T / D) = (E' - E) * (T' / D') + E * (T' / D' - T / D) := by ring
    rw [e]
    refine (abs_add_le _ _).trans ?_
    rw [abs_mul, abs_mul]
    have x := mul_le_mul e1' r2 (abs_nonneg _) (by positivity)
    have y := mul_le_mul hH r1 (abs_nonneg _) (by positivity)
    have : 0 ≤ u * H := by positivity
    linarith
  have m2 : |E' * (T' / D')| ≤ 2.4 * H := by
    rw [abs_mul]
    have := mul_le_mul e2 r2 (abs_nonneg _) (by positivity)
    linarith
  have m3 : |Q * T' - E' * (T' / D')| ≤ u * (2.4 * H) + 2 ^ (-1075 : ℤ) * T' := by
    have e : Q * T' - E' * (T' / D') = (Q - E' / D') * T' := by ring
    rw [e, abs_mul, abs_of_pos hT']
    have x := mul_le_mul_of_nonneg_right q hT'.le
    have y : |E' / D'| * T' = |E' * (T' / D')| := by
      have : E' * (T' / D') = E' / D' * T' := by ring
      rw [this, abs_mul, abs_of_pos hT']
    have z := mul_le_mul_of_nonneg_left m2 hu0.le
    rw [← y] at z
    linarith
  have tT : (2 : ℝ) ^ (-1075 : ℤ) * T' ≤ 2 ^ (-676 : ℤ) := by
    have x : T' ≤ 2 ^ (398 : ℤ) * 2 := le_trans (by linarith [c.2] : T' ≤ D * 2) (mul_le_mul_of_nonneg_right hfar (by norm_num))
    have y : (2 : ℝ) ^ (-1075 : ℤ) * (2 ^ (398 : ℤ) * 2) = 2 ^ (-676 : ℤ) := by
      rw [← zpow_add_one₀ (by norm_num), ← zpow_add₀ (by norm_num)]; norm_num
    rw [← y]
    exact mul_le_mul_of_nonneg_left x (two_zpow_pos _).le
  have t1 : (2 : ℝ) ^ (-1075 : ℤ) ≤ 2 ^ (-676 : ℤ) := two_zpow_le (by norm_num)
  have t2 : (2 : ℝ) ^ (-676 : ℤ) * 4 ≤ 2 ^ (-600 : ℤ) := by
    have : (2 : ℝ) ^ (-676 : ℤ) * 4 = 2 ^ (-674 : ℤ) := by
      have : (4 : ℝ) = 2 ^ (2 : ℤ) := by norm_num
      rw [this, ← zpow_add₀ (by norm_num)]; norm_num
    rw [this]; exact two_zpow_le (by norm_num)
  have t0 := two_zpow_pos (-676)
  generalize (2 : ℝ) ^ (-1075 : ℤ) * T' = τ at *
  generalize (2 : ℝ) ^ (-1075 : ℤ) = η at *
  generalize (2 : ℝ) ^ (-676 : ℤ) = ω at *
  generalize (2 : ℝ) ^ (-600 : ℤ) = Ω at *
  have uH0 : 0 ≤ u * H := by positivity
  have m4 : |Q * T'| ≤ 2.5 * H + ω := by
    have x := abs_le.mp m3; have y := abs_le.mp m2
    rw [abs_le]; constructor <;> linarith
  have f' : |rnd (Q * T') - Q * T'| ≤ u * (2.5 * H) + ω + ω := by
    have x := mul_le_mul_of_nonneg_left m4 hu0.le
    have y : u * ω ≤ 1 * ω := mul_le_mul_of_nonneg_right (by linarith) t0.le
    linarith
  have x := abs_le.mp f'; have y := abs_le.mp m3; have z := abs_le.mp m1
  rw [abs_le]; constructor <;> linarith

end Traverse

open Traverse

/-- The coordinates of a station between two alignment points: along the segment from the point before it.  The
direction is taken from the coordinates of the segment before, and the bound has a term for what it lost. -/
theorem C189_station_partial (L : SunLibrary) (al : ℕ → AlignmentPoint ℝ) (origin : P3) (n : ℕ) (h : Regular al origin n)
    (k : ℕ) (hk : k < n) (s : ℝ) (hs : IsDouble s) (h1 : (al k).station + 2 ^ (-100 : ℤ) ≤ s)
    (h2 : s < (al (k + 1)).station) (hshort : shortness al origin k ≤ 1e14) :
    ∃ p, Course.fromStation L ((List.range (n + 1)).map al) (Course.pointsAlignment L origin ((List.range (n + 1)).map al))
        s = .val (some p) ∧
      ‖(⟨p.x, p.y⟩ : ℂ) - (place al origin k + ((s - (al k).station : ℝ) : ℂ) * Complex.exp (heading al k * Complex.I))‖ ≤
        (k + 1) * (1.5e-12 * (s - (al 0).station) + 1e-15 * √(origin.x ^ 2 + origin.y ^ 2)) +
          4e-15 * shortness al origin k * (s - (al k).station) := by
  have hu0 := u_pos
  have hu := u_small
  have hpos := two_zpow_pos (-100)
  obtain ⟨v, hv, vx, vy, hn, hdir⟩ := before L h hk.le hshort
  have i := inv L h k hk.le
  set p0 := (st L al origin k).1 with hp0
  set S := s - (al k).station with hS
  have hS1 : (2 : ℝ) ^ (-100 : ℤ) ≤ S := by rw [hS]; linarith
  have hS0 : 0 < S := hpos.trans_le hS1
  have hS2 : S ≤ 2 ^ (398 : ℤ) := le_trans (by rw [hS]; linarith) (h.far k hk)
  have hd := rnd_sub_relative hs (h.station k hk.le)
  rw [← hS, abs_of_pos hS0] at hd
  set d := rnd S with hdd
  have hd' := abs_le.mp hd
  have huS : u * S ≤ S / 9000000000000000 := by
    have := mul_le_mul_of_nonneg_right hu.le hS0.le; linarith
  have d1 : (2 : ℝ) ^ (-101 : ℤ) ≤ d := by
    have e : (2 : ℝ) ^ (-101 : ℤ) * 2 = 2 ^ (-100 : ℤ) := by rw [← zpow_add_one₀ (by norm_num)]; norm_num
    rw [← e] at hS1
    generalize (2 : ℝ) ^ (-101 : ℤ) = q at *
    linarith [hd'.1]
  have d2 : d ≤ 2 ^ (399 : ℤ) := by
    have e2 : (2 : ℝ) ^ (398 : ℤ) * 2 = 2 ^ (399 : ℤ) := by rw [← zpow_add_one₀ (by norm_num)]; norm_num
    rw [← e2]
    exact (show d ≤ S * 2 by linarith [hd'.2]).trans (mul_le_mul_of_nonneg_right hS2 (by norm_num))
  have hn' := abs_le.mp hn
  have lo : (2 : ℝ) ^ (-102 : ℤ) ≤ ‖toC v‖ := by
    refine le_trans (two_zpow_le (by norm_num : (-102 : ℤ) ≤ -1)) ?_
    have : (2 : ℝ) ^ (-1 : ℤ) = 0.5 := by norm_num
    rw [this]; linarith [hn'.1]
  have hi : ‖toC v‖ ≤ 2 ^ (399 : ℤ) := by
    refine le_trans ?_ (two_zpow_le (by norm_num : (1 : ℤ) ≤ 399))
    rw [zpow_one]; linarith [hn'.2]
  set w := (Course.scale (Course.rotate L v (al k).rotation)
      (rnd (d / Double.magnitude L.toLibrary (Course.rotate L v (al k).rotation)))) with hw
  obtain ⟨s1, -, s3⟩ := step_near L vx vy lo hi (h.rotation k hk.le) d1 d2 hw
  set slope := rnd (rnd ((al (k + 1)).elevation - (al k).elevation) / rnd ((al (k + 1)).station - (al k).station))
  refine ⟨⟨rnd (p0.x + w.x), rnd (p0.y + w.y), rnd (p0.z + rnd (slope * d))⟩, ?_, ?_⟩
  · rw [fromStation_eq L h hk (by linarith) h2 hv]
    rfl
  have he : Complex.exp (heading al k * Complex.I) =
      Complex.exp ((∑ l ∈ Finset.range k, turn (al l).rotation : ℝ) * Complex.I) *
        Complex.exp (turn (al k).rotation * Complex.I) := by
    rw [← Complex.exp_add, heading, Finset.sum_range_succ]
    push_cast
    ring_nf
  have ne : ‖Complex.exp (turn (al k).rotation * Complex.I)‖ = 1 := Complex.norm_exp_ofReal_mul_I _
  have hv0 : 0 < ‖toC v‖ := (two_zpow_pos _).trans_le lo
  rw [he]
  set E0 := Complex.exp ((∑ l ∈ Finset.range k, turn (al l).rotation : ℝ) * Complex.I) with hE0
  set t := Complex.exp (turn (al k).rotation * Complex.I) with ht
  have ndv : ‖dir (toC v) * t‖ = 1 := by rw [norm_mul, norm_dir hv0, ne, mul_one]
  have hdir' : ‖dir (toC v) * t - E0 * t‖ ≤ 2 * (k * 7e-13 + 2e-15 * shortness al origin k) := by
    rw [← sub_mul, norm_mul, ne, mul_one]; exact hdir
  set ρ := shortness al origin k with hρ
  have hρ0 : 0 ≤ ρ := by
    rw [hρ]; unfold shortness
    split
    · exact le_rfl
    · have a := h.mono k hk.le
      have b := h.lt (j := k - 1) (k := k) (by omega) hk.le
      have := Real.sqrt_nonneg (origin.x ^ 2 + origin.y ^ 2)
      exact div_nonneg (by linarith) (by linarith)
  have e1 : ‖toC w - (S : ℂ) * (E0 * t)‖ ≤ S * (3.2e-13 + 2 * (k * 7e-13 + 2e-15 * ρ)) := by
    have e : toC w - (S : ℂ) * (E0 * t) =
        (toC w - d * (dir (toC v) * t)) + ((d - S : ℝ) : ℂ) * (dir (toC v) * t) + (S : ℂ) * (dir (toC v) * t - E0 * t) := by
      push_cast; ring
    rw [e]
    refine (norm_add_le _ _).trans ?_
    refine (add_le_add_left (norm_add_le _ _) _).trans ?_
    rw [norm_mul _ (dir (toC v) * t), norm_mul _ (dir (toC v) * t - E0 * t), ndv, Complex.norm_real, Complex.norm_real,
      Real.norm_eq_abs, Real.norm_eq_abs, abs_of_pos hS0, mul_one]
    have a := mul_le_mul_of_nonneg_left hdir' hS0.le
    linarith [hd'.2]
  have e2 := sum_near i.px i.py (c := w.x) (d := w.y) (rnd_isDouble _) (rnd_isDouble _)
  have c := h.place_le k hk.le
  have f := i.near
  rw [← hp0] at e2 f
  have eo : ‖toC ⟨origin.x, origin.y⟩‖ = √(origin.x ^ 2 + origin.y ^ 2) := norm_toC _
  rw [eo] at c f
  set pl := place al origin k with hpl
  set P0 := toC ⟨p0.x, p0.y⟩ with hP0
  have ew : toC ⟨w.x, w.y⟩ = toC w := rfl
  rw [ew] at e2
  set W := toC w with hW
  have hk0 : (0 : ℝ) ≤ k := Nat.cast_nonneg k
  have hkk : (k : ℝ) ≤ 1e11 := by
    have : (k : ℝ) ≤ (10 ^ 11 : ℕ) := by exact_mod_cast hk.le.trans h.count
    refine this.trans (by norm_num)
  have hO := Real.sqrt_nonneg (origin.x ^ 2 + origin.y ^ 2)
  have hT0 : 0 ≤ (al k).station - (al 0).station := by have := h.mono k hk.le; linarith
  have hsT : s - (al 0).station = ((al k).station - (al 0).station) + S := by rw [hS]; ring
  rw [hsT]
  generalize √(origin.x ^ 2 + origin.y ^ 2) = O at *
  generalize (al k).station - (al 0).station = T at *
  have huT : u * (O + T) ≤ (O + T) / 9000000000000000 := by
    have := mul_le_mul_of_nonneg_right hu.le (by linarith : 0 ≤ O + T); linarith
  have f' : ‖P0 - pl‖ ≤ k * (5e-13 * T + 6e-16 * O) := by
    refine f.trans (mul_le_mul_of_nonneg_left ?_ hk0)
    linarith
  have f2 : k * (5e-13 * T + 6e-16 * O) ≤ 0.1 * (O + T) := by
    have : k * (5e-13 * T + 6e-16 * O) ≤ 1e11 * (5e-13 * T + 6e-16 * O) := mul_le_mul_of_nonneg_right hkk (by positivity)
    linarith
  have g1 : ‖P0 + W‖ ≤ 1.2 * (O + T + S) := by
    have a := norm_add_le P0 W
    have b := norm_add_le pl (P0 - pl)
    rw [add_sub_cancel] at b
    have := (abs_le.mp s3).2
    have : u * d ≤ 1e-15 * d := mul_le_mul_of_nonneg_right (by linarith) ((two_zpow_pos _).le.trans d1)
    linarith [hd'.2]
  have g2 : 2 * u * ‖P0 + W‖ ≤ 3e-16 * (O + T + S) := by
    have a := mul_le_mul_of_nonneg_left g1 (by positivity : 0 ≤ 2 * u)
    have b := mul_le_mul_of_nonneg_right hu.le (by linarith : 0 ≤ O + T + S)
    linarith
  have e : toC ⟨rnd (p0.x + w.x), rnd (p0.y + w.y)⟩ - (pl + (S : ℂ) * (E0 * t)) =
      (toC ⟨rnd (p0.x + w.x), rnd (p0.y + w.y)⟩ - (P0 + W)) + (P0 - pl) + (W - (S : ℂ) * (E0 * t)) := by ring
  have goal : ‖toC ⟨rnd (p0.x + w.x), rnd (p0.y + w.y)⟩ - (pl + (S : ℂ) * (E0 * t))‖ ≤
      (k + 1) * (1.5e-12 * (T + S) + 1e-15 * O) + 4e-15 * ρ * S := by
    rw [e]
    refine (norm_add_le _ _).trans ((add_le_add_left (norm_add_le _ _) _).trans ?_)
    have a1 : 0 ≤ k * S := by positivity
    have a2 : 0 ≤ k * T := by positivity
    have a3 : 0 ≤ k * O := by positivity
    have a4 : 0 ≤ ρ * S := by positivity
    linarith
  exact goal

/-- The elevation of a station between two alignment points: on the straight line between the two points of the
alignment. -/
theorem C189_elevation_partial (L : SunLibrary) (al : ℕ → AlignmentPoint ℝ) (origin : P3) (n : ℕ)
    (h : Regular al origin n) {H : ℝ} (hH : ∀ k ≤ n, |origin.z + ((al k).elevation - (al 0).elevation)| ≤ H)
    (k : ℕ) (hk : k < n) (s : ℝ) (hs : IsDouble s) (h1 : (al k).station < s) (h2 : s < (al (k + 1)).station)
    (hshort : shortness al origin k ≤ 1e14) :
    ∃ p, Course.fromStation L ((List.range (n + 1)).map al) (Course.pointsAlignment L origin ((List.range (n + 1)).map al))
        s = .val (some p) ∧
      |p.z - (origin.z + ((al k).elevation - (al 0).elevation) + ((al (k + 1)).elevation - (al k).elevation) *
          ((s - (al k).station) / ((al (k + 1)).station - (al k).station)))| ≤ (k + 1) * (2e-15 * H) + 2 ^ (-599 : ℤ) := by
  obtain ⟨v, hv, -⟩ := before L h hk.le hshort
  rw [fromStation_eq L h hk h1 h2 hv]
  refine ⟨_, rfl, ?_⟩
  have hu0 := u_pos
  have hu := u_small
  obtain ⟨q, q1, q2⟩ := C188_elevation L al origin n h.origin_z h.elevation h.count hH k hk.le
  rw [point_at L al origin hk.le] at q1
  simp only [Option.some.injEq] at q1
  rw [← q1] at q2
  have hz : IsDouble (st L al origin k).1.z := by
    cases k with
    | zero => exact h.origin_z
    | succ k => exact rnd_isDouble _
  have hH0 : 0 ≤ H := (abs_nonneg _).trans (hH 0 (by omega))
  have b0 := hH k hk.le
  have b1 := hH (k + 1) hk
  have hdh : |(al (k + 1)).elevation - (al k).elevation| ≤ 2 * H := by
    rw [abs_le] at b1 b0 ⊢; constructor <;> linarith [b1.1, b1.2, b0.1, b0.2]
  have g := grade_near (h.elevation k hk.le) (h.elevation (k + 1) hk) (h.station k hk.le) (h.station (k + 1) hk) hs h1 h2
    (h.far k hk) hdh
  have D0 : 0 < (al (k + 1)).station - (al k).station := by linarith
  have r0 : 0 ≤ (s - (al k).station) / ((al (k + 1)).station - (al k).station) := div_nonneg (by linarith) D0.le
  have r1 : (s - (al k).station) / ((al (k + 1)).station - (al k).station) ≤ 1 := by
    rw [div_le_one D0]; linarith
  show |rnd ((st L al origin k).1.z + rnd (rnd (rnd ((al (k + 1)).elevation - (al k).elevation) /
    rnd ((al (k + 1)).station - (al k).station)) * rnd (s - (al k).station))) - _| ≤ _
  set G := rnd (rnd (rnd ((al (k + 1)).elevation - (al k).elevation) /
    rnd ((al (k + 1)).station - (al k).station)) * rnd (s - (al k).station))
  set r := (s - (al k).station) / ((al (k + 1)).station - (al k).station)
  have add := rnd_add_relative hz (rnd_isDouble (rnd (rnd ((al (k + 1)).elevation - (al k).elevation) /
    rnd ((al (k + 1)).station - (al k).station)) * rnd (s - (al k).station)))
  change |rnd ((st L al origin k).1.z + G) - ((st L al origin k).1.z + G)| ≤ u * |(st L al origin k).1.z + G| at add
  have t : (2 : ℝ) ^ (-599 : ℤ) = 2 ^ (-600 : ℤ) * 2 := by rw [← zpow_add_one₀ (by norm_num)]; norm_num
  rw [t]
  have t0 := two_zpow_pos (-600)
  have hk0 : (0 : ℝ) ≤ k := Nat.cast_nonneg k
  have hkk : (k : ℝ) ≤ 1e11 := by
    have : (k : ℝ) ≤ (10 ^ 11 : ℕ) := by exact_mod_cast hk.le.trans h.count
    refine this.trans (by norm_num)
  generalize (2 : ℝ) ^ (-600 : ℤ) = ω at *
  have uH : u * H ≤ H / 9000000000000000 := by have := mul_le_mul_of_nonneg_right hu.le hH0; linarith
  have kH : k * (5e-16 * H) ≤ 1e11 * (5e-16 * H) := mul_le_mul_of_nonneg_right hkk (by positivity)
  have kH0 : 0 ≤ k * H := by positivity
  -- the exact elevation is between those of the two points
  have mid : |origin.z + ((al k).elevation - (al 0).elevation) + ((al (k + 1)).elevation - (al k).elevation) * r| ≤ H := by
    have e : origin.z + ((al k).elevation - (al 0).elevation) + ((al (k + 1)).elevation - (al k).elevation) * r =
      (1 - r) * (origin.z + ((al k).elevation - (al 0).elevation)) +
        r * (origin.z + ((al (k + 1)).elevation - (al 0).elevation)) := by ring
    rw [e]
    refine (abs_add_le _ _).trans ?_
    rw [abs_mul, abs_mul, abs_of_nonneg r0, abs_of_nonneg (by linarith : 0 ≤ 1 - r)]
    have x := mul_le_mul_of_nonneg_left b0 (by linarith : 0 ≤ 1 - r)
    have y := mul_le_mul_of_nonneg_left b1 r0
    linarith
  have q2' := abs_le.mp q2; have g' := abs_le.mp g; have mid' := abs_le.mp mid
  have sum : |(st L al origin k).1.z + G| ≤ 1.1 * H + ω := by
    rw [abs_le]; constructor <;> linarith
  have add' : |rnd ((st L al origin k).1.z + G) - ((st L al origin k).1.z + G)| ≤ u * (1.1 * H) + ω := by
    have x := mul_le_mul_of_nonneg_left sum hu0.le
    have y : u * ω ≤ 1 * ω := mul_le_mul_of_nonneg_right (by linarith) t0.le
    linarith
  have add'' := abs_le.mp add'
  rw [abs_le]; constructor <;> linarith

/-- At the station of an alignment point the coordinates are those of that point, bit for bit. -/
theorem C189_vertex (L : SunLibrary) (al : ℕ → AlignmentPoint ℝ) (origin : P3) (n : ℕ) (h : Regular al origin n)
    (hn : 1 ≤ n) (k : ℕ) (hk : k ≤ n) :
    ∃ p, (Course.pointsAlignment L origin ((List.range (n + 1)).map al))[k]? = some p ∧
      Course.fromStation L ((List.range (n + 1)).map al) (Course.pointsAlignment L origin ((List.range (n + 1)).map al))
        (al k).station = .val (some p) := by
  refine ⟨_, point_at L al origin hk, ?_⟩
  have len : ((List.range (n + 1)).map al).length = n + 1 := by simp
  obtain ⟨i, hi, e, a1, a2, -⟩ := Alignment.segment_found h.sorted (by rw [len]; omega) (al k).station
    (by
      rw [List.getElem_map, List.getElem_range]
      exact h.mono k hk)
    (by
      rw [List.getElem_map, List.getElem_range, len, Nat.add_sub_cancel]
      rcases Nat.lt_or_eq_of_le hk with h3 | h3
      · exact (h.lt h3 le_rfl).le
      · exact le_of_eq (by rw [h3]))
  rw [len] at hi
  rw [List.getElem_map, List.getElem_range] at a1 a2
  have h1 : i ≤ k := by
    by_contra h3
    exact absurd (h.lt (not_le.mp h3) (by omega)) (not_lt.mpr a1)
  have h2 : k ≤ i + 1 := by
    by_contra h3
    exact absurd (h.lt (not_le.mp h3) hk) (not_lt.mpr a2)
  have g1 : ((List.range (n + 1)).map al)[i]? = some (al i) := by
    rw [List.getElem?_map, List.getElem?_range (by omega)]; rfl
  have g2 : ((List.range (n + 1)).map al)[i + 1]? = some (al (i + 1)) := by
    rw [List.getElem?_map, List.getElem?_range (by omega)]; rfl
  unfold Course.fromStation
  rw [e]
  dsimp only
  rw [if_neg (by omega), Int.toNat_natCast, point_at L al origin (by omega : i ≤ n),
    point_at L al origin (by omega : i + 1 ≤ n)]
  dsimp only
  rw [g1, g2]
  dsimp only
  rcases Nat.lt_or_eq_of_le h1 with h3 | h3
  · obtain rfl : k = i + 1 := by omega
    rw [if_neg (h.step_lt (by omega)).ne', if_pos rfl]
  · rw [h3, if_pos rfl]

/-- A segment of `2⁻⁴⁰` at a distance of 4194304 from the origin takes with it the coordinates of the 1000 units after it:
they are not numbers. -/
theorem C189_station_fails (L : SunLibrary) : ∃ (al : ℕ → AlignmentPoint ℝ) (origin : P3), Regular al origin 2 ∧
    (al 1).station < 500 ∧ 500 < (al 2).station ∧
    Course.fromStation L ((List.range 3).map al) (Course.pointsAlignment L origin ((List.range 3).map al)) 500 =
      .val none := by
  have p1 : L.pow 1 2 = 1 := by
    have := (L.pow_faithful 1 2 isDouble_one (.inr (by norm_num)))
    rw [one_zpow] at this
    exact this.exact isDouble_one
  have p0 : L.pow 0 2 = 0 := by
    have := (L.pow_faithful 0 2 isDouble_zero (.inr (by norm_num)))
    rw [zero_zpow _ (by norm_num)] at this
    exact this.exact isDouble_zero
  have m1 : Double.magnitude L.toLibrary ⟨1, 0⟩ = 1 := by
    unfold Double.magnitude
    dsimp only
    rw [p1, p0, add_zero, rnd_of_isDouble isDouble_one, Real.sqrt_one, rnd_of_isDouble isDouble_one]
  have m0 : Double.magnitude L.toLibrary ⟨0, 0⟩ = 0 := by
    unfold Double.magnitude
    dsimp only
    rw [p0, add_zero, rnd_zero, Real.sqrt_zero, rnd_zero]
  have dd : IsDouble ((2 : ℝ) ^ (-40 : ℤ)) := isDouble_two_zpow (by norm_num)
  have d22 : IsDouble ((4194304 : ℝ)) := by exact_mod_cast isDouble_int (n := 4194304) (by norm_num)
  have d3 : IsDouble ((1000 : ℝ)) := by exact_mod_cast isDouble_int (n := 1000) (by norm_num)
  have r1 : rnd (4194304 + (2 : ℝ) ^ (-40 : ℤ)) = 4194304 := by
    have := rnd_eq (x := 4194304 + (2 : ℝ) ^ (-40 : ℤ)) 4503599627370496 (-30) (by norm_num)
      (by rw [abs_of_pos (by positivity)]; norm_num) (by rw [abs_of_pos (by positivity)]; norm_num)
      (by rw [abs_lt]; constructor <;> norm_num)
    rw [this]; norm_num
  have thr : |(0 : ℝ)| < rnd 0.00005 := by
    rw [abs_zero]
    have : (2 : ℝ) ^ (-20 : ℤ) ≤ rnd 0.00005 := le_rnd (isDouble_two_zpow (by norm_num)) (by norm_num)
    exact (two_zpow_pos _).trans_le this
  have c2 : (2 : ℝ) ^ (-40 : ℤ) ≤ 1 := by norm_num
  let al : ℕ → AlignmentPoint ℝ := fun k => if k = 0 then ⟨0, 0, 0⟩ else if k = 1 then ⟨0, 0, 2 ^ (-40 : ℤ)⟩ else ⟨0, 0, 1000⟩
  have hR : Regular al ⟨4194304, 0, 0⟩ 2 := by
    refine ⟨d22, isDouble_zero, isDouble_zero, ?_, ?_, ?_, ?_, ?_, by norm_num⟩
    · intro k hk
      interval_cases k
      · exact isDouble_zero
      · exact dd
      · exact d3
    · intro k hk
      interval_cases k <;> exact isDouble_zero
    · intro k hk
      interval_cases k <;> norm_num [al]
    · intro k hk
      interval_cases k <;> norm_num [al]
    · intro k hk
      have : (1000 : ℝ) ≤ 2 ^ (398 : ℤ) := le_trans (by norm_num) (two_zpow_le (by norm_num : (10 : ℤ) ≤ 398))
      interval_cases k
      · show (2 : ℝ) ^ (-40 : ℤ) - 0 ≤ _
        refine le_trans ?_ this
        linarith
      · show (1000 : ℝ) - 2 ^ (-40 : ℤ) ≤ _
        refine le_trans ?_ this
        linarith [two_zpow_pos (-40)]
  refine ⟨al, ⟨4194304, 0, 0⟩, hR, ?_, ?_, ?_⟩
  · show (2 : ℝ) ^ (-40 : ℤ) < 500
    linarith
  · show (500 : ℝ) < 1000
    norm_num
  · have e0 : (st L al ⟨4194304, 0, 0⟩ 0).1 = ⟨4194304, 0, 0⟩ := rfl
    have e1 : (st L al ⟨4194304, 0, 0⟩ 1).1 = ⟨4194304, 0, 0⟩ := by
      show (Course.fromVector L ⟨4194304, 0, 0⟩ (rnd ((2 : ℝ) ^ (-40 : ℤ) - 0)) (rnd ((0 : ℝ) - 0)) 0 ⟨1, 0⟩).1 = _
      unfold Course.fromVector Course.rotate Course.scale
      dsimp only
      rw [if_pos thr, m1, sub_zero, rnd_of_isDouble dd, div_one, rnd_of_isDouble dd, one_mul, zero_mul, rnd_zero,
        rnd_of_isDouble dd, r1, sub_zero, rnd_zero, add_zero, rnd_zero]
    have hv : Course.vectorBefore L (Course.pointsAlignment L ⟨4194304, 0, 0⟩ ((List.range (2 + 1)).map al)) 1 = .val none := by
      unfold Course.vectorBefore
      rw [if_neg (by norm_num), point_at L al _ (by norm_num : 1 - 1 ≤ 2), point_at L al _ (by norm_num : 1 ≤ 2), e1]
      show Res.val (Course.vectorSegment L ⟨4194304, 0, 0⟩ ⟨4194304, 0, 0⟩) = _
      unfold Course.vectorSegment
      dsimp only
      rw [sub_self, sub_self, rnd_zero, m0, if_pos rfl]
    exact fromStation_eq L hR (k := 1) (by norm_num) (s := 500)
      (by show (2 : ℝ) ^ (-40 : ℤ) < 500; linarith) (by show (500 : ℝ) < 1000; norm_num) hv

/-- Example: station 1600 of the alignment with a turn of 30 degrees is within 3e-8 of where it should be. -/
example (L : SunLibrary) : ∃ p, Course.fromStation L ((List.range 3).map exampleAlignment)
    (Course.pointsAlignment L ⟨500000, 4000000, 100⟩ ((List.range 3).map exampleAlignment)) 1600 = .val (some p) ∧
    ‖(⟨p.x, p.y⟩ : ℂ) - (place exampleAlignment ⟨500000, 4000000, 100⟩ 1 +
      ((600 : ℝ) : ℂ) * Complex.exp (heading exampleAlignment 1 * Complex.I))‖ ≤ 3e-8 := by
  have d : IsDouble (1600 : ℝ) := by exact_mod_cast isDouble_int (n := 1600) (by norm_num)
  have c : (2 : ℝ) ^ (-100 : ℤ) ≤ 1 := by exact_mod_cast (two_zpow_le (by norm_num : (-100 : ℤ) ≤ 0)).trans (by norm_num)
  have q : √((500000 : ℝ) ^ 2 + 4000000 ^ 2) ≤ 4.1e6 := by
    rw [Real.sqrt_le_left (by norm_num)]; norm_num
  have sh : shortness exampleAlignment ⟨500000, 4000000, 100⟩ 1 ≤ 4200 := by
    unfold shortness
    norm_num [exampleAlignment] at q ⊢
    rw [div_le_iff₀ (by norm_num)]
    linarith
  obtain ⟨p, h1, h2⟩ := C189_station_partial L exampleAlignment ⟨500000, 4000000, 100⟩ 2 exampleAlignment_regular 1
    (by norm_num) 1600 d (by norm_num [exampleAlignment]) (by norm_num [exampleAlignment]) (by linarith)
  refine ⟨p, h1, ?_⟩
  have e : (1600 : ℝ) - (exampleAlignment 1).station = 600 := by norm_num [exampleAlignment]
  have e0 : (exampleAlignment 0).station = 0 := by norm_num [exampleAlignment]
  rw [e, e0] at h2
  refine h2.trans ?_
  dsimp only
  generalize √((500000 : ℝ) ^ 2 + 4000000 ^ 2) = O at *
  norm_num
  linarith

/-- Example: its elevation is within 1e-12 of 104. -/
example (L : SunLibrary) : ∃ p, Course.fromStation L ((List.range 3).map exampleAlignment)
    (Course.pointsAlignment L ⟨500000, 4000000, 100⟩ ((List.range 3).map exampleAlignment)) 1600 = .val (some p) ∧
    |p.z - 104| ≤ 1e-12 := by
  have d : IsDouble (1600 : ℝ) := by exact_mod_cast isDouble_int (n := 1600) (by norm_num)
  have q : √((500000 : ℝ) ^ 2 + 4000000 ^ 2) ≤ 4.1e6 := by
    rw [Real.sqrt_le_left (by norm_num)]; norm_num
  have sh : shortness exampleAlignment ⟨500000, 4000000, 100⟩ 1 ≤ 4200 := by
    unfold shortness
    norm_num [exampleAlignment] at q ⊢
    rw [div_le_iff₀ (by norm_num)]
    linarith
  obtain ⟨p, h1, h2⟩ := C189_elevation_partial L exampleAlignment ⟨500000, 4000000, 100⟩ 2 exampleAlignment_regular (H := 110)
    (by intro k hk; interval_cases k <;> norm_num [exampleAlignment]) 1 (by norm_num) 1600 d
    (by norm_num [exampleAlignment]) (by norm_num [exampleAlignment]) (by linarith)
  refine ⟨p, h1, ?_⟩
  have t : (2 : ℝ) ^ (-599 : ℤ) ≤ 2 ^ (-50 : ℤ) := two_zpow_le (by norm_num)
  generalize (2 : ℝ) ^ (-599 : ℤ) = ω at *
  norm_num [exampleAlignment] at h2 t ⊢
  refine h2.trans ?_
  linarith

/-- Example: the middle point of the alignment. -/
example (L : SunLibrary) := C189_vertex L exampleAlignment ⟨500000, 4000000, 100⟩ 2 exampleAlignment_regular (by norm_num) 1
  (by norm_num)

end Verif.Props
