import Verif.DoubleRadiation
import Verif.DoubleHeatLemmas
import Verif.Props.DoubleLine
import Verif.Props.DoublePolynomial
import Verif.Props.DoubleHelper

/-! # Solar radiation and resistance in `double` arithmetic (C199) -/

set_option linter.unusedSectionVars false

namespace Verif.Props

open Verif.Double

namespace RadiationDouble

variable (L : SunLibrary)

/-! ## Coefficients -/

/-- A coefficient that was computed. -/
def Coefficient (a b : ℝ) : Prop := |a - b| ≤ 12 * u * |b|

theorem coefficient_exact (a : ℝ) : Coefficient a a := by
  unfold Coefficient; rw [sub_self, abs_zero]; have := u_pos; positivity

theorem coefficient_literal {a : ℝ} (h : 2 ^ (-100 : ℤ) ≤ |a|) : Coefficient (rnd a) a := by
  have h1 := rnd_relative ((two_zpow_le (by norm_num)).trans h : (2 : ℝ) ^ (-1022 : ℤ) ≤ |a|)
  unfold Coefficient
  have := u_pos
  have := abs_nonneg a
  nlinarith

theorem coefficient_scaled {c : ℝ} {i : ℤ} (h1 : 1 ≤ |c|) (h2 : |c| ≤ 10) (hi : -11 ≤ i) (hi' : i ≤ 0) :
    Coefficient (Sun.scaled L c i) (c * 10 ^ i) := by
  have a1 : Rel 1 4 (rnd c) c :=
    (Rel.exact (Or.inr ⟨le_trans (by norm_num) h1, h2.trans (by norm_num)⟩)).rnd (by norm_num) (by norm_num)
  have z : (2 : ℝ) ^ (-40 : ℤ) ≤ 10 ^ i := by
    calc (2 : ℝ) ^ (-40 : ℤ) ≤ 10 ^ (-11 : ℤ) := by norm_num
      _ ≤ 10 ^ i := zpow_le_zpow_right₀ (by norm_num) hi
  have z' : (10 : ℝ) ^ i ≤ 1 := by
    calc (10 : ℝ) ^ i ≤ 10 ^ (0 : ℤ) := zpow_le_zpow_right₀ (by norm_num) hi'
      _ = 1 := by norm_num
  have a2 : Rel 0 40 ((10 : ℝ) ^ i) (10 ^ i) := by
    have p := (two_zpow_pos (-40)).trans_le z
    exact Rel.exact (Or.inr (by rw [abs_of_pos p]; exact ⟨z, z'.trans (by norm_num)⟩))
  have a3 := a2.faithful (L.pow_faithful 10 i (by exact_mod_cast isDouble_int (n := 10) (by norm_num)) (Or.inl (by norm_num))) (by norm_num) (by norm_num)
  have a4 := ((a1.mul a3 (by norm_num) (by norm_num)).1).error (by norm_num)
  unfold Coefficient Sun.scaled
  refine a4.trans ?_
  have := u_pos
  have := abs_nonneg (c * 10 ^ i)
  push_cast
  nlinarith

theorem loop_add (x : ℝ) : ∀ (cs : List ℝ) (n : ℕ) (y : ℝ), Poly.yLoop x n cs y = y + Poly.yLoop x n cs 0
  | [], n, y => by simp [Poly.yLoop]
  | c :: cs, n, y => by
    simp only [Poly.yLoop]
    rw [loop_add x cs (n + 1) (y + c * x ^ n), loop_add x cs (n + 1) (0 + c * x ^ n)]; ring

theorem terms_nonneg (x : ℝ) : ∀ (cs : List ℝ) (n : ℕ), 0 ≤ termSizes x n cs
  | [], _ => le_rfl
  | c :: cs, n => add_nonneg (by positivity) (terms_nonneg x cs (n + 1))

/-- Errors of the coefficients. -/
theorem coefficients_error (x : ℝ) {as bs : List ℝ} (h : List.Forall₂ Coefficient as bs) : ∀ n,
    |Poly.yLoop x n as 0 - Poly.yLoop x n bs 0| ≤ 12 * u * termSizes x n bs ∧
    termSizes x n as ≤ (1 + 12 * u) * termSizes x n bs ∧ coefficientSizes as ≤ (1 + 12 * u) * coefficientSizes bs := by
  have hu := u_pos
  induction h with
  | nil => intro n; simp [Poly.yLoop, termSizes, coefficientSizes]
  | @cons a b as bs hab _ ih =>
    intro n
    obtain ⟨i1, i2, i3⟩ := ih (n + 1)
    have hx := pow_nonneg (abs_nonneg x) n
    have e1 : |a| ≤ (1 + 12 * u) * |b| := by
      unfold Coefficient at hab
      have := abs_sub_abs_le_abs_sub a b
      linarith
    simp only [Poly.yLoop, termSizes, coefficientSizes]
    refine ⟨?_, ?_, ?_⟩
    · rw [loop_add x as, loop_add x bs,
        show 0 + a * x ^ n + Poly.yLoop x (n + 1) as 0 - (0 + b * x ^ n + Poly.yLoop x (n + 1) bs 0) =
          (a - b) * x ^ n + (Poly.yLoop x (n + 1) as 0 - Poly.yLoop x (n + 1) bs 0) by ring]
      refine (abs_add_le _ _).trans ?_
      rw [abs_mul, abs_pow]
      have := mul_le_mul_of_nonneg_right hab hx
      linarith
    · have := mul_le_mul_of_nonneg_right e1 hx
      linarith
    · nlinarith

theorem terms_mono {x y : ℝ} (h : |x| ≤ |y|) : ∀ (cs : List ℝ) (n : ℕ), termSizes x n cs ≤ termSizes y n cs
  | [], _ => le_rfl
  | c :: cs, n => add_le_add (mul_le_mul_of_nonneg_left (pow_le_pow_left₀ (abs_nonneg _) h n) (abs_nonneg c))
      (terms_mono h cs (n + 1))

/-- The value of a polynomial with coefficients that were computed. -/
theorem polynomial_error {x X T : ℝ} (hx : IsDouble x) (hX : |x| ≤ |X|) {as bs : List ℝ} (h : List.Forall₂ Coefficient as bs)
    (hn : as.length ≤ 7) (hT : termSizes X 0 bs ≤ T) (hT1 : 1 ≤ T) (hC : coefficientSizes bs ≤ 10 ^ 6) :
    |Double.evalY L.toLibrary as x - Poly.evalY bs x| ≤ 34 * u * T := by
  have hu := u_pos
  have hu' : u ≤ 1 / 10 ^ 12 := by unfold u; norm_num
  have h1 := C176_accuracy L.toLibrary hx (cs := as) (hn.trans (by norm_num))
  obtain ⟨c1, c2, c3⟩ := coefficients_error x h 0
  have t1 := (terms_mono hX bs 0).trans hT
  have t0 := terms_nonneg x bs 0
  have e : (2 : ℝ) ^ (-52 : ℤ) = 2 * u := by unfold u; norm_num
  have hl : (as.length : ℝ) ≤ 7 := by exact_mod_cast hn
  have n0 := terms_nonneg x as 0
  have h2 : (as.length + 3 : ℝ) * 2 ^ (-52 : ℤ) * termSizes x 0 as ≤ 10 * (2 * u) * ((1 + 12 * u) * T) := by
    rw [e]
    refine mul_le_mul (by nlinarith) (c2.trans (mul_le_mul_of_nonneg_left t1 (by linarith))) n0 (by positivity)
  have h3 : (2 : ℝ) ^ (-1072 : ℤ) * coefficientSizes as ≤ u * T := by
    have b1 : coefficientSizes as ≤ 2 ^ (21 : ℤ) := by
      refine c3.trans ?_
      have : (1 + 12 * u) * coefficientSizes bs ≤ 2 * 10 ^ 6 :=
        mul_le_mul (by linarith) hC (coefficientSizes_nonneg bs) (by norm_num)
      exact this.trans (by norm_num)
    calc (2 : ℝ) ^ (-1072 : ℤ) * coefficientSizes as ≤ 2 ^ (-1072 : ℤ) * 2 ^ (21 : ℤ) :=
          mul_le_mul_of_nonneg_left b1 (two_zpow_pos _).le
      _ = 2 ^ (-1051 : ℤ) := by rw [← zpow_add₀ (by norm_num)]; norm_num
      _ ≤ 2 ^ (-53 : ℤ) := two_zpow_le (by norm_num)
      _ = u := by unfold u; norm_num
      _ ≤ u * T := le_mul_of_one_le_right hu.le hT1
  have h4 : |Poly.evalY as x - Poly.evalY bs x| ≤ 12 * u * T :=
    c1.trans (mul_le_mul_of_nonneg_left t1 (by positivity))
  have := abs_sub_le (Double.evalY L.toLibrary as x) (Poly.evalY as x) (Poly.evalY bs x)
  have h5 : u * (u * T) ≤ 1 / 10 ^ 12 * (u * T) := mul_le_mul_of_nonneg_right hu' (by positivity)
  have h6 : 0 ≤ u * T := by positivity
  nlinarith

/-- What is known of a computed list. -/
def Fits (as bs : List ℝ) : Prop :=
  List.Forall₂ Coefficient as bs ∧ as.length = 7 ∧ termSizes 90 0 bs ≤ 98400 ∧ coefficientSizes bs ≤ 10 ^ 6

theorem literal {a : ℝ} (h : 1 ≤ |a|) : Coefficient (rnd a) a := coefficient_literal (le_trans (by norm_num) h)

theorem literal_neg {a : ℝ} (h : 1 ≤ a) : Coefficient (rnd (-a)) (-a) :=
  literal (by rw [abs_neg]; exact h.trans (le_abs_self a))

theorem literal_pos {a : ℝ} (h : 1 ≤ a) : Coefficient (rnd a) a := literal (h.trans (le_abs_self a))

theorem scaled_neg {c : ℝ} {i : ℤ} (h1 : 1 ≤ c) (h2 : c ≤ 10) (hi : -11 ≤ i) (hi' : i ≤ 0) :
    Coefficient (Sun.scaled L (-c) i) (-c * 10 ^ i) := by
  have e : |-c| = c := by rw [abs_neg, abs_of_nonneg (by linarith)]
  exact coefficient_scaled L (by rw [e]; exact h1) (by rw [e]; exact h2) hi hi'

theorem scaled_pos {c : ℝ} {i : ℤ} (h1 : 1 ≤ c) (h2 : c ≤ 10) (hi : -11 ≤ i) (hi' : i ≤ 0) :
    Coefficient (Sun.scaled L c i) (c * 10 ^ i) := by
  have e : |c| = c := abs_of_nonneg (by linarith)
  exact coefficient_scaled L (by rw [e]; exact h1) (by rw [e]; exact h2) hi hi'

theorem imperial_clear : Fits [rnd (-3.9241), rnd (5.9276), Sun.scaled L (-1.7856) (-1), Sun.scaled L (3.223) (-3), Sun.scaled L (-3.3549) (-5), Sun.scaled L (1.8053) (-7), Sun.scaled L (-3.7868) (-10)]
    [-3.9241, 5.9276, -1.7856 * 10 ^ (-1 : ℤ), 3.223 * 10 ^ (-3 : ℤ), -3.3549 * 10 ^ (-5 : ℤ), 1.8053 * 10 ^ (-7 : ℤ), -3.7868 * 10 ^ (-10 : ℤ)] := by
  refine ⟨.cons (literal_neg (a := 3.9241) (by norm_num))
      (.cons (literal_pos (a := 5.9276) (by norm_num))
      (.cons (scaled_neg L (c := 1.7856) (i := -1) (by norm_num) (by norm_num) (by norm_num) (by norm_num))
      (.cons (scaled_pos L (c := 3.223) (i := -3) (by norm_num) (by norm_num) (by norm_num) (by norm_num))
      (.cons (scaled_neg L (c := 3.3549) (i := -5) (by norm_num) (by norm_num) (by norm_num) (by norm_num))
      (.cons (scaled_pos L (c := 1.8053) (i := -7) (by norm_num) (by norm_num) (by norm_num) (by norm_num))
      (.cons (scaled_neg L (c := 3.7868) (i := -10) (by norm_num) (by norm_num) (by norm_num) (by norm_num)) .nil)))))), rfl, ?_, ?_⟩
  · norm_num [termSizes, abs_of_pos]
  · norm_num [coefficientSizes, abs_of_pos]

theorem imperial_industrial : Fits [rnd (4.9408), rnd (1.3202), Sun.scaled L (6.1444) (-2), Sun.scaled L (-2.9411) (-3), Sun.scaled L (5.07752) (-5), Sun.scaled L (-4.03627) (-7), Sun.scaled L (1.22967) (-9)]
    [4.9408, 1.3202, 6.1444 * 10 ^ (-2 : ℤ), -2.9411 * 10 ^ (-3 : ℤ), 5.07752 * 10 ^ (-5 : ℤ), -4.03627 * 10 ^ (-7 : ℤ), 1.22967 * 10 ^ (-9 : ℤ)] := by
  refine ⟨.cons (literal_pos (a := 4.9408) (by norm_num))
      (.cons (literal_pos (a := 1.3202) (by norm_num))
      (.cons (scaled_pos L (c := 6.1444) (i := -2) (by norm_num) (by norm_num) (by norm_num) (by norm_num))
      (.cons (scaled_neg L (c := 2.9411) (i := -3) (by norm_num) (by norm_num) (by norm_num) (by norm_num))
      (.cons (scaled_pos L (c := 5.07752) (i := -5) (by norm_num) (by norm_num) (by norm_num) (by norm_num))
      (.cons (scaled_neg L (c := 4.03627) (i := -7) (by norm_num) (by norm_num) (by norm_num) (by norm_num))
      (.cons (scaled_pos L (c := 1.22967) (i := -9) (by norm_num) (by norm_num) (by norm_num) (by norm_num)) .nil)))))), rfl, ?_, ?_⟩
  · norm_num [termSizes, abs_of_pos]
  · norm_num [coefficientSizes, abs_of_pos]

theorem metric_clear : Fits [rnd (-42.2391), rnd (63.8044), rnd (-1.9220), Sun.scaled L (3.46921) (-2), Sun.scaled L (-3.61118) (-4), Sun.scaled L (1.94318) (-6), Sun.scaled L (-4.07608) (-9)]
    [-42.2391, 63.8044, -1.9220, 3.46921 * 10 ^ (-2 : ℤ), -3.61118 * 10 ^ (-4 : ℤ), 1.94318 * 10 ^ (-6 : ℤ), -4.07608 * 10 ^ (-9 : ℤ)] := by
  refine ⟨.cons (literal_neg (a := 42.2391) (by norm_num))
      (.cons (literal_pos (a := 63.8044) (by norm_num))
      (.cons (literal_neg (a := 1.9220) (by norm_num))
      (.cons (scaled_pos L (c := 3.46921) (i := -2) (by norm_num) (by norm_num) (by norm_num) (by norm_num))
      (.cons (scaled_neg L (c := 3.61118) (i := -4) (by norm_num) (by norm_num) (by norm_num) (by norm_num))
      (.cons (scaled_pos L (c := 1.94318) (i := -6) (by norm_num) (by norm_num) (by norm_num) (by norm_num))
      (.cons (scaled_neg L (c := 4.07608) (i := -9) (by norm_num) (by norm_num) (by norm_num) (by norm_num)) .nil)))))), rfl, ?_, ?_⟩
  · norm_num [termSizes, abs_of_pos]
  · norm_num [coefficientSizes, abs_of_pos]

theorem metric_industrial : Fits [rnd (53.1821), rnd (14.2110), Sun.scaled L (6.6138) (-1), Sun.scaled L (-3.1658) (-2), Sun.scaled L (5.4654) (-4), Sun.scaled L (-4.3446) (-6), Sun.scaled L (1.3236) (-8)]
    [53.1821, 14.2110, 6.6138 * 10 ^ (-1 : ℤ), -3.1658 * 10 ^ (-2 : ℤ), 5.4654 * 10 ^ (-4 : ℤ), -4.3446 * 10 ^ (-6 : ℤ), 1.3236 * 10 ^ (-8 : ℤ)] := by
  refine ⟨.cons (literal_pos (a := 53.1821) (by norm_num))
      (.cons (literal_pos (a := 14.2110) (by norm_num))
      (.cons (scaled_pos L (c := 6.6138) (i := -1) (by norm_num) (by norm_num) (by norm_num) (by norm_num))
      (.cons (scaled_neg L (c := 3.1658) (i := -2) (by norm_num) (by norm_num) (by norm_num) (by norm_num))
      (.cons (scaled_pos L (c := 5.4654) (i := -4) (by norm_num) (by norm_num) (by norm_num) (by norm_num))
      (.cons (scaled_neg L (c := 4.3446) (i := -6) (by norm_num) (by norm_num) (by norm_num) (by norm_num))
      (.cons (scaled_pos L (c := 1.3236) (i := -8) (by norm_num) (by norm_num) (by norm_num) (by norm_num)) .nil)))))), rfl, ?_, ?_⟩
  · norm_num [termSizes, abs_of_pos]
  · norm_num [coefficientSizes, abs_of_pos]

theorem atmosphere_error {s : UnitSystem} {q : Atmosphere} {bs : List ℝ} (h : Verif.Sun.atmosphere s q = some bs) : ∃ as,
    Double.Sun.atmosphere L s q = some as ∧ Fits as bs := by
  cases s <;> cases q <;> first | cases h
  · exact ⟨_, rfl, imperial_clear L⟩
  · exact ⟨_, rfl, imperial_industrial L⟩
  · exact ⟨_, rfl, metric_clear L⟩
  · exact ⟨_, rfl, metric_industrial L⟩

theorem elevation_error {s : UnitSystem} (hs : s ≠ .null) : List.Forall₂ Coefficient (Double.Sun.elevation L s) (Verif.Sun.elevation s) ∧
    (Double.Sun.elevation L s).length = 3 ∧ termSizes 15000 0 (Verif.Sun.elevation s) ≤ 5.3 ∧
    coefficientSizes (Verif.Sun.elevation s) ≤ 10 ^ 6 := by
  cases s with
  | null => exact absurd rfl hs
  | imperial =>
    refine ⟨.cons (coefficient_exact 1) (.cons (coefficient_scaled L ?_ ?_ ?_ ?_) (.cons (coefficient_scaled L ?_ ?_ ?_ ?_) .nil)),
      rfl, ?_, ?_⟩
    all_goals norm_num [termSizes, coefficientSizes, Verif.Sun.elevation, abs_of_pos]
  | metric =>
    refine ⟨.cons (coefficient_exact 1) (.cons (coefficient_scaled L ?_ ?_ ?_ ?_) (.cons (coefficient_scaled L ?_ ?_ ?_ ?_) .nil)),
      rfl, ?_, ?_⟩
    all_goals norm_num [termSizes, coefficientSizes, Verif.Sun.elevation, abs_of_pos]

theorem elevation_factor {s : UnitSystem} (hs : s ≠ .null) {z : ℝ} (h0 : 0 ≤ z) (h1 : z ≤ 15000) :
    |Poly.evalY (Verif.Sun.elevation s) z| ≤ 1.31 := by
  cases s with
  | null => exact absurd rfl hs
  | imperial =>
    unfold Verif.Sun.elevation Poly.evalY
    norm_num [Poly.yLoop]
    rw [abs_le]; constructor <;> nlinarith [sq_nonneg (z - 17500)]
  | metric =>
    unfold Verif.Sun.elevation Poly.evalY
    norm_num [Poly.yLoop]
    rw [abs_le]; constructor <;> nlinarith [sq_nonneg (z - 5180)]

/-! ## Incidence -/

theorem cos_ab {x y : ℝ} (n : ℝ) (hx : IsDouble x) (hxy : |x - y| ≤ n * u) : Ab (n + 3) 1 (L.cos x) (Real.cos y) := by
  refine ⟨?_, Real.abs_cos_le_one y⟩
  have h1 := lib_cos_near L hx
  have h2 := Real.abs_cos_sub_cos_le x y
  calc _ ≤ |L.cos x - Real.cos x| + |Real.cos x - Real.cos y| := abs_sub_le _ _ _
    _ ≤ _ := by linarith

theorem sqrt_sub {a b : ℝ} (ha : 0 ≤ a) (hb : 0 ≤ b) : |√a - √b| ≤ √|a - b| ∧ |√a - √b| * √b ≤ |a - b| := by
  have e : |√a - √b| * (√a + √b) = |a - b| := by
    rw [← abs_of_nonneg (add_nonneg (Real.sqrt_nonneg a) (Real.sqrt_nonneg b)), ← abs_mul]
    congr 1
    nlinarith [Real.mul_self_sqrt ha, Real.mul_self_sqrt hb]
  have sa := Real.sqrt_nonneg a
  have sb := Real.sqrt_nonneg b
  have h0 := abs_nonneg (√a - √b)
  refine ⟨Real.le_sqrt_of_sq_le ?_, ?_⟩
  · rw [← e, sq]
    refine mul_le_mul_of_nonneg_left ?_ h0
    rw [abs_le]; constructor <;> linarith
  · rw [← e]; exact mul_le_mul_of_nonneg_left (by linarith) h0

/-- The cosine of the angle of incidence. -/
noncomputable def cosine (altitude azimuth azimuthCable : ℝ) : ℝ :=
  Real.cos (Verif.toRadians altitude) * Real.cos (Verif.toRadians azimuth - Verif.toRadians azimuthCable)

theorem cosine_le (a b c : ℝ) : |cosine a b c| ≤ 1 := by
  unfold cosine
  rw [abs_mul]
  exact mul_le_one₀ (Real.abs_cos_le_one _) (abs_nonneg _) (Real.abs_cos_le_one _)

theorem degree_le : Units.kPi / 180 ≤ 0.0175 ∧ 0 < Units.kPi / 180 := by unfold Units.kPi; norm_num

theorem toRadians_ab {a : ℝ} (ha : |a| ≤ 400) : Ab 60 7 (Double.Sun.toRadians L a) (Verif.toRadians a) := by
  have h := Traverse.toRadians_near L (a := a) (ha.trans (by norm_num))
  rw [Verif.toRadians_eq]
  refine ⟨h, ?_⟩
  rw [abs_mul, abs_of_pos degree_le.2]
  have := degree_le
  nlinarith

theorem computed_cosine {a b c : ℝ} (ha : |a| ≤ 90) (hb : |b| ≤ 400) (hc : |c| ≤ 400) :
    |rnd (L.cos (Double.Sun.toRadians L a) * L.cos (rnd (Double.Sun.toRadians L b - Double.Sun.toRadians L c))) -
      cosine a b c| ≤ 203 * u ∧
    |rnd (L.cos (Double.Sun.toRadians L a) * L.cos (rnd (Double.Sun.toRadians L b - Double.Sun.toRadians L c)))| ≤ 1 := by
  constructor
  · have c1 := cos_ab L 60 (toRadians_double L a) (toRadians_ab L (ha.trans (by norm_num))).1
    have d1 := (toRadians_ab L hb).sub (toRadians_ab L hc) (by norm_num)
    have c2 := cos_ab L _ (rnd_isDouble _) d1.1
    have c3 := c1.mul c2 (by norm_num) (by norm_num) (by norm_num) (by norm_num)
    refine c3.1.trans (mul_le_mul_of_nonneg_right ?_ u_pos.le)
    norm_num
  · have h1 : |L.cos (Double.Sun.toRadians L a) * L.cos (rnd (Double.Sun.toRadians L b - Double.Sun.toRadians L c))| ≤ 1 := by
      rw [abs_mul]
      exact mul_le_one₀ (lib_cos_le L (toRadians_double L _)) (abs_nonneg _) (lib_cos_le L (rnd_isDouble _))
    exact (rnd_near_one h1).1

theorem back_and_forth {x : ℝ} (hx : IsDouble x) (h : |x| ≤ 1) :
    |L.sin (Double.Sun.toRadians L (Double.toDegrees L.toLibrary (L.acos x))) - √(1 - x ^ 2)| ≤ 82 * u := by
  have hu := u_pos
  have hu' : u ≤ 1 / 10 ^ 12 := by unfold u; norm_num
  have h' := abs_le.1 h
  have f := (L.acos_faithful x hx h).error_le
  have a0 := Real.arccos_nonneg x
  have a1 : Real.arccos x ≤ 3.15 := (Real.arccos_le_pi x).trans (by linarith [Real.pi_lt_d2])
  rw [abs_of_nonneg a0] at f
  have t := tiny_le_u
  have t' := tiny_small
  have tt : (2 : ℝ) ^ (-1074 : ℤ) ≤ u / 500000 := by
    rw [show (2 : ℝ) ^ (-1074 : ℤ) = 2 * 2 ^ (-1075 : ℤ) by
      rw [show (-1074 : ℤ) = 1 + -1075 by norm_num, zpow_add₀ (by norm_num)]; norm_num]
    linarith
  rw [← Real.sin_arccos]
  have g0 : |L.acos x - Real.arccos x| ≤ 7 * u := by nlinarith
  set a := Real.arccos x
  set b := L.acos x
  have hb : |b| ≤ 3.2 := by
    have := abs_sub_abs_le_abs_sub b a
    rw [abs_of_nonneg a0] at this
    linarith
  rw [toDegrees_eq]
  have r := rnd_error_le (b * ((8063664102031872 : ℤ) * (2 : ℝ) ^ (-47 : ℤ)))
  have hf : ((8063664102031872 : ℤ) * (2 : ℝ) ^ (-47 : ℤ)) ≤ 58 ∧ 0 ≤ ((8063664102031872 : ℤ) * (2 : ℝ) ^ (-47 : ℤ)) := by norm_num
  have hd : |((8063664102031872 : ℤ) * (2 : ℝ) ^ (-47 : ℤ)) - 180 / Units.kPi| ≤ 128 * u := by
    unfold u Units.kPi; rw [abs_le]; norm_num
  generalize ((8063664102031872 : ℤ) * (2 : ℝ) ^ (-47 : ℤ)) = F at *
  generalize (2 : ℝ) ^ (-1075 : ℤ) = η at *
  have k0 : 0 < Units.kPi := by unfold Units.kPi; norm_num
  have bF : |b * F| ≤ 186 := by rw [abs_mul, abs_of_nonneg hf.2]; nlinarith [abs_nonneg b]
  have g1 : |b * F - a * (180 / Units.kPi)| ≤ 816 * u := by
    rw [show b * F - a * (180 / Units.kPi) = (b - a) * F + a * (F - 180 / Units.kPi) by ring]
    refine (abs_add_le _ _).trans ?_
    rw [abs_mul, abs_mul, abs_of_nonneg hf.2, abs_of_nonneg a0]
    have q1 : |b - a| * F ≤ 7 * u * 58 := mul_le_mul g0 hf.1 hf.2 (by positivity)
    have q2 : a * |F - 180 / Units.kPi| ≤ 3.15 * (128 * u) := mul_le_mul a1 hd (abs_nonneg _) (by norm_num)
    linarith
  have g2 : |rnd (b * F) - a * (180 / Units.kPi)| ≤ 1010 * u := by
    have := abs_sub_le (rnd (b * F)) (b * F) (a * (180 / Units.kPi))
    have := mul_le_mul_of_nonneg_left bF hu.le
    linarith
  have big : |rnd (b * F)| ≤ 721 := by
    have q : |rnd (b * F)| ≤ |rnd (b * F) - b * F| + |b * F| := by
      have := abs_add_le (rnd (b * F) - b * F) (b * F); rwa [sub_add_cancel] at this
    have := mul_le_mul_of_nonneg_left bF hu.le
    linarith
  have g3 := Traverse.toRadians_near L big
  have g4 : |rnd (b * F) * (Units.kPi / 180) - a| ≤ 18 * u := by
    have e : rnd (b * F) * (Units.kPi / 180) - a = (rnd (b * F) - a * (180 / Units.kPi)) * (Units.kPi / 180) := by
      field_simp
    rw [e, abs_mul, abs_of_pos degree_le.2]
    have := mul_le_mul g2 degree_le.1 degree_le.2.le (by positivity)
    linarith
  have s1 := lib_sin_near L (toRadians_double L (rnd (b * F)))
  set θ := Double.Sun.toRadians L (rnd (b * F))
  have g5 := abs_sub_le θ (rnd (b * F) * (Units.kPi / 180)) a
  have g6 := Real.abs_sin_sub_sin_le θ a
  have g7 := abs_sub_le (L.sin θ) (Real.sin θ) (Real.sin a)
  linarith

theorem sine_error {a b c : ℝ} (ha : |a| ≤ 90) (hb : |b| ≤ 400) (hc : |c| ≤ 400) : ∃ i,
    Double.Sun.incidence L a b c = some i ∧
    |L.sin (Double.Sun.toRadians L i) - √(1 - cosine a b c ^ 2)| ≤ 2 ^ (-22 : ℤ) ∧
    (1 / 16 ≤ √(1 - cosine a b c ^ 2) →
      |L.sin (Double.Sun.toRadians L i) - √(1 - cosine a b c ^ 2)| ≤ 2 ^ (-40 : ℤ)) := by
  have hu := u_pos
  obtain ⟨h1, h2⟩ := computed_cosine L ha hb hc
  have hd := rnd_isDouble (L.cos (Double.Sun.toRadians L a) *
    L.cos (rnd (Double.Sun.toRadians L b - Double.Sun.toRadians L c)))
  set x := rnd (L.cos (Double.Sun.toRadians L a) * L.cos (rnd (Double.Sun.toRadians L b - Double.Sun.toRadians L c))) with hx
  have h3 := back_and_forth L hd h2
  have h4 := cosine_le a b c
  refine ⟨Double.toDegrees L.toLibrary (L.acos x), ?_, ?_⟩
  · unfold Double.Sun.incidence Double.Sun.acos
    rw [← hx, if_pos (abs_le.1 h2)]; rfl
  set y := cosine a b c
  set S := L.sin (Double.Sun.toRadians L (Double.toDegrees L.toLibrary (L.acos x)))
  have x1 : 0 ≤ 1 - x ^ 2 := by have := (sq_le_one_iff_abs_le_one x).2 h2; linarith
  have y1 : 0 ≤ 1 - y ^ 2 := by have := (sq_le_one_iff_abs_le_one y).2 h4; linarith
  have d : |1 - x ^ 2 - (1 - y ^ 2)| ≤ 406 * u := by
    rw [show 1 - x ^ 2 - (1 - y ^ 2) = -((x - y) * (x + y)) by ring, abs_neg, abs_mul]
    have := abs_add_le x y
    have := mul_le_mul h1 (by linarith : |x + y| ≤ 2) (abs_nonneg _) (by positivity)
    linarith
  obtain ⟨q1, q2⟩ := sqrt_sub x1 y1
  have t := abs_sub_le S (√(1 - x ^ 2)) (√(1 - y ^ 2))
  constructor
  · have q3 : √|1 - x ^ 2 - (1 - y ^ 2)| ≤ 0.9 * 2 ^ (-22 : ℤ) := by
      rw [Real.sqrt_le_left (by positivity)]
      refine d.trans ?_
      unfold u; norm_num
    have q4 : 82 * u ≤ 0.1 * 2 ^ (-22 : ℤ) := by unfold u; norm_num
    generalize (2 : ℝ) ^ (-22 : ℤ) = w at *
    linarith
  · intro g
    have q3 : |√(1 - x ^ 2) - √(1 - y ^ 2)| ≤ 6496 * u := by
      have := mul_le_mul_of_nonneg_left g (abs_nonneg (√(1 - x ^ 2) - √(1 - y ^ 2)))
      linarith
    have q4 : (2 : ℝ) ^ (-40 : ℤ) = 8192 * u := by unfold u; norm_num
    rw [q4]; linarith

theorem exact_radiation (cs : List ℝ) (s : UnitSystem) (z a b c : ℝ) : Verif.Sun.radiation cs s z a b c =
    some (Poly.evalY cs a * √(1 - cosine a b c ^ 2) * Poly.evalY (Verif.Sun.elevation s) z) := by
  have h := cosine_le a b c
  have k0 : Units.kPi ≠ 0 := by unfold Units.kPi; norm_num
  unfold Verif.Sun.radiation Verif.Sun.incidence
  unfold Verif.Sun.acos
  rw [if_pos (by exact abs_le.1 h)]
  simp only [Option.map_some]
  rw [show Verif.toRadians (Verif.toDegrees (Real.arccos (Real.cos (Verif.toRadians a) *
    Real.cos (Verif.toRadians b - Verif.toRadians c)))) = Real.arccos (cosine a b c) by
      rw [Verif.toRadians_eq, Verif.toDegrees_eq]; unfold cosine; field_simp, Real.sin_arccos]

theorem radiation_error {p P s S e E δ : ℝ} (hp : |p - P| ≤ 3400000 * u) (hs : |s - S| ≤ δ) (hs1 : |s| ≤ 1) (hS : |S| ≤ 1)
    (he : |e - E| ≤ 190 * u) (hE : |E| ≤ 1.31) (δ0 : 0 ≤ δ) :
    |rnd (rnd (p * s) * e) - P * S * E| ≤ 1.32 * δ * |P| + 200 * u * |P| + 2 ^ (-30 : ℤ) := by
  have hu := u_pos
  have hu' : u ≤ 1 / 10 ^ 15 := by unfold u; norm_num
  have P0 := abs_nonneg P
  have r1 := rnd_error_le (p * s)
  have r2 := rnd_error_le (rnd (p * s) * e)
  have t := tiny_small
  generalize (2 : ℝ) ^ (-1075 : ℤ) = η at *
  have p1 : |p| ≤ |P| + 3400000 * u := by have := abs_sub_abs_le_abs_sub p P; linarith
  have e1 : |e| ≤ 1.32 := by have := abs_sub_abs_le_abs_sub e E; linarith
  have q0 : |p * s| ≤ |P| + 3400000 * u := by
    rw [abs_mul]; exact (mul_le_of_le_one_right (abs_nonneg p) hs1).trans p1
  have q1 : |p * s - P * S| ≤ 3400000 * u + |P| * δ := by
    rw [show p * s - P * S = (p - P) * s + P * (s - S) by ring]
    refine (abs_add_le _ _).trans ?_
    rw [abs_mul, abs_mul]
    exact add_le_add ((mul_le_of_le_one_right (abs_nonneg _) hs1).trans hp) (mul_le_mul_of_nonneg_left hs P0)
  have uA : u * (3400000 * u) ≤ u := by nlinarith
  have q2 : |rnd (p * s) - P * S| ≤ 3400002 * u + |P| * δ + u * |P| := by
    have := abs_sub_le (rnd (p * s)) (p * s) (P * S)
    have := mul_le_mul_of_nonneg_left q0 hu.le
    nlinarith
  have PS : |P * S| ≤ |P| := by rw [abs_mul]; exact mul_le_of_le_one_right P0 hS
  have q3 : |rnd (p * s) * e - P * S * E| ≤ 1.32 * (3400002 * u + |P| * δ + u * |P|) + |P| * (190 * u) := by
    rw [show rnd (p * s) * e - P * S * E = (rnd (p * s) - P * S) * e + P * S * (e - E) by ring]
    refine (abs_add_le _ _).trans ?_
    rw [abs_mul, abs_mul]
    refine add_le_add ?_ (mul_le_mul PS he (abs_nonneg _) P0)
    rw [mul_comm]
    exact mul_le_mul e1 q2 (abs_nonneg _) (by norm_num)
  have q4 : |rnd (p * s)| ≤ |P| + 3400001 * u + u * |P| + u := by
    have q : |rnd (p * s)| ≤ |rnd (p * s) - p * s| + |p * s| := by
      have := abs_add_le (rnd (p * s) - p * s) (p * s); rwa [sub_add_cancel] at this
    have := mul_le_mul_of_nonneg_left q0 hu.le
    nlinarith
  have q5 : |rnd (p * s) * e| ≤ 2 * |P| + 1 := by
    rw [abs_mul]
    have := mul_le_mul q4 e1 (abs_nonneg _) (by positivity)
    have : u * |P| ≤ 1 / 10 ^ 15 * |P| := mul_le_mul_of_nonneg_right hu' P0
    linarith
  have := abs_sub_le (rnd (rnd (p * s) * e)) (rnd (p * s) * e) (P * S * E)
  have := mul_le_mul_of_nonneg_left q5 hu.le
  have e30 : (2 : ℝ) ^ (-30 : ℤ) = 8388608 * u := by unfold u; norm_num
  rw [e30]
  nlinarith

end RadiationDouble

open RadiationDouble

/-- **C199** (solar radiation): for a sun above the horizon and a site up to 15000 high, the radiation computed in `double`
arithmetic is a number, and it differs from the formula with the same position of the sun by at most 2^-30 and one part in
2^21 of the radiation of the sky at sea level; where the rays are at least about four degrees off the axis of the cable, by
at most 2^-30 and one part in 2^39. -/
theorem C199_radiation (L : SunLibrary) {s : UnitSystem} {q : Atmosphere} {cs : List ℝ}
    (h : Verif.Sun.atmosphere s q = some cs) {z a b c : ℝ} (hz : IsDouble z) (hz0 : 0 ≤ z) (hz1 : z ≤ 15000)
    (ha : IsDouble a) (ha0 : 0 ≤ a) (ha1 : a ≤ 90) (hb : |b| ≤ 400) (hc : |c| ≤ 400) : ∃ ds x y,
    Double.Sun.atmosphere L s q = some ds ∧ Verif.Sun.radiation cs s z a b c = some x ∧
    Double.Sun.radiation L ds s z a b c = some y ∧
    |y - x| ≤ 2 ^ (-21 : ℤ) * |Poly.evalY cs a| + 2 ^ (-30 : ℤ) ∧
    (|Real.cos (Verif.toRadians a) * Real.cos (Verif.toRadians b - Verif.toRadians c)| ≤ 0.998 →
      |y - x| ≤ 2 ^ (-39 : ℤ) * |Poly.evalY cs a| + 2 ^ (-30 : ℤ)) := by
  have hu := u_pos
  obtain ⟨ds, d1, d2, d3, d4, d5⟩ := atmosphere_error L h
  have hs : s ≠ .null := by rintro rfl; simp [Verif.Sun.atmosphere] at h
  obtain ⟨e1, e2, e3, e4⟩ := elevation_error L hs
  obtain ⟨i, i1, i2, i3⟩ := sine_error L (a := a) (b := b) (c := c) (by rw [abs_of_nonneg ha0]; exact ha1) hb hc
  have P := polynomial_error L ha (X := 90) (by rw [abs_of_nonneg ha0, abs_of_pos (by norm_num)]; exact ha1) d2 d3.le d4
    (by norm_num) d5
  have E := polynomial_error L hz (X := 15000) (by rw [abs_of_nonneg hz0, abs_of_pos (by norm_num)]; exact hz1) e1
    (by rw [e2]; norm_num) e3 (by norm_num) e4
  have P' : |Double.evalY L.toLibrary ds a - Poly.evalY cs a| ≤ 3400000 * u := P.trans (by nlinarith)
  have E' : |Double.evalY L.toLibrary (Double.Sun.elevation L s) z - Poly.evalY (Verif.Sun.elevation s) z| ≤ 190 * u :=
    E.trans (by nlinarith)
  have F := elevation_factor hs hz0 hz1
  have s1 : |L.sin (Double.Sun.toRadians L i)| ≤ 1 := lib_sin_le L (toRadians_double L i)
  have S1 : |√(1 - cosine a b c ^ 2)| ≤ 1 := by
    rw [abs_of_nonneg (Real.sqrt_nonneg _)]
    exact Real.sqrt_le_one.2 (by nlinarith [sq_nonneg (cosine a b c)])
  have P0 := abs_nonneg (Poly.evalY cs a)
  refine ⟨ds, _, _, d1, exact_radiation cs s z a b c, by unfold Double.Sun.radiation; rw [i1]; rfl, ?_, fun g => ?_⟩
  · have k := radiation_error P' i2 s1 S1 E' F (by positivity)
    refine k.trans (add_le_add ?_ le_rfl)
    have : 200 * u ≤ 0.1 * 2 ^ (-22 : ℤ) := by unfold u; norm_num
    have e : (2 : ℝ) ^ (-21 : ℤ) = 2 * 2 ^ (-22 : ℤ) := by norm_num
    rw [e]; nlinarith
  · have g' : |cosine a b c| ≤ 0.998 := g
    have big : 1 / 16 ≤ √(1 - cosine a b c ^ 2) := by
      refine Real.le_sqrt_of_sq_le ?_
      have := sq_le_sq' (by linarith [(abs_le.1 g').1] : -(0.998 : ℝ) ≤ cosine a b c) (abs_le.1 g').2
      norm_num at this ⊢
      linarith
    have k := radiation_error P' (i3 big) s1 S1 E' F (by positivity)
    refine k.trans (add_le_add ?_ le_rfl)
    have e : (2 : ℝ) ^ (-39 : ℤ) = 16384 * u := by unfold u; norm_num
    have e' : (2 : ℝ) ^ (-40 : ℤ) = 8192 * u := by unfold u; norm_num
    rw [e, e']; nlinarith

/-- Noon in June for a cable that runs north, 1500 m high: the hypotheses hold and the finer bound applies. -/
example : Verif.Sun.atmosphere .metric .clear ≠ none ∧ IsDouble 1500 ∧ IsDouble 72.5 ∧ (0 : ℝ) ≤ 72.5 ∧ (72.5 : ℝ) ≤ 90 ∧
    |(180 : ℝ)| ≤ 400 ∧ |(90 : ℝ)| ≤ 400 ∧
    |Real.cos (Verif.toRadians 72.5) * Real.cos (Verif.toRadians 180 - Verif.toRadians 90)| ≤ 0.998 := by
  refine ⟨by simp [Verif.Sun.atmosphere], ⟨1500, 0, by norm_num, by norm_num, by norm_num⟩,
    ⟨145, -1, by norm_num, by norm_num, by norm_num⟩, by norm_num, by norm_num, by norm_num [abs_of_pos],
    by norm_num [abs_of_pos], ?_⟩
  have h : |Real.cos (Verif.toRadians 180 - Verif.toRadians 90)| ≤ 0.998 := by
    have e : Verif.toRadians 180 - Verif.toRadians 90 = Units.kPi / 2 := by rw [Verif.toRadians_eq, Verif.toRadians_eq]; ring
    rw [e]
    have k1 : |Units.kPi / 2 - Real.pi / 2| ≤ 0.1 := by
      unfold Units.kPi; rw [abs_le]; constructor <;> linarith [Real.pi_gt_d2, Real.pi_lt_d2]
    have k2 := Real.abs_cos_sub_cos_le (Units.kPi / 2) (Real.pi / 2)
    rw [Real.cos_pi_div_two, sub_zero] at k2
    linarith
  rw [abs_mul]
  calc _ ≤ 1 * |Real.cos (Verif.toRadians 180 - Verif.toRadians 90)| :=
        mul_le_mul_of_nonneg_right (Real.abs_cos_le_one _) (abs_nonneg _)
    _ ≤ 0.998 := by rw [one_mul]; exact h

/-- **C199** (resistance): the resistance taken from a table of doubles differs from the exact interpolation or
extrapolation between the same two rows by at most one part in 2^48 of the two terms that are added. -/
theorem C199_resistance {k : Cable} {t : ℝ} (ht : IsDouble t) (ht' : |t| ≤ 1000)
    (h : ∀ p ∈ k.resistances, IsDouble p.temperature ∧ IsDouble p.resistance ∧ |p.temperature| ≤ 1000 ∧
      2 ^ (-900 : ℤ) ≤ |p.resistance|) (hn : 2 ≤ k.resistances.length) : ∃ p ∈ k.resistances, ∃ q ∈ k.resistances,
    let d := (t - p.temperature) * ((q.resistance - p.resistance) / (q.temperature - p.temperature))
    k.resistance t = p.resistance + d ∧
    |Double.tableResistance k t - k.resistance t| ≤ 2 ^ (-48 : ℤ) * (|p.resistance| + |d|) := by
  have key : ∀ (rest : List ResistancePoint) (p q : ResistancePoint),
      (Cable.resistanceSearch t p q rest).1 ∈ p :: q :: rest ∧ (Cable.resistanceSearch t p q rest).2 ∈ p :: q :: rest := by
    intro rest
    induction rest with
    | nil => intro p q; simp [Cable.resistanceSearch]
    | cons r rest ih =>
      intro p q
      unfold Cable.resistanceSearch
      split_ifs
      · simp
      · simp
      · exact ⟨List.mem_cons_of_mem _ (ih q r).1, List.mem_cons_of_mem _ (ih q r).2⟩
  match hk : k.resistances with
  | [] => simp [hk] at hn
  | [_] => simp [hk] at hn
  | p :: q :: rest =>
    rw [hk] at h
    obtain ⟨m1, m2⟩ := key rest p q
    refine ⟨_, m1, _, m2, ?_⟩
    obtain ⟨x1, x2, x3, x4⟩ := h _ m1
    obtain ⟨y1, y2, y3, y4⟩ := h _ m2
    have e1 : k.resistance t = Helper.linearY (Cable.resistanceSearch t p q rest).1.temperature
        (Cable.resistanceSearch t p q rest).1.resistance (Cable.resistanceSearch t p q rest).2.temperature
        (Cable.resistanceSearch t p q rest).2.resistance t := by unfold Cable.resistance; rw [hk]
    have e2 : Double.tableResistance k t = Double.linearY (Cable.resistanceSearch t p q rest).1.temperature
        (Cable.resistanceSearch t p q rest).1.resistance (Cable.resistanceSearch t p q rest).2.temperature
        (Cable.resistanceSearch t p q rest).2.resistance t := by unfold Double.tableResistance; rw [hk]
    generalize (Cable.resistanceSearch t p q rest).1 = P at *
    generalize (Cable.resistanceSearch t p q rest).2 = Q at *
    have g := C174_accuracy x1 x2 y1 y2 ht
    have e3 : k.resistance t = P.resistance +
        (t - P.temperature) * ((Q.resistance - P.resistance) / (Q.temperature - P.temperature)) := by
      rw [e1]; unfold Helper.linearY; ring
    refine ⟨e3, ?_⟩
    rw [e3, e2]
    refine g.trans ?_
    have a1 : |t - P.temperature| ≤ 2000 := (abs_sub _ _).trans (by linarith)
    have tiny : (2 : ℝ) ^ (-1073 : ℤ) * (|t - P.temperature| + 1) ≤ 2 ^ (-49 : ℤ) * |P.resistance| := by
      calc (2 : ℝ) ^ (-1073 : ℤ) * (|t - P.temperature| + 1) ≤ 2 ^ (-1073 : ℤ) * 2 ^ (11 : ℤ) :=
            mul_le_mul_of_nonneg_left (by norm_num; linarith) (two_zpow_pos _).le
        _ = 2 ^ (-1062 : ℤ) := by rw [← zpow_add₀ (by norm_num)]; norm_num
        _ ≤ 2 ^ (-49 : ℤ) * 2 ^ (-900 : ℤ) := by rw [← zpow_add₀ (by norm_num)]; exact two_zpow_le (by norm_num)
        _ ≤ 2 ^ (-49 : ℤ) * |P.resistance| := mul_le_mul_of_nonneg_left x4 (two_zpow_pos _).le
    have e4 : (2 : ℝ) ^ (-48 : ℤ) = 2 * 2 ^ (-49 : ℤ) := by
      rw [show (-48 : ℤ) = 1 + -49 by norm_num, zpow_add₀ (by norm_num)]; norm_num
    rw [e4]
    have w0 := two_zpow_pos (-49)
    have := abs_nonneg ((t - P.temperature) * ((Q.resistance - P.resistance) / (Q.temperature - P.temperature)))
    clear e4 g
    generalize (2 : ℝ) ^ (-49 : ℤ) = w at *
    generalize |(t - P.temperature) * ((Q.resistance - P.resistance) / (Q.temperature - P.temperature))| = D at *
    generalize (2 : ℝ) ^ (-1073 : ℤ) * (|t - P.temperature| + 1) = T at *
    nlinarith

/-- A table with two rows that meets the hypotheses. -/
example : ∀ p ∈ ([⟨2 ^ (-17 : ℤ), 25⟩, ⟨5 * 2 ^ (-19 : ℤ), 75⟩] : List ResistancePoint), IsDouble p.temperature ∧
    IsDouble p.resistance ∧ |p.temperature| ≤ 1000 ∧ 2 ^ (-900 : ℤ) ≤ |p.resistance| := by
  intro p hp
  simp only [List.mem_cons, List.not_mem_nil, or_false] at hp
  have b : (2 : ℝ) ^ (-900 : ℤ) ≤ 2 ^ (-17 : ℤ) := two_zpow_le (by norm_num)
  rcases hp with rfl | rfl
  · refine ⟨⟨25, 0, by norm_num, by norm_num, by norm_num⟩, ⟨1, -17, by norm_num, by norm_num, by norm_num⟩,
      by norm_num [abs_of_pos], ?_⟩
    rw [abs_of_pos (two_zpow_pos _)]; exact b
  · refine ⟨⟨75, 0, by norm_num, by norm_num, by norm_num⟩, ⟨5, -19, by norm_num, by norm_num, by norm_num⟩,
      by norm_num [abs_of_pos], ?_⟩
    rw [abs_of_pos (by positivity)]; exact b.trans (by norm_num)

end Verif.Props
