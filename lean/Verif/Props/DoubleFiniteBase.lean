import Verif.DoubleFiniteBase
import Verif.DoubleFiniteLemmas
import Verif.Props.DoubleUnits
import Verif.Props.DoubleHelper

/-! # Overflow in `base` (C186) -/

set_option linter.unusedSectionVars false

namespace Verif.Props

open Verif.Double Verif.Units

theorem add_size {a b : ℝ} {e f : ℤ} (ha : |a| ≤ 2 ^ e) (hb : |b| ≤ 2 ^ e) (hf : e + 1 ≤ f) : |a + b| ≤ 2 ^ f := by
  have h2 : (2 : ℝ) ^ (e + 1) = 2 ^ e * 2 := zpow_add_one₀ (by norm_num) e
  have h3 : (2 : ℝ) ^ (e + 1) ≤ 2 ^ f := two_zpow_le hf
  refine ((abs_add_le a b).trans (add_le_add ha hb)).trans ?_
  rw [← mul_two, ← h2]
  exact h3

theorem sub_size {a b : ℝ} {e f : ℤ} (ha : |a| ≤ 2 ^ e) (hb : |b| ≤ 2 ^ e) (hf : e + 1 ≤ f) : |a - b| ≤ 2 ^ f := by
  rw [sub_eq_add_neg]; exact add_size ha (by rwa [abs_neg]) hf

theorem mul_size {a b : ℝ} {e f g : ℤ} (ha : |a| ≤ 2 ^ e) (hb : |b| ≤ 2 ^ f) (hg : e + f ≤ g) : |a * b| ≤ 2 ^ g := by
  refine (abs_mul_le ha hb).trans ?_
  rw [← zpow_add₀ (by norm_num)]
  exact two_zpow_le hg

theorem rnd_size {a : ℝ} {e : ℤ} (ha : |a| ≤ 2 ^ e) (he : -1074 ≤ e) : |rnd a| ≤ 2 ^ e :=
  rnd_abs_le (isDouble_two_zpow he) ha

/-- A power of a rounded factor. -/
theorem factor_power {f F : ℝ} {e : ℤ} (h : GoodFactor f F) (he : |e| ≤ 10) :
    0 < f ∧ (2 : ℝ) ^ (-201 : ℤ) ≤ f ^ e ∧ f ^ e ≤ 2 ^ (201 : ℤ) := by
  have hF0 : 0 < F := (two_zpow_pos _).trans_le h.factor.1
  have hc := h.close.zpow e
  have hF := h.factor.zpow e
  have hFe : 0 < F ^ e := zpow_pos hF0 e
  have hn : e.natAbs ≤ 10 := by rw [Int.abs_eq_natAbs] at he; omega
  have hf0 : 0 < f := by
    obtain ⟨t, ht, h1, h2⟩ := h.close
    rw [ht]
    exact mul_pos hF0 ((pow_pos one_sub_u_pos 2).trans_le h1)
  have hfe : 0 < f ^ e := zpow_pos hf0 e
  have h1 := hc.abs_ge (by omega)
  have h2 := hc.error (by omega)
  rw [abs_of_pos hFe] at h1 h2
  rw [abs_of_pos hfe] at h1
  have l : (2 : ℝ) ^ (-200 : ℤ) ≤ F ^ e := (two_zpow_le (by omega)).trans hF.1
  have r : F ^ e ≤ (2 : ℝ) ^ (200 : ℤ) := hF.2.trans (two_zpow_le (by omega))
  have e1 : (2 : ℝ) ^ (-200 : ℤ) = 2 ^ (-201 : ℤ) * 2 := by rw [← zpow_add_one₀ (by norm_num)]; norm_num
  have e2 : (2 : ℝ) ^ (201 : ℤ) = 2 ^ (200 : ℤ) * 2 := by rw [← zpow_add_one₀ (by norm_num)]; norm_num
  have hk : 2 * ((2 * e.natAbs : ℕ) : ℝ) * u ≤ 1 := by
    have : ((2 * e.natAbs : ℕ) : ℝ) ≤ 20 := by exact_mod_cast (by omega : 2 * e.natAbs ≤ 20)
    have hu := u_small
    have hu0 := u_pos
    nlinarith
  have h3 : f ^ e ≤ F ^ e * 2 := by
    have := (abs_le.mp h2).2
    have : 2 * ((2 * e.natAbs : ℕ) : ℝ) * u * F ^ e ≤ 1 * F ^ e := mul_le_mul_of_nonneg_right hk hFe.le
    linarith
  refine ⟨hf0, ?_, ?_⟩
  · rw [e1] at l
    generalize (2 : ℝ) ^ (-201 : ℤ) = q at *
    linarith
  · rw [e2]
    generalize (2 : ℝ) ^ (200 : ℤ) = q at *
    linarith

theorem pow_ok (L : Library) {x : ℝ} {n : ℤ} {e : ℤ} (h0 : x ≠ 0 ∨ 0 ≤ n) (h : |x ^ n| ≤ 2 ^ e) (he : e ≤ 1023) :
    Finite.pow L x n = some (L.pow x n) := by
  unfold Finite.pow
  rw [if_neg (by rintro ⟨rfl, hn⟩; rcases h0 with h0 | h0; exacts [h0 rfl, absurd hn (not_lt.mpr h0)]), chkLib_ok h he]

theorem convert_ok (L : Library) {x f F : ℝ} {e : ℤ} (b : Bool) (h : GoodFactor f F) (he : |e| ≤ 10)
    (hx : |x| ≤ 2 ^ (701 : ℤ)) :
    Finite.convert L x f e b = some (Double.convert L x f e b) ∧ |Double.convert L x f e b| ≤ 2 ^ (902 : ℤ) := by
  obtain ⟨hf, h1, h2⟩ := factor_power h he
  have hfe : 0 < f ^ e := zpow_pos hf e
  have F1 := L.pow_faithful f e h.double (.inl hf.ne')
  have p1 : (2 : ℝ) ^ (-201 : ℤ) ≤ L.pow f e := F1.2.1 _ (isDouble_two_zpow (by norm_num)) h1
  have p2 : L.pow f e ≤ (2 : ℝ) ^ (201 : ℤ) := F1.2.2 _ (isDouble_two_zpow (by norm_num)) h2
  have p0 : 0 < L.pow f e := (two_zpow_pos _).trans_le p1
  have hp := pow_ok L (.inl hf.ne') (by rwa [abs_of_pos hfe]) (show (201 : ℤ) ≤ 1023 by norm_num)
  unfold Finite.convert Double.convert
  rw [hp, Option.bind_some]
  cases b with
  | true =>
    simp only [Bool.true_eq_false, if_false, Option.bind_some]
    have := mul_size (g := 902) hx (show |L.pow f e| ≤ 2 ^ (201 : ℤ) by rwa [abs_of_pos p0]) (by norm_num)
    exact ⟨chk_ok this (by norm_num), rnd_size this (by norm_num)⟩
  | false =>
    simp only [if_true]
    have q : |1 / L.pow f e| ≤ (2 : ℝ) ^ (201 : ℤ) := by
      rw [abs_of_pos (by positivity), div_le_iff₀ p0]
      calc (1 : ℝ) = 2 ^ (201 : ℤ) * 2 ^ (-201 : ℤ) := by rw [← zpow_add₀ (by norm_num)]; norm_num
        _ ≤ _ := mul_le_mul_of_nonneg_left p1 (two_zpow_pos _).le
    rw [chkDiv_ok p0.ne' q (by norm_num), Option.bind_some]
    have := mul_size (g := 902) hx (rnd_size q (by norm_num)) (by norm_num)
    exact ⟨chk_ok this (by norm_num), rnd_size this (by norm_num)⟩

/-- **C186** (units): conversions of numbers up to `2 ^ 700` in size, with exponents up to 10, do not overflow. -/
theorem C186_units (L : Library) {x : ℝ} {e : ℤ} (b : Bool) (he : |e| ≤ 10) (hx : |x| ≤ 2 ^ (700 : ℤ)) :
    (∀ t, Finite.convertAngle L x t e b = some (Double.convertAngle L x t e b)) ∧
    (∀ t, Finite.convertForce L x t e b = some (Double.convertForce L x t e b)) ∧
    (∀ t, Finite.convertLength L x t e b = some (Double.convertLength L x t e b)) ∧
    (∀ t, Finite.convertStress L x t e b = some (Double.convertStress L x t e b)) ∧
    (∀ t, Finite.convertTemperature L x t e b = some (Double.convertTemperature L x t e b)) := by
  have hx' : |x| ≤ (2 : ℝ) ^ (701 : ℤ) := hx.trans (two_zpow_le (by norm_num))
  have r : ∀ {F : ℝ}, 1 / 1000000 ≤ F → F ≤ 1000000 →
      Finite.convert L x (rnd F) e b = some (Double.convert L x (rnd F) e b) :=
    fun h1 h2 => (convert_ok L b (goodFactor_rnd (factor_of h1 h2)) he hx').1
  have d : ∀ {F : ℝ}, 1 / 1000000 ≤ F → F ≤ 1000000 → 1 / 1000000 ≤ 1 / F → 1 / F ≤ 1000000 →
      Finite.convert L x (rnd (1 / rnd F)) e b = some (Double.convert L x (rnd (1 / rnd F)) e b) :=
    fun h1 h2 h3 h4 => (convert_ok L b (goodFactor_div (factor_of h1 h2) (factor_of h3 h4)) he hx').1
  have i : ∀ {r : ℝ} (n : ℤ), (n : ℝ) = r → 1 ≤ n → n ≤ 2 ^ 20 →
      Finite.convert L x r e b = some (Double.convert L x r e b) :=
    fun n h h1 h2 => (convert_ok L b (goodFactor_literal n h h1 h2) he hx').1
  refine ⟨?_, ?_, ?_, ?_, ?_⟩
  · intro t
    cases t
    · rfl
    · exact (convert_ok L b goodFactor_radians he hx').1
    · exact (convert_ok L b goodFactor_degrees he hx').1
  · intro t
    cases t
    · rfl
    · exact d (by norm_num) (by norm_num) (by norm_num) (by norm_num)
    · exact r (by norm_num) (by norm_num)
  · intro t
    cases t
    case null => rfl
    case feetToInches => exact i 12 (by norm_num) (by norm_num) (by norm_num)
    case kilometersToMeters => exact i 1000 (by norm_num) (by norm_num) (by norm_num)
    case metersToCentimeters => exact i 100 (by norm_num) (by norm_num) (by norm_num)
    case metersToMillimeters => exact i 1000 (by norm_num) (by norm_num) (by norm_num)
    case milesToFeet => exact i 5280 (by norm_num) (by norm_num) (by norm_num)
    case metersToFeet => exact d (by norm_num) (by norm_num) (by norm_num) (by norm_num)
    all_goals exact r (by norm_num) (by norm_num)
  · intro t
    cases t
    case null => rfl
    case megaPascalToPascal => exact i 1000000 (by norm_num) (by norm_num) (by norm_num)
    case psiToPsf => exact i 144 (by norm_num) (by norm_num) (by norm_num)
    case pascalToPsf => exact d (by norm_num) (by norm_num) (by norm_num) (by norm_num)
    all_goals exact r (by norm_num) (by norm_num)
  · have small : ∀ {c : ℝ}, |c| ≤ 512 → |c| ≤ 2 ^ (700 : ℤ) := fun h =>
      h.trans (le_trans (by norm_num : (512 : ℝ) ≤ 2 ^ (9 : ℤ)) (two_zpow_le (by norm_num)))
    have k1 : |rnd 273.15| ≤ (2 : ℝ) ^ (700 : ℤ) :=
      rnd_size (small (by rw [abs_of_pos (by norm_num)]; norm_num)) (by norm_num)
    have k2 : |rnd 459.67| ≤ (2 : ℝ) ^ (700 : ℤ) :=
      rnd_size (small (by rw [abs_of_pos (by norm_num)]; norm_num)) (by norm_num)
    have a : ∀ c : ℝ, |c| ≤ 2 ^ (700 : ℤ) → chk (x + c) = some (rnd (x + c)) := fun c hc =>
      chk_ok (add_size hx hc (f := 701) (by norm_num)) (by norm_num)
    intro t
    cases t
    case null => rfl
    case celsiusToFahrenheit =>
      have h := convert_ok L (x := x) b (goodFactor_rnd (factor_of (F := 1.8) (by norm_num) (by norm_num))) he hx'
      unfold Finite.convertTemperature
      simp only [h.1, Option.bind_some]
      exact chk_ok (add_size h.2 (b := 32) (f := 903)
        ((small (by norm_num)).trans (two_zpow_le (by norm_num))) (by norm_num)) (by norm_num)
    case fahrenheitToCelsius =>
      have h := add_size hx (b := -32) (f := 701) (small (by norm_num)) (by norm_num)
      unfold Finite.convertTemperature
      simp only [chk_ok h (by norm_num), Option.bind_some]
      exact (convert_ok L b (goodFactor_div (factor_of (by norm_num) (by norm_num))
        (factor_of (by norm_num) (by norm_num))) he (rnd_size h (by norm_num))).1
    case celsiusToKelvin => exact a _ k1
    case fahrenheitToRankine => exact a _ k2
    case kelvinToCelsius => exact a _ (by rwa [abs_neg])
    case rankineToFahrenheit => exact a _ (by rwa [abs_neg])
    case kelvinToRankine => exact r (by norm_num) (by norm_num)
    case rankineToKelvin => exact d (by norm_num) (by norm_num) (by norm_num) (by norm_num)

/-- **C186** (interpolation): with numbers up to `2 ^ 300` and a distance of the points of at least `2 ^ (-300)` nothing
overflows.

Partial: with points that are nearer to each other the slope can be too large, and for points on top of each other there
is none (C186_linear_fails). -/
theorem C186_linear_partial {x1 y1 x2 y2 x : ℝ}
    (hx1 : |x1| ≤ 2 ^ (300 : ℤ)) (hx2 : |x2| ≤ 2 ^ (300 : ℤ)) (hy1 : |y1| ≤ 2 ^ (300 : ℤ))
    (hy2 : |y2| ≤ 2 ^ (300 : ℤ)) (hx : |x| ≤ 2 ^ (300 : ℤ)) (hd : 2 ^ (-300 : ℤ) ≤ |x2 - x1|) :
    Finite.linearY x1 y1 x2 y2 x = some (Double.linearY x1 y1 x2 y2 x) := by
  have a1 := sub_size hx hx1 (f := 301) (by norm_num)
  have a2 := sub_size hy2 hy1 (f := 301) (by norm_num)
  have a3 := sub_size hx2 hx1 (f := 301) (by norm_num)
  have r1 := rnd_size a1 (by norm_num)
  have r2 := rnd_size a2 (by norm_num)
  have r3 : (2 : ℝ) ^ (-300 : ℤ) ≤ |rnd (x2 - x1)| := by
    rw [← rnd_abs]; exact le_rnd (isDouble_two_zpow (by norm_num)) hd
  have p3 : 0 < |rnd (x2 - x1)| := (two_zpow_pos _).trans_le r3
  have q : |rnd (y2 - y1) / rnd (x2 - x1)| ≤ 2 ^ (601 : ℤ) := by
    rw [abs_div, div_le_iff₀ p3]
    calc |rnd (y2 - y1)| ≤ 2 ^ (301 : ℤ) := r2
      _ = 2 ^ (601 : ℤ) * 2 ^ (-300 : ℤ) := by rw [← zpow_add₀ (by norm_num)]; norm_num
      _ ≤ _ := mul_le_mul_of_nonneg_left r3 (two_zpow_pos _).le
  have t := mul_size (g := 902) r1 (rnd_size q (by norm_num)) (by norm_num)
  have s := add_size (hy1.trans (two_zpow_le (show (300 : ℤ) ≤ 902 by norm_num))) (rnd_size t (by norm_num)) (f := 903)
    (by norm_num)
  unfold Finite.linearY Double.linearY
  rw [chk_ok a1 (by norm_num), Option.bind_some, chk_ok a2 (by norm_num), Option.bind_some, chk_ok a3 (by norm_num),
    Option.bind_some, chkDiv_ok (abs_pos.mp p3) q (by norm_num), Option.bind_some, chk_ok t (by norm_num),
    Option.bind_some, chk_ok s (by norm_num)]

/-- **C186** fails for interpolation between two points with the same abscissa, whatever the other numbers are. -/
theorem C186_linear_fails (x1 y1 y2 x : ℝ) : Finite.linearY x1 y1 x1 y2 x = none := by
  have h : chk (x1 - x1) = some 0 := by
    rw [sub_self, chk_ok (e := 0) (by norm_num) (by norm_num), rnd_zero]
  unfold Finite.linearY
  rw [h]
  cases chk (x - x1) with
  | none => rfl
  | some a =>
    cases chk (y2 - y1) with
    | none => rfl
    | some b =>
      simp only [Option.bind_some]
      rw [chkDiv, if_pos rfl]; rfl

/-- **C186** (rounding): numbers up to `2 ^ 900` in size are rounded to up to 22 places without overflow. -/
theorem C186_round (L : Library) {x : ℝ} {p : ℤ} (h0 : 0 ≤ p) (h1 : p ≤ 22) (hx : |x| ≤ 2 ^ (900 : ℤ)) :
    Finite.roundTo L x p = some (Double.roundTo L x p) := by
  obtain ⟨b1, b2⟩ := ten_pow_bounds h0 h1
  have b3 : |(10 : ℝ) ^ p| ≤ 2 ^ (74 : ℤ) := by
    rw [abs_of_pos (by linarith)]; refine b2.trans (by norm_num)
  have a := mul_size (g := 974) hx b3 (by norm_num)
  have r := rnd_size a (by norm_num)
  unfold Finite.roundTo Double.roundTo
  rw [pow_ok L (.inr h0) b3 (by norm_num), Option.bind_some, pow_ten L h0 h1, chk_ok a (by norm_num), Option.bind_some]
  refine chkDiv_ok (by linarith) (e := 975) ?_ (by norm_num)
  have h := roundAway_abs_sub (rnd (x * 10 ^ p))
  have one : (1 / 2 : ℝ) ≤ 2 ^ (974 : ℤ) := le_trans (by norm_num) (two_zpow_le (show (0 : ℤ) ≤ 974 by norm_num))
  have s := add_size (h.trans one) r (f := 975) (by norm_num)
  rw [sub_add_cancel] at s
  rw [abs_div, abs_of_pos (show (0 : ℝ) < 10 ^ p by linarith)]
  exact (div_le_self (abs_nonneg _) b1).trans s

/-- **C186** (polynomials): with `n` coefficients up to `2 ^ b` in size, and an argument up to `2 ^ a`, nothing overflows
as long as `b + (a + 1) n` is at most 1023. -/
theorem C186_polynomial (L : Library) {x : ℝ} (hx : IsDouble x) {cs : List ℝ} {a b : ℕ} (hxa : |x| ≤ 2 ^ a)
    (hc : ∀ c ∈ cs, |c| ≤ 2 ^ b) (hn : b + (a + 1) * cs.length ≤ 1023) :
    Finite.evalY L cs x = some (Double.evalY L cs x) := by
  have loop : ∀ (cs : List ℝ) (n : ℕ) (y : ℝ), (∀ c ∈ cs, |c| ≤ 2 ^ b) → b + (a + 1) * (n + cs.length) ≤ 1023 →
      |y| ≤ 2 ^ ((b + (a + 1) * n : ℕ) : ℤ) → Finite.yLoop L x n cs y = some (Double.yLoop L x n cs y) := by
    intro cs
    induction cs with
    | nil => intro n y _ _ _; rfl
    | cons c cs ih =>
      intro n y hc hn hy
      have hlen : (c :: cs).length = cs.length + 1 := rfl
      have e1 : |x ^ (n : ℤ)| ≤ 2 ^ ((a * n : ℕ) : ℤ) := by
        rw [zpow_natCast, zpow_natCast, abs_pow, pow_mul]
        exact pow_le_pow_left₀ (abs_nonneg x) hxa n
      have e2 := (L.pow_faithful x n hx (.inr (by omega))).abs_le (isDouble_two_zpow (by omega)) e1
      have hc0 : |c| ≤ 2 ^ (b : ℤ) := by rw [zpow_natCast]; exact hc c (by simp)
      have l1 : a * n ≤ (a + 1) * n := Nat.mul_le_mul_right n (by omega)
      have l2 : (a + 1) * (n + 1) = (a + 1) * n + (a + 1) := by ring
      have l3 : (a + 1) * (n + 1) ≤ (a + 1) * (n + (c :: cs).length) := Nat.mul_le_mul_left _ (by omega)
      have t := mul_size (g := ((b + (a + 1) * n : ℕ) : ℤ)) hc0 e2 (by exact_mod_cast Nat.add_le_add_left l1 b)
      have s := add_size hy (rnd_size t (by omega)) (f := ((b + (a + 1) * (n + 1) : ℕ) : ℤ)) (by omega)
      unfold Finite.yLoop Double.yLoop
      rw [pow_ok L (.inr (by omega)) e1 (by omega), Option.bind_some, chk_ok t (by omega), Option.bind_some,
        chk_ok s (by omega), Option.bind_some]
      exact ih (n + 1) _ (fun d hd => hc d (List.mem_cons_of_mem _ hd))
        (by rw [hlen] at hn; rw [show n + 1 + cs.length = n + (cs.length + 1) by omega]; exact hn) (rnd_size s (by omega))
  exact loop cs 0 0 hc (by simpa using hn) (by rw [abs_zero]; exact (two_zpow_pos _).le)

theorem square_size {x : ℝ} (hx : |x| ≤ 2 ^ (510 : ℤ)) : |x ^ (2 : ℤ)| ≤ 2 ^ (1020 : ℤ) := by
  rw [abs_zpow, show (1020 : ℤ) = 510 * 2 by norm_num, zpow_mul]
  exact zpow_le_zpow_left₀ (by norm_num) (abs_nonneg _) hx

theorem sqrt_ok {x : ℝ} (h0 : 0 ≤ x) (h : |x| ≤ 2 ^ (1022 : ℤ)) : chkSqrt x = some (rnd √x) := by
  refine chkSqrt_ok h0 (e := 511) ?_ (by norm_num)
  rw [Real.sqrt_le_left (two_zpow_pos _).le]
  refine ((le_abs_self _).trans h).trans (le_of_eq ?_)
  rw [← zpow_natCast, ← zpow_mul]; norm_num

/-- **C186** (magnitudes): the magnitude of a vector with components up to `2 ^ 510` does not overflow.

Partial: the exact magnitude is within the range of a `double` for larger components too, but then the code fails
(C186_magnitude_fails). -/
theorem C186_magnitude_partial (L : Library) :
    (∀ v : V2, IsDouble v.x → IsDouble v.y → |v.x| ≤ 2 ^ (510 : ℤ) → |v.y| ≤ 2 ^ (510 : ℤ) →
      Finite.magnitude L v = some (Double.magnitude L v)) ∧
    (∀ v : V3, IsDouble v.x → IsDouble v.y → IsDouble v.z → |v.x| ≤ 2 ^ (510 : ℤ) → |v.y| ≤ 2 ^ (510 : ℤ) →
      |v.z| ≤ 2 ^ (510 : ℤ) → Finite.magnitude3 L v = some (Double.magnitude3 L v)) := by
  have sq : ∀ {x : ℝ}, IsDouble x → |x| ≤ 2 ^ (510 : ℤ) →
      Finite.pow L x 2 = some (L.pow x 2) ∧ |L.pow x 2| ≤ 2 ^ (1020 : ℤ) ∧ 0 ≤ L.pow x 2 := by
    intro x hd hx
    have F := L.pow_faithful x 2 hd (.inr (by norm_num))
    exact ⟨pow_ok L (.inr (by norm_num)) (square_size hx) (by norm_num),
      F.abs_le (isDouble_two_zpow (by norm_num)) (square_size hx), F.nonneg (by positivity)⟩
  constructor
  · intro v dx dy hx hy
    obtain ⟨x1, x2, x3⟩ := sq dx hx
    obtain ⟨y1, y2, y3⟩ := sq dy hy
    have s := add_size x2 y2 (f := 1021) (by norm_num)
    unfold Finite.magnitude Double.magnitude
    rw [x1, Option.bind_some, y1, Option.bind_some, chk_ok s (by norm_num), Option.bind_some]
    exact sqrt_ok (rnd_nonneg (by linarith)) ((rnd_size s (by norm_num)).trans (two_zpow_le (by norm_num)))
  · intro v dx dy dz hx hy hz
    obtain ⟨x1, x2, x3⟩ := sq dx hx
    obtain ⟨y1, y2, y3⟩ := sq dy hy
    obtain ⟨z1, z2, z3⟩ := sq dz hz
    have s := add_size x2 y2 (f := 1021) (by norm_num)
    have n : 0 ≤ rnd (L.pow v.x 2 + L.pow v.y 2) := rnd_nonneg (by linarith)
    have s' := add_size (rnd_size s (by norm_num)) (z2.trans (two_zpow_le (show (1020 : ℤ) ≤ 1021 by norm_num)))
      (f := 1022) (by norm_num)
    unfold Finite.magnitude3 Double.magnitude3
    rw [x1, Option.bind_some, y1, Option.bind_some, chk_ok s (by norm_num), Option.bind_some, z1, Option.bind_some,
      chk_ok s' (by norm_num), Option.bind_some]
    exact sqrt_ok (rnd_nonneg (by linarith)) (rnd_size s' (by norm_num))

/-- **C186** fails for the vector `(2 ^ 512, 0)`: its magnitude `2 ^ 512` is a `double`, but its square is not. -/
theorem C186_magnitude_fails (L : Library) : IsDouble (2 ^ (512 : ℤ)) ∧
    Finite.magnitude L ⟨2 ^ (512 : ℤ), 0⟩ = none ∧ Finite.magnitude3 L ⟨2 ^ (512 : ℤ), 0, 0⟩ = none := by
  have h : Finite.pow L (2 ^ (512 : ℤ)) 2 = none := by
    unfold Finite.pow
    rw [if_neg (by norm_num)]
    unfold chkLib
    have e : ((2 : ℝ) ^ (512 : ℤ)) ^ (2 : ℤ) = 2 ^ (1024 : ℤ) := by rw [← zpow_mul]; norm_num
    rw [e, if_neg]
    rw [abs_of_pos (two_zpow_pos _)]
    exact not_le.mpr largest_lt
  refine ⟨isDouble_two_zpow (by norm_num), ?_, ?_⟩
  · unfold Finite.magnitude
    dsimp only
    rw [h]; rfl
  · unfold Finite.magnitude3
    dsimp only
    rw [h]; rfl

/-- A pressure of 20 psf; a line through (0, 1) and (2, 5); the polynomial 1 + 2 x + 3 x² at 10. -/
example : |(2 : ℤ)| ≤ 10 ∧ |(20 : ℝ)| ≤ 2 ^ (700 : ℤ) ∧ (2 : ℝ) ^ (-300 : ℤ) ≤ |2 - 0| ∧
    (∀ c ∈ [(1 : ℝ), 2, 3], |c| ≤ 2 ^ 2) ∧ |(10 : ℝ)| ≤ 2 ^ 4 ∧ 2 + (4 + 1) * [(1 : ℝ), 2, 3].length ≤ 1023 := by
  refine ⟨by norm_num, ?_, ?_, ?_, ?_, ?_⟩
  · rw [abs_of_pos (by norm_num)]
    exact le_trans (by norm_num : (20 : ℝ) ≤ 2 ^ (5 : ℤ)) (two_zpow_le (by norm_num))
  · refine (two_zpow_le (show (-300 : ℤ) ≤ 0 by norm_num)).trans ?_
    norm_num
  · intro c hc
    simp only [List.mem_cons, List.not_mem_nil, or_false] at hc
    rcases hc with rfl | rfl | rfl <;> norm_num
  · norm_num
  · norm_num

end Verif.Props
