import Verif.DoubleElongation
import Verif.Props.DoublePolynomial
import Verif.Props.DoubleUnits

/-! # Elongation of a cable in `double` arithmetic (C201) -/

set_option linter.unusedSectionVars false

namespace Verif.Props

open Verif.Double

namespace ElongationDouble

/-! ## Polynomials at an argument that was computed -/

theorem power_error {n : ℕ} (hn : n ≤ 1000) {a b : ℝ} (h : |a - b| ≤ 3 * u * |b|) : |a ^ n - b ^ n| ≤ 4 * n * u * |b| ^ n := by
  have hu := u_pos
  have hu' := u_small
  induction n with
  | zero => simp
  | succ n ih =>
    have ih := ih (by omega)
    have hb := abs_nonneg b
    have hbn := pow_nonneg hb n
    have hn' : (n : ℝ) ≤ 1000 := by exact_mod_cast (by omega : n ≤ 1000)
    have ha : |a| ≤ (1 + 3 * u) * |b| := by have := abs_sub_abs_le_abs_sub a b; linarith
    rw [show a ^ (n + 1) - b ^ (n + 1) = (a ^ n - b ^ n) * a + b ^ n * (a - b) by ring]
    refine (abs_add_le _ _).trans ?_
    rw [abs_mul, abs_mul, abs_pow]
    have h1 : |a ^ n - b ^ n| * |a| ≤ 4 * n * u * |b| ^ n * ((1 + 3 * u) * |b|) :=
      mul_le_mul ih ha (abs_nonneg a) (by positivity)
    have h2 : |b| ^ n * |a - b| ≤ |b| ^ n * (3 * u * |b|) := mul_le_mul_of_nonneg_left h hbn
    have h3 : 0 ≤ |b| ^ n * |b| := by positivity
    have h4 : 4 * n * u * (3 * u) ≤ u := by
      have : (n : ℝ) * u ≤ 1 / 100000 := by nlinarith
      nlinarith
    have h5 := mul_le_mul_of_nonneg_right h4 h3
    push_cast
    rw [pow_succ]
    nlinarith

theorem loop_add (x : ℝ) : ∀ (cs : List ℝ) (n : ℕ) (y : ℝ), Poly.yLoop x n cs y = y + Poly.yLoop x n cs 0
  | [], n, y => by simp [Poly.yLoop]
  | c :: cs, n, y => by
    simp only [Poly.yLoop]
    rw [loop_add x cs (n + 1) (y + c * x ^ n), loop_add x cs (n + 1) (0 + c * x ^ n)]; ring

theorem terms_nonneg (x : ℝ) : ∀ (cs : List ℝ) (n : ℕ), 0 ≤ termSizes x n cs
  | [], _ => le_rfl
  | c :: cs, n => add_nonneg (by positivity) (terms_nonneg x cs (n + 1))

theorem argument_error {N : ℕ} (hN : N ≤ 1000) {a b : ℝ} (h : |a - b| ≤ 3 * u * |b|) : ∀ (cs : List ℝ) (n : ℕ),
    n + cs.length ≤ N → |Poly.yLoop a n cs 0 - Poly.yLoop b n cs 0| ≤ 4 * N * u * termSizes b n cs ∧
      termSizes a n cs ≤ (1 + 4 * N * u) * termSizes b n cs := by
  have hu := u_pos
  intro cs
  induction cs with
  | nil => intro n _; simp [Poly.yLoop, termSizes]
  | cons c cs ih =>
    intro n hn
    simp only [List.length_cons] at hn
    obtain ⟨i1, i2⟩ := ih (n + 1) (by omega)
    have p := power_error (n := n) (by omega) h
    have hnN : (n : ℝ) ≤ N := by exact_mod_cast (by omega : n ≤ N)
    have hb := pow_nonneg (abs_nonneg b) n
    have p' : |a ^ n - b ^ n| ≤ 4 * N * u * |b| ^ n := by
      refine p.trans (mul_le_mul_of_nonneg_right ?_ hb)
      nlinarith
    have c0 := abs_nonneg c
    simp only [Poly.yLoop, termSizes]
    constructor
    · rw [loop_add a, loop_add b,
        show 0 + c * a ^ n + Poly.yLoop a (n + 1) cs 0 - (0 + c * b ^ n + Poly.yLoop b (n + 1) cs 0) =
          c * (a ^ n - b ^ n) + (Poly.yLoop a (n + 1) cs 0 - Poly.yLoop b (n + 1) cs 0) by ring]
      refine (abs_add_le _ _).trans ?_
      rw [abs_mul]
      have := mul_le_mul_of_nonneg_left p' c0
      linarith
    · have q : |a| ^ n ≤ (1 + 4 * N * u) * |b| ^ n := by
        rw [← abs_pow, ← abs_pow] at *
        have := abs_sub_abs_le_abs_sub (a ^ n) (b ^ n)
        linarith
      have := mul_le_mul_of_nonneg_left q c0
      linarith

/-! ## Lines -/

theorem line_error {y d D : ℝ} (hy : IsDouble y) (h : |d - D| ≤ 21 / 10 * u * |D| + 2 ^ (-1075 : ℤ)) (hd : IsDouble d) :
    |rnd (y + d) - (y + D)| ≤ 2 ^ (-51 : ℤ) * (|y| + |D|) + 2 ^ (-1074 : ℤ) := by
  have hu := u_pos
  have hu' := u_small
  have r := rnd_add_relative hy hd
  have e : (2 : ℝ) ^ (-51 : ℤ) = 4 * u := by unfold u; norm_num
  have e' : (2 : ℝ) ^ (-1074 : ℤ) = 2 * 2 ^ (-1075 : ℤ) := by
    rw [show (-1074 : ℤ) = 1 + -1075 by norm_num, zpow_add₀ (by norm_num)]; norm_num
  have t0 := two_zpow_pos (-1075)
  rw [e, e']
  generalize (2 : ℝ) ^ (-1075 : ℤ) = η at *
  have a1 := abs_add_le y d
  have a2 := abs_sub_abs_le_abs_sub d D
  have y0 := abs_nonneg y
  have D0 := abs_nonneg D
  have t := abs_sub_le (rnd (y + d)) (y + d) (y + D)
  rw [show y + d - (y + D) = d - D by ring] at t
  have m := mul_le_mul_of_nonneg_left (a1.trans (add_le_add le_rfl (by linarith : |d| ≤ |D| + (21 / 10 * u * |D| + η)))) hu.le
  have k1 : u * (u * |D|) ≤ 1 / 1000 * (u * |D|) := mul_le_mul_of_nonneg_right (by linarith) (by positivity)
  have k2 : u * η ≤ η := by nlinarith
  have k3 : 0 ≤ u * |D| := by positivity
  have k4 : 0 ≤ u * |y| := by positivity
  nlinarith

theorem product_bound {a A m : ℝ} (h : |a - A| ≤ u * |A|) :
    |rnd (a * m) - A * m| ≤ 21 / 10 * u * |A * m| + 2 ^ (-1075 : ℤ) := by
  have hu := u_pos
  have hu' := u_small
  have r := rnd_error_le (a * m)
  have h1 : |a * m - A * m| ≤ u * |A * m| := by
    rw [show a * m - A * m = (a - A) * m by ring, abs_mul, abs_mul]
    have := mul_le_mul_of_nonneg_right h (abs_nonneg m)
    linarith
  have h2 := abs_sub_abs_le_abs_sub (a * m) (A * m)
  have h3 := abs_sub_le (rnd (a * m)) (a * m) (A * m)
  have m0 := abs_nonneg (A * m)
  have h4 : u * |a * m| ≤ u * ((1 + u) * |A * m|) := mul_le_mul_of_nonneg_left (by linarith) hu.le
  have h5 : u * (u * |A * m|) ≤ 1 / 1000 * (u * |A * m|) := mul_le_mul_of_nonneg_right (by linarith) (by positivity)
  generalize (2 : ℝ) ^ (-1075 : ℤ) = η at *
  nlinarith

theorem loadLinear_error {p : V2} {slope x : ℝ} (h1 : IsDouble p.x) (h2 : IsDouble p.y) (hx : IsDouble x) :
    |Double.Elongation.loadLinear p slope x - CableComponent.loadLinear p slope x| ≤
      2 ^ (-51 : ℤ) * (|p.y| + |(x - p.x) * slope|) + 2 ^ (-1074 : ℤ) :=
  line_error h2 (product_bound (rnd_sub_relative hx h1)) (rnd_isDouble _)

theorem strainLinear_error {p : V2} {slope l : ℝ} (h1 : IsDouble p.x) (h2 : IsDouble p.y) (hl : IsDouble l) :
    |Double.Elongation.strainLinear p slope l - CableComponent.strainLinear p slope l| ≤
      2 ^ (-51 : ℤ) * (|p.x| + |(l - p.y) / slope|) + 2 ^ (-1074 : ℤ) := by
  refine line_error h1 ?_ (rnd_isDouble _)
  have := product_bound (m := slope⁻¹) (rnd_sub_relative hl h2)
  rwa [← div_eq_mul_inv, ← div_eq_mul_inv] at this

theorem loadPolynomial_error (L : Library) {c : CableComponent} {cs : List ℝ} {th x : ℝ} (hx : IsDouble x) (ht : IsDouble th)
    (hn : cs.length ≤ 100) (hs0 : c.scaleX ≠ 0) (hs : |c.scaleX| ≤ 2 ^ (100 : ℤ)) (hd : x = th ∨ 2 ^ (-900 : ℤ) ≤ |x - th|) :
    |Double.Elongation.loadPolynomial L c cs th x - c.loadPolynomial cs th x| ≤
      (8 * cs.length + 8) * 2 ^ (-53 : ℤ) * (termSizes ((x - th) / c.scaleX) 0 cs * |c.scaleY|) +
        2 ^ (-1071 : ℤ) * (coefficientSizes cs * |c.scaleY| + 1) := by
  have hu := u_pos
  have hu' := u_small
  have eu : (2 : ℝ) ^ (-53 : ℤ) = u := by unfold u; norm_num
  rw [eu]
  unfold Double.Elongation.loadPolynomial CableComponent.loadPolynomial
  set X := (x - th) / c.scaleX with hX
  set Y := rnd (rnd (x - th) / c.scaleX) with hY
  have hXY : |Y - X| ≤ 3 * u * |X| := by
    rcases hd with rfl | hd
    · have : X = 0 := by rw [hX, sub_self, zero_div]
      rw [hY, this, sub_self, rnd_zero, zero_div, rnd_zero]; simp
    · have s0 : 0 < |c.scaleX| := abs_pos.2 hs0
      have r1 := rnd_sub_relative hx ht
      have q : rnd (x - th) / c.scaleX - X = (rnd (x - th) - (x - th)) / c.scaleX := by rw [hX]; ring
      have r2 : |rnd (x - th) / c.scaleX - X| ≤ u * |X| := by
        rw [q, abs_div, hX, abs_div, ← mul_div_assoc]
        gcongr
      have big : (2 : ℝ) ^ (-1000 : ℤ) ≤ |X| := by
        rw [hX, abs_div, le_div_iff₀ s0]
        calc (2 : ℝ) ^ (-1000 : ℤ) * |c.scaleX| ≤ 2 ^ (-1000 : ℤ) * 2 ^ (100 : ℤ) :=
              mul_le_mul_of_nonneg_left hs (two_zpow_pos _).le
          _ = 2 ^ (-900 : ℤ) := by rw [← zpow_add₀ (by norm_num)]; norm_num
          _ ≤ |x - th| := hd
      have low : (2 : ℝ) ^ (-1022 : ℤ) ≤ |rnd (x - th) / c.scaleX| := by
        have a1 := abs_sub_abs_le_abs_sub X (rnd (x - th) / c.scaleX)
        rw [abs_sub_comm] at a1
        have a2 : (2 : ℝ) ^ (-1022 : ℤ) ≤ 1 / 2 * 2 ^ (-1000 : ℤ) := by
          rw [show (1 / 2 : ℝ) = 2 ^ (-1 : ℤ) by norm_num, ← zpow_add₀ (by norm_num)]
          exact two_zpow_le (by norm_num)
        have a3 : u * |X| ≤ 1 / 2 * |X| := mul_le_mul_of_nonneg_right (by linarith) (abs_nonneg X)
        linarith
      have r3 := rnd_relative low
      have r4 := abs_sub_le Y (rnd (x - th) / c.scaleX) X
      have r5 := abs_sub_abs_le_abs_sub (rnd (x - th) / c.scaleX) X
      have X0 := abs_nonneg X
      have r6 : u * |rnd (x - th) / c.scaleX| ≤ u * ((1 + u) * |X|) := mul_le_mul_of_nonneg_left (by linarith) hu.le
      have r7 : u * (u * |X|) ≤ u * |X| := mul_le_of_le_one_left (by positivity) (by linarith)
      rw [← hY] at r3
      linarith
  obtain ⟨a1, a2⟩ := argument_error (N := cs.length) (hn.trans (by norm_num)) hXY cs 0 (by simp)
  have a3 := C176_accuracy L (rnd_isDouble (rnd (x - th) / c.scaleX)) (cs := cs) (hn.trans (by norm_num))
  rw [← hY] at a3
  have T0 := terms_nonneg X cs 0
  have hl : (cs.length : ℝ) ≤ 100 := by exact_mod_cast hn
  have l0 : (0 : ℝ) ≤ cs.length := by positivity
  have C0 := coefficientSizes_nonneg cs
  have e52 : (2 : ℝ) ^ (-52 : ℤ) = 2 * u := by unfold u; norm_num
  have eη : (2 : ℝ) ^ (-1072 : ℤ) = 8 * 2 ^ (-1075 : ℤ) := by
    rw [show (-1072 : ℤ) = 3 + -1075 by norm_num, zpow_add₀ (by norm_num)]; norm_num
  have eη' : (2 : ℝ) ^ (-1071 : ℤ) = 16 * 2 ^ (-1075 : ℤ) := by
    rw [show (-1071 : ℤ) = 4 + -1075 by norm_num, zpow_add₀ (by norm_num)]; norm_num
  rw [e52, eη] at a3
  rw [eη']
  have η0 := two_zpow_pos (-1075)
  have r := rnd_error_le (Double.evalY L cs Y * c.scaleY)
  generalize (2 : ℝ) ^ (-1075 : ℤ) = η at *
  change |Poly.evalY cs Y - Poly.evalY cs X| ≤ _ at a1
  set T := termSizes X 0 cs
  set C := coefficientSizes cs
  set V := Double.evalY L cs Y
  set W := Poly.evalY cs X with hW
  set n : ℝ := (cs.length : ℝ)
  have nu : n * u ≤ 1 / 10000000 := by nlinarith
  -- the value before scaling
  have v : |V - W| ≤ (7 * n + 6.5) * u * T + 8 * η * C := by
    have t := abs_sub_le V (Poly.evalY cs Y) W
    have m : (n + 3) * (2 * u) * termSizes Y 0 cs ≤ (n + 3) * (2 * u) * ((1 + 4 * n * u) * T) :=
      mul_le_mul_of_nonneg_left a2 (by positivity)
    have k : 4 * n * u * T ≤ 1 / 1000000 * T := mul_le_mul_of_nonneg_right (by linarith) T0
    have m2 : (n + 3) * (2 * u) * ((1 + 4 * n * u) * T) ≤ (n + 3) * (2 * u) * (1.000001 * T) :=
      mul_le_mul_of_nonneg_left (by linarith) (by positivity)
    have uT : 0 ≤ u * T := by positivity
    have nuT : 0 ≤ n * (u * T) := by positivity
    nlinarith
  have w : |W| ≤ T := by
    have : ∀ (cs : List ℝ) (i : ℕ), |Poly.yLoop X i cs 0| ≤ termSizes X i cs := by
      intro cs
      induction cs with
      | nil => intro i; simp [Poly.yLoop, termSizes]
      | cons a as ih =>
        intro i
        simp only [Poly.yLoop, termSizes]
        rw [loop_add, zero_add]
        refine (abs_add_le _ _).trans (add_le_add (by rw [abs_mul, abs_pow]) (ih (i + 1)))
    exact this cs 0
  have S0 := abs_nonneg c.scaleY
  have v' : |V| ≤ 1.1 * T + 8 * η * C := by
    have := abs_sub_abs_le_abs_sub V W
    have : (7 * n + 6.5) * u * T ≤ 0.1 * T := mul_le_mul_of_nonneg_right (by nlinarith) T0
    linarith
  have t := abs_sub_le (rnd (V * c.scaleY)) (V * c.scaleY) (W * c.scaleY)
  have t1 : |V * c.scaleY - W * c.scaleY| ≤ ((7 * n + 6.5) * u * T + 8 * η * C) * |c.scaleY| := by
    rw [← sub_mul, abs_mul]; exact mul_le_mul_of_nonneg_right v S0
  have t2 : u * |V * c.scaleY| ≤ u * ((1.1 * T + 8 * η * C) * |c.scaleY|) := by
    rw [abs_mul]; exact mul_le_mul_of_nonneg_left (mul_le_mul_of_nonneg_right v' S0) hu.le
  have z1 : 0 ≤ u * (T * |c.scaleY|) := by positivity
  have z2 : 0 ≤ n * (u * (T * |c.scaleY|)) := by positivity
  have z3 : 0 ≤ η * (C * |c.scaleY|) := by positivity
  have z4 : u * (η * (C * |c.scaleY|)) ≤ η * (C * |c.scaleY|) := mul_le_of_le_one_left z3 (by linarith)
  nlinarith

/-! ## The search -/

theorem strainLoop_end {L : Library} {f : ℝ → ℝ} {load : ℝ} : ∀ {fuel : ℕ} {s t : StrainSearch},
    Double.Elongation.strainLoop L f load fuel s = some t →
    (t.current.y = f t.current.x ∨ t = s) ∧
    (|rnd (t.current.y - load)| ≤ rnd (1 / L.pow 10 2) ∨ t.iter = s.iter + fuel) := by
  intro fuel
  induction fuel with
  | zero =>
    intro s t h
    cases h
    exact ⟨Or.inr rfl, Or.inr rfl⟩
  | succ fuel ih =>
    intro s t h
    unfold Double.Elongation.strainLoop at h
    split_ifs at h with hc
    · cases hs : Double.Elongation.step f load s with
      | none => rw [hs] at h; cases h
      | some s' =>
        rw [hs] at h
        obtain ⟨i1, i2⟩ := ih h
        have key : s'.current.y = f s'.current.x ∧ s'.iter = s.iter + 1 := by
          unfold Double.Elongation.step at hs
          simp only at hs
          split_ifs at hs <;> cases hs <;> exact ⟨rfl, rfl⟩
        refine ⟨Or.inl ?_, i2.imp_right fun e => by rw [e, key.2]; ring⟩
        rcases i1 with i1 | rfl
        · exact i1
        · exact key.1
    · cases h
      exact ⟨Or.inr rfl, Or.inl (not_lt.1 hc)⟩

theorem hundredth {L : Library} : rnd (1 / L.pow 10 2) = rnd 0.01 := by
  have h := (L.pow_faithful 10 2 (by exact_mod_cast isDouble_int (n := 10) (by norm_num)) (Or.inl (by norm_num))).exact
    (by exact_mod_cast isDouble_int (n := 100) (by norm_num))
  rw [h]; norm_num

end ElongationDouble

open ElongationDouble

/-- **C201** (load): below the end of its polynomial, the load of a component that is computed in `double` arithmetic
differs from the exact one with the same points by at most one part in 2^51 of the terms of a straight line, and by at most
8 n + 8 roundings of the terms of a polynomial with n coefficients; the comparisons choose the same region. -/
theorem C201_load (L : Library) {c : CableComponent} {M : ℝ} {type : PolynomialType} {r : Regions} {th x : ℝ}
    (hx : IsDouble x) (ht : IsDouble th) (h1 : IsDouble r.unloaded.x ∧ IsDouble r.unloaded.y)
    (h2 : IsDouble r.start.x ∧ IsDouble r.start.y) (hs0 : c.scaleX ≠ 0) (hs : |c.scaleX| ≤ 2 ^ (100 : ℤ))
    (hd : x = th ∨ 2 ^ (-900 : ℤ) ≤ |x - th|) (hend : x < r.stop.x)
    (hn : ∀ cs, c.coefficients type = some cs → cs.length ≤ 100) :
    (x < r.unloaded.x → |Double.Elongation.load L c M type r th x - c.load type r th x| ≤
      2 ^ (-51 : ℤ) * (|r.unloaded.y| + |(x - r.unloaded.x) * c.modulusCompression|) + 2 ^ (-1074 : ℤ)) ∧
    (r.unloaded.x ≤ x → x ≤ r.start.x → |Double.Elongation.load L c M type r th x - c.load type r th x| ≤
      2 ^ (-51 : ℤ) * (|r.start.y| + |(x - r.start.x) * c.modulusTension|) + 2 ^ (-1074 : ℤ)) ∧
    (r.unloaded.x ≤ x → r.start.x < x → ∀ cs, c.coefficients type = some cs →
      |Double.Elongation.load L c M type r th x - c.load type r th x| ≤
      (8 * cs.length + 8) * 2 ^ (-53 : ℤ) * (termSizes ((x - th) / c.scaleX) 0 cs * |c.scaleY|) +
        2 ^ (-1071 : ℤ) * (coefficientSizes cs * |c.scaleY| + 1)) := by
  refine ⟨fun g => ?_, fun g g' => ?_, fun g g' cs hcs => ?_⟩
  · unfold Double.Elongation.load CableComponent.load
    rw [if_pos g, if_pos g]
    exact loadLinear_error h1.1 h1.2 hx
  · unfold Double.Elongation.load CableComponent.load
    rw [if_neg (not_lt.2 g), if_neg (not_lt.2 g), if_pos ⟨g, g'⟩, if_pos ⟨g, g'⟩]
    exact loadLinear_error h2.1 h2.2 hx
  · unfold Double.Elongation.load CableComponent.load
    have n1 : ¬ (r.unloaded.x ≤ x ∧ x ≤ r.start.x) := fun h => absurd h.2 (not_le.2 g')
    rw [if_neg (not_lt.2 g), if_neg (not_lt.2 g), if_neg n1, if_neg n1, if_pos ⟨g', hend⟩, if_pos ⟨g', hend⟩, hcs]
    exact loadPolynomial_error L hx ht (hn cs hcs) hs0 hs hd

/-- A strain of 3/8 inside the polynomial region of a component. -/
example : let c : CableComponent := ⟨0, 0, [0, 4096, -1024], [0, 4096, -1024], 1, 1, 64, 4096, 1 / 4, 2⟩
    let r : Regions := ⟨⟨0, 0⟩, ⟨1 / 4, 1024⟩, ⟨1 / 2, 2048⟩⟩
    IsDouble (3 / 8) ∧ IsDouble 0 ∧ IsDouble r.unloaded.x ∧ IsDouble r.start.x ∧ IsDouble r.start.y ∧ c.scaleX ≠ 0 ∧
      |c.scaleX| ≤ 2 ^ (100 : ℤ) ∧ (2 : ℝ) ^ (-900 : ℤ) ≤ |3 / 8 - 0| ∧ r.start.x < 3 / 8 ∧ 3 / 8 < r.stop.x ∧
      ∀ cs, c.coefficients .creep = some cs → cs.length ≤ 100 := by
  refine ⟨⟨3, -3, by norm_num, by norm_num, by norm_num⟩, isDouble_zero, isDouble_zero,
    ⟨1, -2, by norm_num, by norm_num, by norm_num⟩, ?_, by norm_num, ?_, ?_, by norm_num, by norm_num, ?_⟩
  · exact_mod_cast isDouble_int (n := 1024) (by norm_num)
  · norm_num [abs_of_pos]
  · exact (two_zpow_le (by norm_num : (-900 : ℤ) ≤ -3)).trans (by norm_num [abs_of_pos])
  · intro cs h
    cases h
    simp

/-- **C201** (extrapolation): from the end of the polynomial on, the computed load is within one part in 2^51 of the terms
of the line through that end with the modulus of the extrapolation; likewise the strain of a load on a straight line. -/
theorem C201_lines (L : Library) {c : CableComponent} {M : ℝ} {type : PolynomialType} {r : Regions} {th x : ℝ}
    (hT : type ≠ .null) (hx : IsDouble x) (h3 : IsDouble r.stop.x ∧ IsDouble r.stop.y) (h0 : r.unloaded.x ≤ x)
    (h1 : r.start.x < x) (h2 : r.stop.x ≤ x) :
    |Double.Elongation.load L c M type r th x - (r.stop.y + (x - r.stop.x) * M)| ≤
      2 ^ (-51 : ℤ) * (|r.stop.y| + |(x - r.stop.x) * M|) + 2 ^ (-1074 : ℤ) ∧
    ∀ p : V2, IsDouble p.x → IsDouble p.y → ∀ slope, |Double.Elongation.strainLinear p slope x - (p.x + (x - p.y) / slope)| ≤
      2 ^ (-51 : ℤ) * (|p.x| + |(x - p.y) / slope|) + 2 ^ (-1074 : ℤ) := by
  constructor
  · unfold Double.Elongation.load
    rw [if_neg (not_lt.2 h0), if_neg (fun h => absurd h.2 (not_le.2 h1)), if_neg (fun h => absurd h.2 (not_lt.2 h2)),
      if_pos h2, if_neg hT]
    exact loadLinear_error h3.1 h3.2 hx
  · intro p g1 g2 slope
    exact strainLinear_error g1 g2 hx

/-- **C201** (strain): whatever the computed load of the cable is as a function of the strain, a strain that the search
returns for a load above the lowest point, other than the value for failure, has a computed load within 0.01 and 2^-57 of
the one asked for; so has, for a cable of two components, the exact load up to the errors of the components and of their
sum. -/
theorem C201_strain (L : Library) {f : ℝ → ℝ} (hf : ∀ x, IsDouble (f x)) {regions : List V2} {p : V2} {load x : ℝ}
    (hl : IsDouble load) (hp : regions.head? = some p) (h1 : p.y < load) (h2 : -999998 ≤ load) (hx : x ≠ -999999)
    (h : Double.Elongation.strainCombined L f regions load = .val (some x)) :
    |f x - load| ≤ 0.01 + 2 ^ (-57 : ℤ) ∧
    ∀ a b A B e d, f x = rnd (a + b) → IsDouble a → IsDouble b → |a - A| ≤ e → |b - B| ≤ d →
      |A + B - load| ≤ 0.01 + 2 ^ (-57 : ℤ) + e + d + 2 ^ (-53 : ℤ) * |a + b| := by
  have hu := u_pos
  have hu' := u_small
  have main : |f x - load| ≤ 0.01 + 2 ^ (-57 : ℤ) := by
    unfold Double.Elongation.strainCombined Double.Elongation.strainStart at h
    rw [hp] at h
    cases hq : regions.getLast? with
    | none => rw [hq] at h; cases h
    | some q =>
      rw [hq] at h
      simp only at h
      rw [if_neg (not_le.2 h1)] at h
      have key : ∀ l r : V2, (Double.Elongation.strainLoop L f load 99 ⟨l, r, ⟨-999999, -999999⟩, 1⟩).map
          (fun s => if s.iter < 100 then s.current.x else -999999) = some x → |f x - load| ≤ 0.01 + 2 ^ (-57 : ℤ) := by
        intro l r h
        cases ht : Double.Elongation.strainLoop L f load 99 ⟨l, r, ⟨-999999, -999999⟩, 1⟩ with
        | none => rw [ht] at h; cases h
        | some t =>
          rw [ht] at h
          have h := Option.some.inj h
          simp only at h
          obtain ⟨i1, i2⟩ := strainLoop_end ht
          split_ifs at h with hi
          · have i3 : |rnd (t.current.y - load)| ≤ rnd 0.01 := by
              rcases i2 with i2 | i2
              · rwa [hundredth] at i2
              · simp only at i2; omega
            have r0 := rnd_relative (x := 0.01) (le_trans (two_zpow_le (by norm_num : (-1022 : ℤ) ≤ -10)) (by norm_num [abs_of_pos]))
            rw [abs_of_pos (by norm_num : (0 : ℝ) < 0.01)] at r0
            have r1 := (abs_le.1 r0).2
            have e57 : (2 : ℝ) ^ (-57 : ℤ) = u / 16 := by unfold u; norm_num
            rcases i1 with i1 | rfl
            · rw [i1, h] at i3
              have r2 := rnd_sub_relative (hf x) hl
              have r3 := abs_sub_abs_le_abs_sub (f x - load) (rnd (f x - load))
              rw [abs_sub_comm (f x - load) (rnd (f x - load))] at r3
              rw [e57]
              have uu : u * u ≤ 1 / 1000 * u := mul_le_mul_of_nonneg_right (by linarith) hu.le
              have d0 := abs_nonneg (f x - load)
              by_contra hn
              push Not at hn
              have hm : (1 - u) * (0.01 + u / 16) < (1 - u) * |f x - load| := mul_lt_mul_of_pos_left hn (by linarith)
              nlinarith
            · exfalso
              simp only at i3
              have : 1 ≤ |(-999999 : ℝ) - load| := by rw [abs_of_neg (by linarith)]; linarith
              have r2 : (1 : ℝ) ≤ |rnd (-999999 - load)| := by
                rw [abs_of_neg (by linarith)] at this
                have := rnd_le isDouble_one.neg (by linarith : -999999 - load ≤ -1)
                rw [abs_of_neg (by linarith)]; linarith
              linarith
          · exact absurd h.symm hx
      split_ifs at h
      · exact key _ _ (Res.val.inj h)
      · cases hr : findRegion load regions with
        | none => rw [hr] at h; cases h
        | some w =>
          rw [hr] at h
          exact key w.1 w.2 (Res.val.inj h)
  refine ⟨main, fun a b A B e d hab ha hb h3 h4 => ?_⟩
  have r := rnd_add_relative ha hb
  have eu : (2 : ℝ) ^ (-53 : ℤ) = u := by unfold u; norm_num
  rw [eu]
  rw [hab] at main
  have e1 : A + B - load = (rnd (a + b) - load) - (rnd (a + b) - (a + b)) - (a - A) - (b - B) := by ring
  rw [e1]
  have t1 := abs_sub (rnd (a + b) - load - (rnd (a + b) - (a + b)) - (a - A)) (b - B)
  have t2 := abs_sub (rnd (a + b) - load - (rnd (a + b) - (a + b))) (a - A)
  have t3 := abs_sub (rnd (a + b) - load) (rnd (a + b) - (a + b))
  generalize (2 : ℝ) ^ (-57 : ℤ) = w at *
  linarith

/-- A cable with a load of 4096 times the strain: the search finds the strain 1/2 for a load of 2048. -/
example (L : Library) : Double.Elongation.strainCombined L (fun x => rnd (4096 * x)) [⟨0, 0⟩, ⟨1, 4096⟩] 2048 = .val (some (1 / 2)) := by
  have i : ∀ n : ℤ, |n| ≤ 2 ^ 53 → rnd (n : ℝ) = n := fun n h => rnd_of_isDouble (isDouble_int h)
  have half : IsDouble (1 / 2) := ⟨1, -1, by norm_num, by norm_num, by norm_num⟩
  have r0 : rnd (1 - 0) = 1 := by simpa using i 1 (by norm_num)
  have r1 : rnd (4096 - 0) = 4096 := by simpa using i 4096 (by norm_num)
  have r2 : rnd (4096 / 1) = 4096 := by simpa using i 4096 (by norm_num)
  have r3 : rnd (2048 - 0) = 2048 := by simpa using i 2048 (by norm_num)
  have r4 : rnd (2048 / 4096) = 1 / 2 := by
    rw [show (2048 / 4096 : ℝ) = 1 / 2 by norm_num]; exact rnd_of_isDouble half
  have r5 : rnd (0 + 1 / 2) = 1 / 2 := by rw [zero_add]; exact rnd_of_isDouble half
  have r6 : rnd (4096 * (1 / 2)) = 2048 := by
    rw [show (4096 * (1 / 2) : ℝ) = 2048 by norm_num]; simpa using i 2048 (by norm_num)
  have r7 : rnd (-999999 - 2048) = -1002047 := by
    rw [show (-999999 - 2048 : ℝ) = -1002047 by norm_num]; exact_mod_cast i (-1002047) (by norm_num)
  have t1 : rnd (1 / L.pow 10 2) ≤ 1 := by rw [hundredth]; exact rnd_le isDouble_one (by norm_num)
  have t0 : 0 ≤ rnd (1 / L.pow 10 2) := by rw [hundredth]; exact rnd_nonneg (by norm_num)
  have st : Double.Elongation.step (fun x => rnd (4096 * x)) 2048 ⟨⟨0, 0⟩, ⟨1, 4096⟩, ⟨-999999, -999999⟩, 1⟩ =
      some ⟨⟨0, 0⟩, ⟨1, 4096⟩, ⟨1 / 2, 2048⟩, 2⟩ := by
    unfold Double.Elongation.step
    simp only [r0, r1, r2, r3, r4, r5, r6]
    norm_num
  have lp : Double.Elongation.strainLoop L (fun x => rnd (4096 * x)) 2048 99 ⟨⟨0, 0⟩, ⟨1, 4096⟩, ⟨-999999, -999999⟩, 1⟩ =
      some ⟨⟨0, 0⟩, ⟨1, 4096⟩, ⟨1 / 2, 2048⟩, 2⟩ := by
    unfold Double.Elongation.strainLoop
    rw [if_pos (by show _ < |rnd (-999999 - 2048)|; rw [r7]; exact lt_of_le_of_lt t1 (by norm_num)), st]
    show Double.Elongation.strainLoop L _ 2048 98 _ = _
    unfold Double.Elongation.strainLoop
    rw [if_neg]
    show ¬ _ < |rnd (2048 - 2048)|
    rw [sub_self, rnd_zero, abs_zero]
    exact not_lt.2 t0
  unfold Double.Elongation.strainCombined Double.Elongation.strainStart
  simp only [List.head?_cons, List.getLast?_cons_cons, List.getLast?_singleton]
  rw [if_neg (by norm_num), if_neg (by norm_num)]
  simp only [findRegion]
  rw [if_pos (by norm_num)]
  simp only [lp, Option.map_some]
  norm_num

end Verif.Props
