import Mathlib.Algebra.BigOperators.Fin
import Mathlib.Algebra.BigOperators.Ring.Finset
import Mathlib.Data.List.Range
import Verif.PolynomialLemmas

/-! # Properties of polynomials (C34, C35) -/

namespace Verif.Props
open Verif.Poly

/-! ## C34 -/

/-- C34: `Y` is the polynomial with the given coefficients. -/
theorem C34_Y_is_polynomial (o : Obj) (x : ℝ) :
    o.y x = ∑ i : Fin o.coefficients.length, o.coefficients[i] * x ^ (i : ℕ) := by
  have key : ∀ (n : ℕ) (cs : List ℝ), sumFrom x n cs =
      ∑ i : Fin cs.length, cs[i] * x ^ (n + (i : ℕ)) := by
    intro n cs
    induction cs generalizing n with
    | nil => simp [sumFrom]
    | cons c cs ih =>
      rw [sumFrom, ih]
      simp only [List.length_cons, Fin.sum_univ_succ, Fin.getElem_fin, Fin.val_zero, List.getElem_cons_zero,
        add_zero, Fin.val_succ, List.getElem_cons_succ]
      congr 1
      apply Finset.sum_congr rfl
      intro i _
      congr 2
      omega
  unfold Obj.y
  rw [evalY_eq, key]
  simp

/-- C34: after any history of calls on a polynomial created with some coefficients, `Slope(x)` is the
derivative at `x` of the function `Y`. -/
theorem C34_slope_is_derivative (cs : List ℝ) (calls : List Call) (x : ℝ) :
    let o := calls.foldl (fun o c => c.apply o) (Obj.new cs)
    HasDerivAt (fun z => o.y z) (o.slope x).1 x := by
  intro o
  have hf : o.Fresh := by
    have : ∀ (l : List Call) (o : Obj), o.Fresh → (l.foldl (fun o c => c.apply o) o).Fresh := by
      intro l
      induction l with
      | nil => exact fun _ h => h
      | cons c l ih => exact fun o h => ih _ (c.fresh h)
    exact this calls _ (fun h => absurd h (by simp [Obj.new]))
  have hs : (o.slope x).1 = dsumFrom x 0 o.coefficients := by
    unfold Obj.slope
    rw [(Obj.update_derivative hf).1, evalY_deriv]
  rw [hs]
  simpa only [Obj.y, evalY_eq] using! hasDerivAt_sumFrom 0 o.coefficients x

/-- C34: the coefficients in force are those set last. -/
theorem C34_last_coefficients (cs : List ℝ) (calls : List Call) (cs' : List ℝ)
    (queries : List Call) (hq : ∀ q ∈ queries, ∀ l, q ≠ .setCoefficients l) (x : ℝ) :
    ((calls ++ .setCoefficients cs' :: queries).foldl (fun o c => c.apply o) (Obj.new cs)).y x =
      (Obj.new cs').y x := by
  rw [List.foldl_append, List.foldl_cons]
  have : ∀ (l : List Call) (o : Obj), (∀ q ∈ l, ∀ l', q ≠ Call.setCoefficients l') →
      (l.foldl (fun o c => c.apply o) o).coefficients = o.coefficients := by
    intro l
    induction l with
    | nil => exact fun _ _ => rfl
    | cons c l ih =>
      intro o h
      rw [List.foldl_cons, ih _ (fun q hq => h q (List.mem_cons_of_mem _ hq)), Call.coefficients]
      cases c with
      | setCoefficients l' => exact absurd rfl (h _ List.mem_cons_self l')
      | _ => rfl
  unfold Obj.y
  rw [this _ _ hq]
  rfl

/-- C34: `Validate` accepts a polynomial and changes none of its answers. -/
theorem C34_validate (cs : List ℝ) (calls : List Call) (x y guess : ℝ) (d : ℤ) :
    let o := calls.foldl (fun o c => c.apply o) (Obj.new cs)
    o.validate.1 = true ∧ o.validate.2.y x = o.y x ∧ (o.validate.2.slope x).1 = (o.slope x).1 ∧
    (o.validate.2.solveX y d guess).1 = (o.solveX y d guess).1 := by
  intro o
  have hu : o.update.update = o.update := by
    unfold Obj.update
    by_cases h : o.isUpdated = false
    · rw [if_pos h, if_neg (by show ¬ true = false; decide)]
    · rw [if_neg h, if_neg h]
  have hc : o.update.coefficients = o.coefficients := by
    unfold Obj.update
    split <;> rfl
  refine ⟨rfl, ?_, ?_, ?_⟩
  · show evalY o.update.coefficients x = _
    rw [hc]
    rfl
  · show evalY o.update.update.derivative x = _
    rw [hu]
    rfl
  · show (Obj.solveX y d guess o.update).1 = _
    unfold Obj.solveX
    rw [hu]

example : (((Obj.new [1, 2]).slope 5).2.setCoefficients [0, 0, 3]).slope 2 =
    (12, ⟨[0, 0, 3], [0, 6], true⟩) := by
  norm_num [Obj.slope, Obj.update, Obj.setCoefficients, Obj.new, derivCoefficients, derivLoop, evalY, yLoop]

/-! ## C35 -/

/-- C35 is false: on `x² + 1 = 0` the call returns 0, which is no solution and no failure value. -/
theorem C35_no_root_not_signalled :
    ((Obj.new [1, 0, 1]).solveX 0 1 1).1 = .val 0 ∧ (Obj.new [1, 0, 1]).y 0 = 1 := by
  have stuck : ∀ fuel : ℕ, Obj.newton [1 - 0, 0, 1] [0, 2] (1 / 10) fuel 0 1 = 0 := by
    intro fuel
    induction fuel with
    | zero => rfl
    | succ n ih =>
      rw [Obj.newton, if_pos (by norm_num)]
      have h1 : evalY [0, 2] 0 = 0 := by norm_num [evalY, yLoop]
      have h2 : evalY [1 - 0, 0, 1] 0 = 1 := by norm_num [evalY, yLoop]
      simp only [h1, h2, ne_eq, not_true_eq_false, if_false]
      exact ih
  constructor
  · have hd : derivCoefficients [1, 0, 1] = [0, 2] := by norm_num [derivCoefficients, derivLoop]
    simp only [Obj.solveX, Obj.update, Obj.new, if_true, hd, zpow_one, Res.val.injEq]
    rw [Obj.newton, if_pos (by norm_num)]
    have h1 : evalY [0, 2] 1 = 2 := by norm_num [evalY, yLoop]
    have h2 : evalY [1 - 0, 0, 1] 1 = 2 := by norm_num [evalY, yLoop]
    simp only [h1, h2]
    rw [if_pos (by norm_num), Obj.newton, if_pos (by norm_num)]
    have h3 : evalY [0, 2] (1 - 2 / 2) = 0 := by norm_num [evalY, yLoop]
    have h4 : evalY [1 - 0, 0, 1] (1 - 2 / 2) = 1 := by norm_num [evalY, yLoop]
    simp only [h3, h4, ne_eq, not_true_eq_false, if_false]
    rw [show (1 : ℝ) - 2 / 2 = 0 by norm_num]
    exact stuck 98
  · norm_num [Obj.y, Obj.new, evalY, yLoop]

/-- C35 is false even when the iteration stops by tolerance: the returned point is one step beyond the
point that was checked. -/
theorem C35_step_after_check :
    ∃ x, ((Obj.new [0.05, 0, 1]).solveX 0 1 0.01).1 = .val x ∧ (1 : ℝ) / 10 < |(Obj.new [0.05, 0, 1]).y x| := by
  refine ⟨0.01 - 0.0501 / 0.02, ?_, ?_⟩
  · have hd : derivCoefficients [0.05, 0, 1] = [0, 2] := by norm_num [derivCoefficients, derivLoop]
    simp only [Obj.solveX, Obj.update, Obj.new, if_true, hd, zpow_one, Res.val.injEq]
    rw [Obj.newton, if_pos (by norm_num)]
    have h1 : evalY [0, 2] 0.01 = 0.02 := by norm_num [evalY, yLoop]
    have h2 : evalY [0.05 - 0, 0, 1] 0.01 = 0.0501 := by norm_num [evalY, yLoop]
    simp only [h1, h2]
    rw [if_pos (by norm_num), Obj.newton, if_neg (by norm_num [abs_of_pos])]
  · norm_num [Obj.y, Obj.new, evalY, yLoop, abs_of_pos]

/-- C35 for straight lines: the exact solution.
Missing: other polynomials, for which the claim is false in general. -/
theorem C35_linear_partial (c0 c1 y guess : ℝ) (hc : c1 ≠ 0) (d : ℤ) (hd : 0 ≤ d) :
    ∃ x, ((Obj.new [c0, c1]).solveX y d guess).1 = .val x ∧ (Obj.new [c0, c1]).y x = y := by
  refine ⟨(y - c0) / c1, ?_, ?_⟩
  · have hdc : derivCoefficients [c0, c1] = [c1] := by norm_num [derivCoefficients, derivLoop]
    simp only [Obj.solveX, Obj.update, Obj.new, if_true, hdc, Res.val.injEq]
    have hprec : 0 < 1 / (10 : ℝ) ^ d := by positivity
    have hprec1 : 1 / (10 : ℝ) ^ d ≤ 1 := by
      rw [div_le_one (by positivity)]; exact one_le_zpow₀ (by norm_num) hd
    generalize 1 / (10 : ℝ) ^ d = prec at *
    have h1 : ∀ x, evalY [c1] x = c1 := by intro x; norm_num [evalY, yLoop]
    have h2 : ∀ x, evalY [c0 - y, c1] x = c0 - y + c1 * x := by
      intro x; simp only [evalY, yLoop]; ring
    rw [Obj.newton, if_pos (by norm_num [abs_of_pos]; linarith)]
    simp only [h1, h2, if_pos hc]
    have hx : guess - (c0 - y + c1 * guess) / c1 = (y - c0) / c1 := by field_simp; ring
    rw [hx, Obj.newton]
    split
    · have h3 : c0 - y + c1 * ((y - c0) / c1) = 0 := by field_simp; ring
      simp only [h1, h2, if_pos hc, h3]
      rw [zero_div, sub_zero, Obj.newton, if_neg (by simpa using hprec.le)]
    · rfl
  · have h : (Obj.new [c0, c1]).y ((y - c0) / c1) = c0 + c1 * ((y - c0) / c1) := by
      simp only [Obj.y, Obj.new, evalY, yLoop]; ring
    rw [h]; field_simp; ring

/-- C35 for polynomials with nonnegative coefficients (from the linear one on, which is positive) when a
solution `r ≥ 0` exists and the guess is to the right of it: the call returns a point between solution
and guess with `Y` within `10^-d` of `y`, provided the guess is not so far away that a hundred
contractions by `1 - 1/degree` do not suffice.
Missing: other shapes and guesses. -/
theorem C35_monotone_partial (c0 c1 : ℝ) (cs : List ℝ) (hc1 : 0 < c1) (hcs : ∀ c ∈ cs, 0 ≤ c)
    (y r guess : ℝ) (hr : 0 ≤ r) (hry : (Obj.new (c0 :: c1 :: cs)).y r = y) (hg : r ≤ guess) (d : ℤ)
    (hfar : (1 - 1 / ((cs.length + 1 : ℕ) : ℝ)) ^ 99 * (guess - r) *
      ((Obj.new (c0 :: c1 :: cs)).slope guess).1 ≤ 1 / (10 : ℝ) ^ d) (hd : 0 ≤ d) :
    ∃ x, ((Obj.new (c0 :: c1 :: cs)).solveX y d guess).1 = .val x ∧ r ≤ x ∧ x ≤ guess ∧
      0 ≤ (Obj.new (c0 :: c1 :: cs)).y x - y ∧ (Obj.new (c0 :: c1 :: cs)).y x - y ≤ 1 / (10 : ℝ) ^ d := by
  set P := c1 :: cs with hP
  have hc : ∀ c ∈ P, 0 ≤ c := by
    intro c h
    rcases List.mem_cons.mp h with rfl | h
    · exact hc1.le
    · exact hcs c h
  set N := cs.length + 1 with hN
  have hNpos : (0 : ℝ) < N := by exact_mod_cast Nat.succ_pos _
  set prec := 1 / (10 : ℝ) ^ d with hprec
  have hprec1 : prec ≤ 1 := by
    rw [hprec, div_le_one (by positivity)]; exact one_le_zpow₀ (by norm_num) hd
  have hsh : ∀ x, evalY ((c0 - y) :: P) x = sumFrom x 1 P - sumFrom r 1 P := by
    intro x
    have h1 : evalY (c0 :: P) r = y := hry
    simp only [evalY_eq, sumFrom, pow_zero, mul_one, zero_add] at h1 ⊢
    linarith
  have hdv : ∀ x, evalY (derivCoefficients (c0 :: P)) x = dsumFrom x 1 P := by
    intro x; rw [evalY_deriv]; simp [dsumFrom]
  have hDpos : ∀ x, r ≤ x → 0 < dsumFrom x 1 P := by
    intro x hx
    have h0 := dsumFrom_nonneg (hr.trans hx) 2 cs hcs
    simp only [hP, dsumFrom]
    norm_num
    linarith
  have hmono : ∀ x z, r ≤ x → x ≤ z → sumFrom x 1 P ≤ sumFrom z 1 P :=
    fun x z hx hz => sumFrom_mono (hr.trans hx) hz 1 P hc
  have hstep : ∀ x, r ≤ x → r ≤ x - (sumFrom x 1 P - sumFrom r 1 P) / dsumFrom x 1 P := by
    intro x hx
    have h := sumFrom_tangent (hr.trans hx) hr 1 P hc
    have hD := hDpos x hx
    have : (sumFrom x 1 P - sumFrom r 1 P) / dsumFrom x 1 P ≤ x - r := by
      rw [div_le_iff₀ hD]; nlinarith
    linarith
  -- contraction of the iterates
  set F : ℝ → ℝ := fun z => z - evalY ((c0 - y) :: P) z / evalY (derivCoefficients (c0 :: P)) z with hF
  have hcontr : ∀ k : ℕ, r ≤ F^[k] guess ∧ F^[k] guess ≤ guess ∧
      F^[k] guess - r ≤ (1 - 1 / (N : ℝ)) ^ k * (guess - r) := by
    intro k
    induction k with
    | zero => simpa using hg
    | succ k ih =>
      rw [Function.iterate_succ_apply']
      obtain ⟨h1, h2, h3⟩ := ih
      generalize F^[k] guess = x at *
      have hFx : F x = x - (sumFrom x 1 P - sumFrom r 1 P) / dsumFrom x 1 P := by
        simp only [hF, hsh, hdv]
      have hD := hDpos x h1
      have hq : 0 ≤ (sumFrom x 1 P - sumFrom r 1 P) / dsumFrom x 1 P :=
        div_nonneg (by linarith [hmono r x (le_refl _) h1]) hD.le
      have hsec := sumFrom_secant hr h1 1 N P (by simp [hP, hN]; omega) hc
      have hq2 : (x - r) / N ≤ (sumFrom x 1 P - sumFrom r 1 P) / dsumFrom x 1 P := by
        rw [div_le_div_iff₀ hNpos hD]; nlinarith
      rw [hFx]
      refine ⟨hstep x h1, by linarith, ?_⟩
      have hN1 : (1 : ℝ) ≤ N := by exact_mod_cast Nat.succ_le_succ (Nat.zero_le _)
      have h0 : 0 ≤ 1 - 1 / (N : ℝ) := by
        have : 1 / (N : ℝ) ≤ 1 := by rw [div_le_one hNpos]; exact hN1
        linarith
      calc _ ≤ (x - r) - (x - r) / N := by linarith
        _ = (1 - 1 / (N : ℝ)) * (x - r) := by ring
        _ ≤ (1 - 1 / (N : ℝ)) * ((1 - 1 / (N : ℝ)) ^ k * (guess - r)) := mul_le_mul_of_nonneg_left h3 h0
        _ = _ := by ring
  have hlast : evalY ((c0 - y) :: P) (F^[99] guess) ≤ prec := by
    obtain ⟨h1, h2, h3⟩ := hcontr 99
    generalize F^[99] guess = z at *
    generalize (1 - 1 / (N : ℝ)) ^ 99 = q at *
    rw [hsh]
    have ht := sumFrom_tangent (hr.trans h1) hr 1 P hc
    have hm := dsumFrom_mono (hr.trans h1) h2 1 P hc
    have hs : ((Obj.new (c0 :: P)).slope guess).1 = dsumFrom guess 1 P := by
      simp only [Obj.slope, Obj.update, Obj.new, if_true]; exact hdv guess
    rw [hs] at hfar
    have hG := hDpos guess hg
    have hmul : dsumFrom (z) 1 P * (z - r) ≤
        dsumFrom guess 1 P * (q * (guess - r)) :=
      mul_le_mul hm h3 (by linarith) hG.le
    linarith
  have hn := newton_right ((c0 - y) :: P) (derivCoefficients (c0 :: P)) prec r
    (fun x hx => by rw [hdv]; exact hDpos x hx)
    (fun x hx => by rw [hsh]; linarith [hmono r x (le_refl _) hx])
    (fun x hx => by rw [hsh, hdv]; exact hstep x hx)
    (fun x z hx hz => by rw [hsh, hsh]; linarith [hmono x z hx hz]) 100 guess (-999999) hg
    (fun h => absurd h (by norm_num [abs_of_pos]; linarith))
  have hval : ((Obj.new (c0 :: P)).solveX y d guess).1 =
      .val (Obj.newton ((c0 - y) :: P) (derivCoefficients (c0 :: P)) prec 100 guess (-999999)) := by
    simp only [Obj.solveX, Obj.update, Obj.new, if_true, hprec]
  refine ⟨_, hval, hn.1.1, hn.1.2, ?_, ?_⟩
  · have := hmono r _ (le_refl _) hn.1.1
    have h2 := hsh (Obj.newton ((c0 - y) :: P) (derivCoefficients (c0 :: P)) prec 100 guess (-999999))
    rw [evalY_shift] at h2
    simp only [Obj.y, Obj.new]
    linarith
  · have h := hn.2 (Or.inl ⟨99, by norm_num, hlast⟩)
    rw [evalY_shift] at h
    exact h

/-- The hypotheses are satisfied by solving `x² + x = 2` from the guess 3 to two decimals. -/
example : ∃ x, ((Obj.new [0, 1, 1]).solveX 2 2 3).1 = .val x ∧ 1 ≤ x ∧ x ≤ 3 ∧
    0 ≤ (Obj.new [0, 1, 1]).y x - 2 ∧ (Obj.new [0, 1, 1]).y x - 2 ≤ 1 / (10 : ℝ) ^ (2 : ℤ) := by
  refine C35_monotone_partial 0 1 [1] one_pos (by simp) 2 1 3 (by norm_num) ?_ (by norm_num) 2 ?_
    (by norm_num)
  · norm_num [Obj.y, Obj.new, evalY, yLoop]
  · norm_num [Obj.slope, Obj.update, Obj.new, derivCoefficients, derivLoop, evalY, yLoop]

end Verif.Props
