import Mathlib.Analysis.Calculus.Deriv.Pow
import Mathlib.Analysis.Calculus.Deriv.Add
import Mathlib.Analysis.Calculus.Deriv.Mul
import Mathlib.Tactic.Ring
import Mathlib.Tactic.Linarith
import Mathlib.Tactic.Positivity
import Mathlib.Tactic.FieldSimp
import Verif.Polynomial

/-! # Lemmas about the polynomial model -/

namespace Verif.Poly

/-- Sum of `c_i x^(n+i)`. -/
def sumFrom (x : ℝ) : ℕ → List ℝ → ℝ
  | _, [] => 0
  | n, c :: cs => c * x ^ n + sumFrom x (n + 1) cs

theorem yLoop_eq (x : ℝ) (n : ℕ) (cs : List ℝ) (y : ℝ) : yLoop x n cs y = y + sumFrom x n cs := by
  induction cs generalizing n y with
  | nil => simp [yLoop, sumFrom]
  | cons c cs ih => rw [yLoop, ih, sumFrom]; ring

theorem evalY_eq (cs : List ℝ) (x : ℝ) : evalY cs x = sumFrom x 0 cs := by
  rw [evalY, yLoop_eq, zero_add]

/-- Sum of `c_i (n+i) x^(n+i-1)`. -/
def dsumFrom (x : ℝ) : ℕ → List ℝ → ℝ
  | _, [] => 0
  | n, c :: cs => c * (n * x ^ (n - 1)) + dsumFrom x (n + 1) cs

theorem hasDerivAt_sumFrom (n : ℕ) (cs : List ℝ) (x : ℝ) :
    HasDerivAt (fun z => sumFrom z n cs) (dsumFrom x n cs) x := by
  induction cs generalizing n with
  | nil => simpa [sumFrom, dsumFrom] using! hasDerivAt_const x (0 : ℝ)
  | cons c cs ih =>
    simp only [sumFrom, dsumFrom]
    exact ((hasDerivAt_pow n x).const_mul c).add (ih (n + 1))

theorem sumFrom_derivLoop (x : ℝ) (n : ℕ) (cs : List ℝ) :
    sumFrom x n (derivLoop (n + 1) cs) = dsumFrom x (n + 1) cs := by
  induction cs generalizing n with
  | nil => rfl
  | cons c cs ih =>
    simp only [derivLoop, dsumFrom, ne_eq, Nat.succ_ne_zero, not_false_eq_true, if_true, sumFrom, ih]
    simp only [Nat.add_sub_cancel]
    ring

theorem evalY_deriv (cs : List ℝ) (x : ℝ) : evalY (derivCoefficients cs) x = dsumFrom x 0 cs := by
  rw [evalY_eq, derivCoefficients]
  cases cs with
  | nil => rfl
  | cons c cs =>
    simp only [derivLoop, ne_eq, not_true_eq_false, if_false, dsumFrom]
    rw [sumFrom_derivLoop]; simp

theorem evalY_shift (c y : ℝ) (cs : List ℝ) (x : ℝ) : evalY ((c - y) :: cs) x = evalY (c :: cs) x - y := by
  simp only [evalY_eq, sumFrom, pow_zero, mul_one]; ring

/-- The cached derivative belongs to the current coefficients. -/
def Obj.Fresh (o : Obj) : Prop := o.isUpdated = true → o.derivative = derivCoefficients o.coefficients

theorem Obj.update_derivative {o : Obj} (h : o.Fresh) :
    o.update.derivative = derivCoefficients o.coefficients ∧ o.update.coefficients = o.coefficients ∧
    o.update.Fresh := by
  unfold Obj.update
  split
  · exact ⟨rfl, rfl, fun _ => rfl⟩
  · rename_i hu
    exact ⟨h (by simpa using hu), rfl, h⟩

theorem Call.fresh (c : Call) {o : Obj} (h : o.Fresh) : (c.apply o).Fresh := by
  cases c with
  | setCoefficients cs => exact fun h => absurd h (by simp [Call.apply, Obj.setCoefficients])
  | slope x => exact (Obj.update_derivative h).2.2
  | solveX y d g =>
    simp only [Call.apply, Obj.solveX]
    split <;> exact (Obj.update_derivative h).2.2
  | validate => exact (Obj.update_derivative h).2.2

theorem Call.coefficients (c : Call) (o : Obj) :
    (c.apply o).coefficients = match c with | .setCoefficients cs => cs | _ => o.coefficients := by
  have hu : o.update.coefficients = o.coefficients := by unfold Obj.update; split <;> rfl
  cases c with
  | setCoefficients cs => rfl
  | slope x => exact hu
  | solveX y d g =>
    simp only [Call.apply, Obj.solveX]
    split <;> exact hu
  | validate => exact hu

/-! ### Polynomials with nonnegative coefficients on the nonnegative half line -/

theorem pow_tangent {x z : ℝ} (hx : 0 ≤ x) (hz : 0 ≤ z) (n : ℕ) :
    x ^ n + n * x ^ (n - 1) * (z - x) ≤ z ^ n := by
  induction n with
  | zero => simp
  | succ n ih =>
    cases n with
    | zero => simp
    | succ n =>
      simp only [Nat.add_sub_cancel] at ih ⊢
      push_cast at ih ⊢
      have h := mul_le_mul_of_nonneg_left ih hz
      have h2 : 0 ≤ ((n : ℝ) + 1) * x ^ n * (z - x) ^ 2 := by positivity
      calc x ^ (n + 1 + 1) + ((n : ℝ) + 1 + 1) * x ^ (n + 1) * (z - x)
          = z * (x ^ (n + 1) + ((n : ℝ) + 1) * x ^ n * (z - x)) - ((n : ℝ) + 1) * x ^ n * (z - x) ^ 2 := by
            ring
        _ ≤ z * z ^ (n + 1) := by linarith
        _ = z ^ (n + 1 + 1) := by ring

theorem sumFrom_tangent {x z : ℝ} (hx : 0 ≤ x) (hz : 0 ≤ z) (n : ℕ) (cs : List ℝ) (hc : ∀ c ∈ cs, 0 ≤ c) :
    sumFrom x n cs + dsumFrom x n cs * (z - x) ≤ sumFrom z n cs := by
  induction cs generalizing n with
  | nil => simp [sumFrom, dsumFrom]
  | cons c cs ih =>
    have h1 := mul_le_mul_of_nonneg_left (pow_tangent hx hz n) (hc c (by simp))
    have h2 := ih (n + 1) (fun d hd => hc d (by simp [hd]))
    simp only [sumFrom, dsumFrom]
    nlinarith

theorem sumFrom_mono {x z : ℝ} (hx : 0 ≤ x) (hxz : x ≤ z) (n : ℕ) (cs : List ℝ) (hc : ∀ c ∈ cs, 0 ≤ c) :
    sumFrom x n cs ≤ sumFrom z n cs := by
  induction cs generalizing n with
  | nil => simp [sumFrom]
  | cons c cs ih =>
    simp only [sumFrom]
    have h1 := mul_le_mul_of_nonneg_left (pow_le_pow_left₀ hx hxz n) (hc c (by simp))
    have h2 := ih (n + 1) (fun d hd => hc d (by simp [hd]))
    linarith

theorem dsumFrom_mono {x z : ℝ} (hx : 0 ≤ x) (hxz : x ≤ z) (n : ℕ) (cs : List ℝ) (hc : ∀ c ∈ cs, 0 ≤ c) :
    dsumFrom x n cs ≤ dsumFrom z n cs := by
  induction cs generalizing n with
  | nil => simp [dsumFrom]
  | cons c cs ih =>
    simp only [dsumFrom]
    have h0 : (n : ℝ) * x ^ (n - 1) ≤ n * z ^ (n - 1) :=
      mul_le_mul_of_nonneg_left (pow_le_pow_left₀ hx hxz _) (by positivity)
    have h1 := mul_le_mul_of_nonneg_left h0 (hc c (by simp))
    have h2 := ih (n + 1) (fun d hd => hc d (by simp [hd]))
    linarith

theorem dsumFrom_nonneg {x : ℝ} (hx : 0 ≤ x) (n : ℕ) (cs : List ℝ) (hc : ∀ c ∈ cs, 0 ≤ c) :
    0 ≤ dsumFrom x n cs := by
  induction cs generalizing n with
  | nil => simp [dsumFrom]
  | cons c cs ih =>
    simp only [dsumFrom]
    have h1 : 0 ≤ c * (n * x ^ (n - 1)) := mul_nonneg (hc c (by simp)) (by positivity)
    have h2 := ih (n + 1) (fun d hd => hc d (by simp [hd]))
    linarith

/-- The secant dominates a fraction of the tangent. -/
theorem pow_secant {r x : ℝ} (hr : 0 ≤ r) (hrx : r ≤ x) {n N : ℕ} (hn : n ≤ N) :
    (n * x ^ (n - 1)) * (x - r) ≤ N * (x ^ n - r ^ n) := by
  have hx : 0 ≤ x := hr.trans hrx
  cases n with
  | zero => simp
  | succ n =>
    simp only [Nat.add_sub_cancel]
    have h1 : x ^ n * (x - r) ≤ x ^ (n + 1) - r ^ (n + 1) := by
      have : r ^ n * r ≤ x ^ n * r := mul_le_mul_of_nonneg_right (pow_le_pow_left₀ hr hrx n) hr
      rw [pow_succ, pow_succ]; linarith
    have h0 : 0 ≤ x ^ n * (x - r) := mul_nonneg (by positivity) (by linarith)
    have hN : ((n + 1 : ℕ) : ℝ) ≤ N := by exact_mod_cast hn
    calc ((n + 1 : ℕ) : ℝ) * x ^ n * (x - r) = ((n + 1 : ℕ) : ℝ) * (x ^ n * (x - r)) := by ring
      _ ≤ N * (x ^ n * (x - r)) := mul_le_mul_of_nonneg_right hN h0
      _ ≤ _ := mul_le_mul_of_nonneg_left h1 (by positivity)

theorem sumFrom_secant {r x : ℝ} (hr : 0 ≤ r) (hrx : r ≤ x) (n N : ℕ) (cs : List ℝ)
    (hN : n + cs.length ≤ N + 1) (hc : ∀ c ∈ cs, 0 ≤ c) :
    dsumFrom x n cs * (x - r) ≤ N * (sumFrom x n cs - sumFrom r n cs) := by
  induction cs generalizing n with
  | nil => simp [sumFrom, dsumFrom]
  | cons c cs ih =>
    have hl : n ≤ N := by simp only [List.length_cons] at hN; omega
    have h1 := mul_le_mul_of_nonneg_left (pow_secant hr hrx hl) (hc c (by simp))
    have h2 := ih (n + 1) (by simp only [List.length_cons] at hN; omega) (fun d hd => hc d (by simp [hd]))
    simp only [sumFrom, dsumFrom]
    nlinarith

/-! ### Newton's loop -/

/-- On a half line where the step keeps to the right of the root and values decrease, the loop ends at a
point within tolerance as soon as one of the iterates is within tolerance. -/
theorem newton_right (sh dv : List ℝ) (prec r : ℝ)
    (hD : ∀ x, r ≤ x → 0 < evalY dv x) (hF : ∀ x, r ≤ x → 0 ≤ evalY sh x)
    (hstep : ∀ x, r ≤ x → r ≤ x - evalY sh x / evalY dv x)
    (hmono : ∀ x z, r ≤ x → x ≤ z → evalY sh x ≤ evalY sh z) (fuel : ℕ) :
    ∀ x y, r ≤ x → (|y| ≤ prec → evalY sh x ≤ prec) →
      (r ≤ Obj.newton sh dv prec fuel x y ∧ Obj.newton sh dv prec fuel x y ≤ x) ∧
      (((∃ k, k < fuel ∧ evalY sh ((fun z => z - evalY sh z / evalY dv z)^[k] x) ≤ prec) ∨ |y| ≤ prec) →
        evalY sh (Obj.newton sh dv prec fuel x y) ≤ prec) := by
  induction fuel with
  | zero =>
    intro x y hx hy
    refine ⟨⟨hx, le_refl _⟩, ?_⟩
    rintro (⟨k, hk, -⟩ | h)
    · omega
    · exact hy h
  | succ fuel ih =>
    intro x y hx hy
    rw [Obj.newton]
    by_cases hp : prec < |y|
    · rw [if_pos hp]
      simp only [if_pos (hD x hx).ne']
      have hle : x - evalY sh x / evalY dv x ≤ x := by
        have := div_nonneg (hF x hx) (hD x hx).le; linarith
      have := ih (x - evalY sh x / evalY dv x) (evalY sh x) (hstep x hx) (by
        intro h
        rw [abs_of_nonneg (hF x hx)] at h
        exact (hmono _ _ (hstep x hx) hle).trans h)
      refine ⟨⟨this.1.1, this.1.2.trans hle⟩, ?_⟩
      rintro (⟨k, hk, h⟩ | h)
      · apply this.2
        cases k with
        | zero => right; rw [abs_of_nonneg (hF x hx)]; exact h
        | succ k => left; exact ⟨k, by omega, h⟩
      · exact absurd hp (not_lt.mpr h)
    · rw [if_neg hp]
      exact ⟨⟨hx, le_refl _⟩, fun _ => hy (not_lt.mp hp)⟩

end Verif.Poly
