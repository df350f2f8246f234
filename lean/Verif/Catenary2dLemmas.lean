import Mathlib.Tactic.Linarith
import Mathlib.Tactic.FieldSimp
import Mathlib.Tactic.Positivity
import Mathlib.Analysis.SpecialFunctions.Trigonometric.DerivHyp
import Mathlib.Analysis.SpecialFunctions.Sqrt
import Mathlib.MeasureTheory.Integral.IntervalIntegral.FundThmCalculus
import Verif.Catenary2d
import Verif.VectorLemmas

/-! # Lemmas about the 2D catenary -/

set_option linter.unusedSectionVars false

namespace Verif

/-! ## Hyperbolic functions -/

/-- The graph of `cosh` lies above its tangents. -/
theorem cosh_tangent (u v : ℝ) : Real.cosh u + Real.sinh u * (v - u) ≤ Real.cosh v := by
  have h1 : Real.exp u * (1 + (v - u)) ≤ Real.exp v := by
    have := Real.add_one_le_exp (v - u)
    have e : Real.exp v = Real.exp u * Real.exp (v - u) := by rw [← Real.exp_add]; ring_nf
    rw [e]
    exact mul_le_mul_of_nonneg_left (by linarith) (Real.exp_pos u).le
  have h2 : Real.exp (-u) * (1 - (v - u)) ≤ Real.exp (-v) := by
    have := Real.add_one_le_exp (-(v - u))
    have e : Real.exp (-v) = Real.exp (-u) * Real.exp (-(v - u)) := by rw [← Real.exp_add]; ring_nf
    rw [e]
    exact mul_le_mul_of_nonneg_left (by linarith) (Real.exp_pos (-u)).le
  rw [Real.cosh_eq, Real.cosh_eq, Real.sinh_eq]
  linarith [h1, h2]

/-- Strictly so away from the point of contact. -/
theorem cosh_tangent_strict {u v : ℝ} (h : u ≠ v) :
    Real.cosh u + Real.sinh u * (v - u) < Real.cosh v := by
  have m1 := cosh_tangent u ((u + v) / 2)
  have m2 := cosh_tangent ((u + v) / 2) v
  rcases lt_or_gt_of_ne h with h | h
  · have s1 := Real.sinh_lt_sinh.2 (by linarith : u < (u + v) / 2)
    nlinarith
  · have s1 := Real.sinh_lt_sinh.2 (by linarith : (u + v) / 2 < u)
    nlinarith

/-- The graph of `cosh` lies below its chords. -/
theorem cosh_chord {l x r : ℝ} (hl : l ≤ x) (hr : x ≤ r) :
    (r - l) * Real.cosh x ≤ (r - x) * Real.cosh l + (x - l) * Real.cosh r := by
  have h1 := mul_le_mul_of_nonneg_left (cosh_tangent x l) (sub_nonneg.2 hr)
  have h2 := mul_le_mul_of_nonneg_left (cosh_tangent x r) (sub_nonneg.2 hl)
  linarith

namespace Catenary2d

/-- The parameters are those of a physical span. -/
structure Positive (k : Catenary2d) : Prop where
  h : 0 < k.tensionHorizontal
  w : 0 < k.weightUnit
  a : 0 < k.spacing.x

/-- The cached members belong to the current parameters. -/
def Solved (k : Catenary2d) : Prop := k.update = k

theorem update_idem (k : Catenary2d) : k.update.update = k.update := rfl

theorem refresh_params (k : Catenary2d) :
    k.refresh.tensionHorizontal = k.tensionHorizontal ∧ k.refresh.weightUnit = k.weightUnit ∧
      k.refresh.spacing = k.spacing := by
  unfold refresh; split <;> exact ⟨rfl, rfl, rfl⟩

/-- Once a setter has been called, an up-to-date flag means up-to-date members. -/
theorem consistent_foldl (es : List Event) (k : Catenary2d)
    (h : (k.isUpdated = true → k.Solved) ∨ es.any Event.isSetter = true) :
    (es.foldl Event.next k).isUpdated = true → (es.foldl Event.next k).Solved := by
  induction es generalizing k with
  | nil => simpa using h
  | cons e es ih =>
    apply ih
    cases e with
    | setSpacing v => left; intro c; cases c
    | setTension v => left; intro c; cases c
    | setWeight v => left; intro c; cases c
    | query =>
      rcases h with h | h
      · left
        intro _
        show k.refresh.Solved
        unfold refresh
        split
        · exact update_idem k
        · rename_i hu; exact h (by simpa using hu)
      · right; simpa [Event.isSetter] using h

/-- On a reachable object a query first makes the object what `Update` makes of it. -/
theorem Reachable.refresh_eq {k : Catenary2d} (h : k.Reachable) : k.refresh = k.update := by
  obtain ⟨es, hs, rfl⟩ := h
  have := consistent_foldl es new (Or.inr hs)
  unfold refresh
  split
  · rfl
  · rename_i hu
    exact (this (by simpa using hu)).symm

/-- The catenary constant. -/
theorem Positive.c {k : Catenary2d} (h : k.Positive) : 0 < k.tensionHorizontal / k.weightUnit :=
  div_pos h.h h.w

/-! ## The updated object -/

section
variable (k : Catenary2d)

/-- Half the span over the constant. -/
noncomputable def z : ℝ := (k.spacing.x / 2) / (k.tensionHorizontal / k.weightUnit)

/-- Abscissa of the middle of the span over the constant. -/
noncomputable def mid : ℝ := Real.arsinh ((k.spacing.y * k.z) / (k.spacing.x * Real.sinh k.z))

theorem update_left : k.update.left.x = (k.tensionHorizontal / k.weightUnit) * (k.mid - k.z) := rfl
theorem update_right : k.update.right.x = (k.tensionHorizontal / k.weightUnit) * (k.mid + k.z) := rfl
theorem update_left_y : k.update.left.y = k.coordinateY k.update.left.x := rfl
theorem update_lengthLeft : k.update.lengthLeft = k.lengthFromOrigin k.update.left.x := rfl
theorem update_length :
    k.update.length = k.lengthFromOrigin k.update.right.x - k.lengthFromOrigin k.update.left.x := rfl
theorem update_h : k.update.tensionHorizontal = k.tensionHorizontal := rfl
theorem update_w : k.update.weightUnit = k.weightUnit := rfl
theorem update_coordinateY (x : ℝ) : k.update.coordinateY x = k.coordinateY x := rfl
theorem update_lengthFromOrigin (x : ℝ) : k.update.lengthFromOrigin x = k.lengthFromOrigin x := rfl
theorem update_sp : k.update.spacing = k.spacing := rfl

end

section
variable {k : Catenary2d} (P : k.Positive)
include P

theorem z_pos : 0 < k.z := div_pos (by linarith [P.a]) P.c

/-- `x/c` at the left end. -/
theorem left_div : k.update.left.x / (k.tensionHorizontal / k.weightUnit) = k.mid - k.z := by
  rw [update_left, mul_div_assoc, mul_comm, div_mul_cancel₀ _ P.c.ne']

/-- `x/c` at the right end. -/
theorem right_div : k.update.right.x / (k.tensionHorizontal / k.weightUnit) = k.mid + k.z := by
  rw [update_right, mul_div_assoc, mul_comm, div_mul_cancel₀ _ P.c.ne']

theorem length_eq : k.update.length =
    k.tensionHorizontal / k.weightUnit * (2 * Real.cosh k.mid * Real.sinh k.z) := by
  rw [update_length, lengthFromOrigin, lengthFromOrigin, left_div P, right_div P, Real.sinh_add,
    Real.sinh_sub]
  ring

theorem length_pos : 0 < k.update.length := by
  rw [length_eq P]
  have := P.c
  have h1 := Real.cosh_pos k.mid
  have h2 := Real.sinh_pos_iff.2 (z_pos P)
  positivity

theorem rise_eq :
    k.tensionHorizontal / k.weightUnit * (2 * Real.sinh k.mid * Real.sinh k.z) = k.spacing.y := by
  have h2 := Real.sinh_pos_iff.2 (z_pos P)
  have hc := P.c
  have ha := P.a
  have hz : k.tensionHorizontal / k.weightUnit * k.z = k.spacing.x / 2 := by
    unfold z; exact mul_div_cancel₀ _ hc.ne'
  rw [mid, Real.sinh_arsinh]
  calc _ = (k.tensionHorizontal / k.weightUnit * k.z) * 2 * k.spacing.y / k.spacing.x := by
        field_simp
    _ = _ := by rw [hz]; field_simp

theorem span_eq : k.update.right.x - k.update.left.x = k.spacing.x := by
  have hc := P.c
  have hz : k.tensionHorizontal / k.weightUnit * k.z = k.spacing.x / 2 := by
    unfold z; exact mul_div_cancel₀ _ hc.ne'
  rw [update_left, update_right]
  linarith

/-- `sinh (x/c)` at a position. -/
theorem coordinateX_div (p : ℝ) :
    k.update.coordinateX p / (k.tensionHorizontal / k.weightUnit) =
      Real.arsinh ((p * k.update.length + k.update.lengthLeft) / (k.tensionHorizontal / k.weightUnit)) := by
  rw [coordinateX]
  simp only [update_h, update_w]
  rw [mul_div_assoc, mul_comm, div_mul_cancel₀ _ P.c.ne']

/-- The arc length from the low point to a position. -/
theorem lengthFromOrigin_coordinateX (p : ℝ) :
    k.lengthFromOrigin (k.update.coordinateX p) = p * k.update.length + k.update.lengthLeft := by
  rw [lengthFromOrigin, coordinateX_div P, Real.sinh_arsinh]
  exact mul_div_cancel₀ _ P.c.ne'

theorem coordinateX_lengthFromOrigin (p x : ℝ)
    (h : p * k.update.length + k.update.lengthLeft = k.lengthFromOrigin x) :
    k.update.coordinateX p = x := by
  have hc := P.c
  have := coordinateX_div P p
  rw [h, lengthFromOrigin, mul_comm, mul_div_assoc, div_self hc.ne', mul_one, Real.arsinh_sinh] at this
  have h3 := congrArg (· * (k.tensionHorizontal / k.weightUnit)) this
  simpa [div_mul_cancel₀ _ hc.ne'] using h3

theorem coordinateX_zero : k.update.coordinateX 0 = k.update.left.x :=
  coordinateX_lengthFromOrigin P _ _ (by rw [update_lengthLeft]; ring)

theorem coordinateX_one : k.update.coordinateX 1 = k.update.right.x :=
  coordinateX_lengthFromOrigin P _ _ (by rw [update_lengthLeft, update_length]; ring)

theorem coordinateX_strictMono : StrictMono k.update.coordinateX := by
  intro p q h
  have hl := length_pos P
  have hc := P.c
  show _ * Real.arsinh _ < _ * Real.arsinh _
  apply mul_lt_mul_of_pos_left _ hc
  apply Real.arsinh_strictMono
  apply div_lt_div_of_pos_right _ hc
  have := mul_lt_mul_of_pos_right h hl
  show p * k.update.length + _ < q * k.update.length + _
  linarith

theorem coordinateX_mem {p : ℝ} (h0 : 0 ≤ p) (h1 : p ≤ 1) :
    k.update.left.x ≤ k.update.coordinateX p ∧ k.update.coordinateX p ≤ k.update.right.x := by
  rw [← coordinateX_zero P, ← coordinateX_one P]
  exact ⟨(coordinateX_strictMono P).monotone h0, (coordinateX_strictMono P).monotone h1⟩

/-- Rise of the curve between the ends. -/
theorem rise_right : k.coordinateY k.update.right.x - k.coordinateY k.update.left.x = k.spacing.y := by
  rw [coordinateY, coordinateY, left_div P, right_div P, Real.cosh_add, Real.cosh_sub, ← rise_eq P]
  ring

/-- Tension at a position. -/
theorem tensionBody_update (p : ℝ) : k.update.tensionBody p =
    k.tensionHorizontal * Real.cosh (k.update.coordinateX p / (k.tensionHorizontal / k.weightUnit)) := rfl

theorem sinh_at (p : ℝ) : Real.sinh (k.update.coordinateX p / (k.tensionHorizontal / k.weightUnit)) =
    (p * k.update.length + k.update.lengthLeft) / (k.tensionHorizontal / k.weightUnit) := by
  rw [coordinateX_div P, Real.sinh_arsinh]

/-- The position fraction of an abscissa. -/
theorem coordinateX_convert (x : ℝ) :
    k.update.coordinateX (k.update.convertToPositionFraction x) = x := by
  apply coordinateX_lengthFromOrigin P
  have := length_pos P
  rw [convertToPositionFraction]
  rw [div_mul_cancel₀ _ this.ne']
  show k.lengthFromOrigin x - _ + _ = _
  ring

theorem convert_coordinateX (p : ℝ) :
    k.update.convertToPositionFraction (k.update.coordinateX p) = p :=
  (coordinateX_strictMono P).injective (coordinateX_convert P _)

end

end Catenary2d
end Verif
