import Verif.Catenary3d
import Verif.Catenary2dLemmas

/-! # Lemmas about the 3D catenary -/

set_option linter.unusedSectionVars false

namespace Verif

namespace V2

/-- Unsigned angle of a vector pointing right. -/
theorem angle_of_pos (v : V2) (hx : 0 < v.x) :
    v.angle = toDegrees (Real.arctan (v.y / v.x)) + (if v.y < 0 then 360 else 0) := by
  have h0 : ¬ v.x = 0 := hx.ne'
  unfold angle
  simp only [h0, false_and, if_false, false_or, hx, hx.le, if_true, and_false, Bool.false_eq_true,
    not_le.2 hx]
  rcases lt_trichotomy v.y 0 with hy | hy | hy
  · have ha : Real.arctan (v.y / v.x) < 0 := Real.arctan_lt_zero.2 (div_neg_of_neg_of_pos hy hx)
    simp only [hy.ne, not_le.2 hy, if_false, hy, if_true]
    rw [abs_of_neg ha, toDegrees_eq, toDegrees_eq]
    ring
  · simp [hy, toDegrees_eq]
  · simp [hy.ne', hy.le, not_lt.2 hy.le]

end V2

namespace V3

theorem rotate_magnitude (v : V3) (p : Plane) (t : ℝ) : (v.rotate p t).magnitude = v.magnitude := by
  have rsq : ∀ (u : V2), (u.rotate t).x ^ 2 + (u.rotate t).y ^ 2 = u.x ^ 2 + u.y ^ 2 := by
    intro u; rw [← V2.magnitude_sq, ← V2.magnitude_sq, V2.rotate_magnitude]
  unfold magnitude
  congr 1
  unfold rotate
  split
  · rfl
  · cases p <;> simp only [planar, setPlanar]
    · have := rsq ⟨v.x, v.y⟩; simp only at this; linarith
    · have := rsq ⟨v.x, v.z⟩; simp only at this; linarith
    · have := rsq ⟨v.y, v.x⟩; simp only at this; linarith
    · have := rsq ⟨v.y, v.z⟩; simp only at this; linarith
    · have := rsq ⟨v.z, v.x⟩; simp only at this; linarith
    · have := rsq ⟨v.z, v.y⟩; simp only at this; linarith

theorem magnitude_sq (v : V3) : v.magnitude ^ 2 = v.x ^ 2 + v.y ^ 2 + v.z ^ 2 :=
  Real.sq_sqrt (by positivity)

theorem magnitude_nonneg (v : V3) : 0 ≤ v.magnitude := Real.sqrt_nonneg _

theorem magnitude_scale (v : V3) {f : ℝ} (hf : 0 ≤ f) : (v.scale f).magnitude = v.magnitude * f := by
  unfold magnitude scale
  have : (v.x * f) ^ 2 + (v.y * f) ^ 2 + (v.z * f) ^ 2 = (v.x ^ 2 + v.y ^ 2 + v.z ^ 2) * f ^ 2 := by ring
  rw [this, Real.sqrt_mul (by positivity), Real.sqrt_sq hf]

/-- Rotation keeps the zero vector. -/
theorem rotate_zero (p : Plane) (t : ℝ) : (V3.mk 0 0 0).rotate p t = ⟨0, 0, 0⟩ := by
  have h := rotate_magnitude ⟨0, 0, 0⟩ p t
  have h0 : (V3.mk 0 0 0).magnitude = 0 := by simp [magnitude]
  rw [h0] at h
  have hs := magnitude_sq ((V3.mk 0 0 0).rotate p t)
  rw [h] at hs
  ext <;> apply pow_eq_zero_iff (two_ne_zero) |>.1 <;>
    nlinarith [sq_nonneg ((V3.mk 0 0 0).rotate p t).x, sq_nonneg ((V3.mk 0 0 0).rotate p t).y,
      sq_nonneg ((V3.mk 0 0 0).rotate p t).z]

end V3

namespace Catenary3d

/-- Invariant of histories: the inner catenary has a history of its own, and when the flag is set it
carries the projected parameters. -/
def Inv (k : Catenary3d) : Prop :=
  (∃ es : List Catenary2d.Event, k.catenary2d = es.foldl Catenary2d.Event.next Catenary2d.new ∧
    (k.isUpdated = true → es.any Catenary2d.Event.isSetter = true)) ∧
  (k.isUpdated = true → k.catenary2d.spacing = k.spacing2d ∧
    k.catenary2d.weightUnit = k.weightUnit.magnitude)

theorem inv_new : new.Inv := ⟨⟨[], rfl, by intro h; cases h⟩, by intro h; cases h⟩

theorem inv_refresh {k : Catenary3d} (h : k.Inv) : k.refresh.Inv := by
  unfold refresh
  split
  · obtain ⟨⟨es, e, _⟩, _⟩ := h
    refine ⟨⟨es ++ [.setSpacing k.spacing2d, .setWeight k.weightUnit.magnitude], ?_, ?_⟩, ?_⟩
    · rw [List.foldl_append, ← e]; rfl
    · intro _; simp [Catenary2d.Event.isSetter]
    · intro _; exact ⟨rfl, rfl⟩
  · exact h

theorem inv_next {k : Catenary3d} (h : k.Inv) (e : Event) : (e.next k).Inv := by
  cases e with
  | setDirection d => exact h
  | setSpacing v =>
    obtain ⟨⟨es, e, _⟩, _⟩ := h
    exact ⟨⟨es, e, by intro h; cases h⟩, by intro h; cases h⟩
  | setWeight v =>
    obtain ⟨⟨es, e, _⟩, _⟩ := h
    exact ⟨⟨es, e, by intro h; cases h⟩, by intro h; cases h⟩
  | setTension v =>
    obtain ⟨⟨es, e, _⟩, h2⟩ := h
    refine ⟨⟨es ++ [.setTension v], ?_, ?_⟩, h2⟩
    · rw [List.foldl_append, ← e]; rfl
    · intro _; simp [Catenary2d.Event.isSetter]
  | touch => exact inv_refresh h
  | query =>
    obtain ⟨⟨es, e, hs⟩, h2⟩ := inv_refresh h
    refine ⟨⟨es ++ [.query], ?_, ?_⟩, ?_⟩
    · rw [List.foldl_append, ← e]; rfl
    · intro hu; rw [List.any_append, hs hu]; rfl
    · intro hu
      obtain ⟨a, b, c⟩ := Catenary2d.refresh_params k.refresh.catenary2d
      show k.refresh.catenary2d.refresh.spacing = _ ∧ k.refresh.catenary2d.refresh.weightUnit = _
      rw [b, c]
      exact h2 hu

theorem Reachable.inv {k : Catenary3d} (h : k.Reachable) : k.Inv := by
  obtain ⟨es, rfl⟩ := h
  have : ∀ (es : List Event) (k : Catenary3d), k.Inv → (es.foldl Event.next k).Inv := by
    intro es
    induction es with
    | nil => exact fun k h => h
    | cons e es ih => exact fun k h => ih _ (inv_next h e)
  exact this es new inv_new

theorem refresh_isUpdated (k : Catenary3d) : k.refresh.isUpdated = true := by
  unfold refresh; split
  · rfl
  · rename_i h; simpa using h

theorem refresh_params (k : Catenary3d) : k.refresh.direction = k.direction ∧
    k.refresh.spacing = k.spacing ∧ k.refresh.weightUnit = k.weightUnit ∧
    k.refresh.catenary2d.tensionHorizontal = k.tensionHorizontal := by
  unfold refresh; split <;> exact ⟨rfl, rfl, rfl, rfl⟩

theorem refresh_spacing2d (k : Catenary3d) : k.refresh.spacing2d = k.spacing2d := by
  unfold spacing2d
  rw [(refresh_params k).2.1, (refresh_params k).2.2.1]

/-- The inner catenary seen by a query. -/
theorem Reachable.inner {k : Catenary3d} (h : k.Reachable) :
    k.refresh.catenary2d.Reachable ∧ k.refresh.catenary2d.spacing = k.spacing2d ∧
      k.refresh.catenary2d.weightUnit = k.weightUnit.magnitude := by
  obtain ⟨⟨es, e, hs⟩, h2⟩ := inv_refresh h.inv
  obtain ⟨a, b⟩ := h2 (refresh_isUpdated k)
  refine ⟨⟨es, hs (refresh_isUpdated k), e⟩, ?_, ?_⟩
  · rw [a, refresh_spacing2d]
  · rw [b, (refresh_params k).2.2.1]

/-- Spacing and load of a physical span. -/
structure Physical (k : Catenary3d) : Prop where
  h : 0 < k.tensionHorizontal
  sx : 0 < k.spacing.x
  sy : k.spacing.y = 0
  wx : k.weightUnit.x = 0
  wy : 0 ≤ k.weightUnit.y
  wz : 0 < k.weightUnit.z

section
variable {k : Catenary3d} (P : k.Physical)
include P

theorem Physical.w_pos : 0 < k.weightUnit.magnitude := by
  apply Real.sqrt_pos.2
  have := P.wz
  positivity

/-- The share of the load that is vertical. -/
theorem Physical.ratio : 0 < |k.weightUnit.z| / k.weightUnit.magnitude ∧
    |k.weightUnit.z| / k.weightUnit.magnitude ≤ 1 := by
  have hw := P.w_pos
  have hz := P.wz
  refine ⟨div_pos (abs_pos.2 hz.ne') hw, ?_⟩
  rw [div_le_one hw]
  apply Real.le_sqrt_of_sq_le
  rw [sq_abs]
  nlinarith [sq_nonneg k.weightUnit.x, sq_nonneg k.weightUnit.y]

theorem Physical.radicand :
    k.spacing.x ^ 2 ≤ k.spacing.magnitude ^ 2 - (k.spacing.z * (|k.weightUnit.z| / k.weightUnit.magnitude)) ^ 2 := by
  obtain ⟨r0, r1⟩ := P.ratio
  rw [V3.magnitude_sq, P.sy, mul_pow]
  have : (|k.weightUnit.z| / k.weightUnit.magnitude) ^ 2 ≤ 1 := by nlinarith
  nlinarith [sq_nonneg k.spacing.z]

/-- The 2D spacing points right. -/
theorem Physical.s2x : k.spacing.x ≤ k.spacing2d.x := by
  unfold spacing2d
  exact Real.le_sqrt_of_sq_le P.radicand

/-- The 2D chord is as long as the 3D chord. -/
theorem Physical.chord : k.spacing2d.magnitude = k.spacing.magnitude := by
  have h := P.radicand
  unfold spacing2d V2.magnitude
  simp only
  rw [Real.sq_sqrt (le_trans (sq_nonneg _) h), sub_add_cancel, Real.sqrt_sq (V3.magnitude_nonneg _)]

theorem Physical.inner_positive (R : k.Reachable) : k.refresh.catenary2d.Positive := by
  obtain ⟨_, s, w⟩ := R.inner
  refine ⟨?_, ?_, ?_⟩
  · rw [(refresh_params k).2.2.2]; exact P.h
  · rw [w]; exact P.w_pos
  · rw [s]; exact lt_of_lt_of_le P.sx P.s2x

/-- The difference of the chord's elevation angles in 3D and 2D, signed or not. -/
theorem Physical.angle_diff :
    k.spacing.angle .xz - k.spacing2d.angle = toDegrees (Real.arctan (k.spacing.z / k.spacing.x) -
        Real.arctan (k.spacing2d.y / k.spacing2d.x)) ∧
    k.spacing.angle .xz true - k.spacing2d.angle true =
      toDegrees (Real.arctan (k.spacing.z / k.spacing.x) - Real.arctan (k.spacing2d.y / k.spacing2d.x)) := by
  obtain ⟨r0, r1⟩ := P.ratio
  have hx2 : 0 < k.spacing2d.x := lt_of_lt_of_le P.sx P.s2x
  have e1 : k.spacing.angle .xz = (V2.mk k.spacing.x k.spacing.z).angle := rfl
  have e2 : k.spacing.angle .xz true = (V2.mk k.spacing.x k.spacing.z).angle true := rfl
  have hs : k.spacing2d.y < 0 ↔ k.spacing.z < 0 := by
    show k.spacing.z * _ < 0 ↔ _
    constructor
    · intro h
      by_contra hn
      have := mul_nonneg (not_lt.1 hn) r0.le
      linarith
    · exact fun h => mul_neg_of_neg_of_pos h r0
  rw [e1, e2, V2.angle_of_pos _ P.sx, V2.angle_of_pos _ hx2, V2.angle_true_of_pos _ P.sx,
    V2.angle_true_of_pos _ hx2]
  simp only [hs, toDegrees_eq]
  constructor <;> ring

end

end Catenary3d
end Verif
