import Verif.Props.Ampacity
import Mathlib.Tactic.GCongr

/-!
# C155, C156: the heat that a cable loses and the current that it may carry
-/

set_option linter.unusedSectionVars false

namespace Verif.Props

open Verif.Units

/-! ## The air in the film -/

/-- The elevation up to which the formula for air makes it thinner with height, in the unit of length. -/
def thinningLimit : UnitSystem → ℝ
  | .imperial => 39000
  | .metric => 11900
  | .null => 0

/-- The density of air, as a number that depends on the elevation over one that depends on the film temperature. -/
theorem density_form {u : UnitSystem} (hu : u ≠ .null) : ∃ a : ℝ → ℝ, (∀ e, 0 < a e) ∧ (∀ e f, -200 ≤ f →
    Heat.density u e f = some (a e / (1 + 0.00367 * f))) ∧
    (∀ e e', e ≤ e' → e' ≤ thinningLimit u → a e' ≤ a e) := by
  cases u with
  | null => exact absurd rfl hu
  | imperial =>
    refine ⟨fun e => 0.080695 - 2.901 * 10 ^ (-6 : ℤ) * e + 3.7 * 10 ^ (-11 : ℤ) * e ^ 2, fun e => ?_,
      fun e f hf => if_neg (by linarith), fun e e' h h' => ?_⟩
    · norm_num
      nlinarith [sq_nonneg (e - 39203)]
    · simp only [thinningLimit] at h'
      norm_num
      nlinarith [mul_nonneg (sub_nonneg.2 h) (show 0 ≤ 78000 - e - e' by linarith)]
  | metric =>
    refine ⟨fun e => 1.293 - 1.525 * 10 ^ (-4 : ℤ) * e + 6.379 * 10 ^ (-9 : ℤ) * e ^ 2, fun e => ?_,
      fun e f hf => if_neg (by linarith), fun e e' h h' => ?_⟩
    · norm_num
      nlinarith [sq_nonneg (e - 11953)]
    · simp only [thinningLimit] at h'
      norm_num
      nlinarith [mul_nonneg (sub_nonneg.2 h) (show 0 ≤ 23800 - e - e' by linarith)]

/-- The viscosity of air. -/
theorem viscosity_form {u : UnitSystem} (hu : u ≠ .null) : ∃ b : ℝ, 0 < b ∧ (∀ f, -200 ≤ f →
    Heat.viscosity u f = some (b * ((f + 273) ^ (1.5 : ℝ) / (f + 383.4)))) := by
  cases u with
  | null => exact absurd rfl hu
  | imperial =>
    refine ⟨0.00353 / 3600, by norm_num, fun f hf => ?_⟩
    simp only [Heat.viscosity, powFraction, divFinite]
    rw [if_neg (by linarith)]
    simp only [Option.bind_some]
    rw [if_neg (by linarith)]
    simp only [Option.map_some, Option.some.injEq]
    ring
  | metric =>
    refine ⟨1.458e-6, by norm_num, fun f hf => ?_⟩
    simp only [Heat.viscosity, powFraction, divFinite]
    rw [if_neg (by linarith)]
    simp only [Option.bind_some]
    rw [if_neg (by linarith)]
    simp only [Option.some.injEq]
    norm_num
    ring

/-- The conductivity of air grows faster than the square root of the absolute temperature. -/
theorem conductivity_grows {u : UnitSystem} (hu : u ≠ .null) {f g : ℝ} (h0 : -100 ≤ f) (h : f ≤ g) (h1 : g ≤ 1000) :
    Heat.conductivity u f * ((g + 273) / (f + 273)) ^ (0.5 : ℝ) ≤ Heat.conductivity u g := by
  have c1 := conductivity_pos hu h0 (h.trans h1)
  have c2 := conductivity_pos hu (h0.trans h) h1
  have key : Heat.conductivity u f ^ 2 * (g + 273) ≤ Heat.conductivity u g ^ 2 * (f + 273) := by
    have d0 : 0 ≤ g - f := by linarith
    obtain ⟨m, m0, hm1, hm2⟩ : ∃ m, 0 ≤ m ∧ Heat.conductivity u f + m * (g - f) ≤ Heat.conductivity u g ∧
        Heat.conductivity u f ≤ 2 * m * (f + 273) := by
      cases u with
      | null => exact absurd rfl hu
      | imperial =>
        refine ⟨1.98e-5, by norm_num, ?_, ?_⟩
        · simp only [Heat.conductivity]
          norm_num
          nlinarith [mul_nonneg d0 (show 0 ≤ 2000 - f - g by linarith)]
        · simp only [Heat.conductivity]
          norm_num
          nlinarith [sq_nonneg f]
      | metric =>
        refine ⟨6.5e-5, by norm_num, ?_, ?_⟩
        · simp only [Heat.conductivity]
          norm_num
          nlinarith [mul_nonneg d0 (show 0 ≤ 2000 - f - g by linarith)]
        · simp only [Heat.conductivity]
          norm_num
          nlinarith [sq_nonneg f]
    have x0 : 0 < f + 273 := by linarith
    have h2 := pow_le_pow_left₀ (by positivity) hm1 2
    have h3 := mul_le_mul_of_nonneg_right h2 x0.le
    have h4 := mul_le_mul_of_nonneg_right (mul_le_mul_of_nonneg_left hm2 c1.le) d0
    nlinarith [mul_nonneg (sq_nonneg (m * (g - f))) x0.le]
  have x0 : 0 < f + 273 := by linarith
  have y0 : 0 < g + 273 := by linarith
  have e : ((g + 273) / (f + 273)) ^ (0.5 : ℝ) = √((g + 273) / (f + 273)) := by
    rw [Real.sqrt_eq_rpow]; norm_num
  rw [e]
  refine le_of_sq_le_sq ?_ c2.le
  rw [mul_pow, Real.sq_sqrt (by positivity), ← mul_div_assoc, div_le_iff₀ x0]
  exact key

/-! ## Hotter cables -/

/-- The film grows in proportion less than the difference of temperature. -/
theorem film_ratio {a s t : ℝ} (ha : -100 ≤ a) (h : a ≤ s) (hst : s ≤ t) :
    1 ≤ (1 + 0.00367 * ((t + a) / 2)) / (1 + 0.00367 * ((s + a) / 2)) ∧
    ((t + a) / 2 + 273) / ((s + a) / 2 + 273) ≤ (1 + 0.00367 * ((t + a) / 2)) / (1 + 0.00367 * ((s + a) / 2)) ∧
    1 ≤ ((t + a) / 2 + 273) / ((s + a) / 2 + 273) ∧
    (1 + 0.00367 * ((t + a) / 2)) / (1 + 0.00367 * ((s + a) / 2)) * (s - a) ≤ t - a ∧
    (s < t → (1 + 0.00367 * ((t + a) / 2)) / (1 + 0.00367 * ((s + a) / 2)) * (s - a) < t - a) := by
  have p : 0 < 1 + 0.00367 * ((s + a) / 2) := by linarith
  have q : 0 < (s + a) / 2 + 273 := by linarith
  refine ⟨?_, ?_, ?_, ?_, ?_⟩
  · rw [le_div_iff₀ p]; linarith
  · rw [div_le_div_iff₀ q p]; nlinarith
  · rw [le_div_iff₀ q]; linarith
  · rw [div_mul_eq_mul_div, div_le_iff₀ p]; nlinarith
  · intro hlt
    rw [div_mul_eq_mul_div, div_lt_iff₀ p]; nlinarith

/-- What convection in moving air is proportional to, for a power of the wind speed. -/
theorem forced_up {u : UnitSystem} (hu : u ≠ .null) {a b d s t p : ℝ} (ha : -100 ≤ a) (h : a ≤ s) (hst : s ≤ t)
    (ht : t ≤ 1000) (hb : 0 < b) (hd : 0 < d) (p0 : 0 ≤ p) (p1 : p ≤ 0.6) :
    (d / (1 + 0.00367 * ((s + a) / 2)) / (b * (((s + a) / 2 + 273) ^ (1.5 : ℝ) / ((s + a) / 2 + 383.4)))) ^ p *
        (Heat.conductivity u ((s + a) / 2) * (s - a)) ≤
      (d / (1 + 0.00367 * ((t + a) / 2)) / (b * (((t + a) / 2 + 273) ^ (1.5 : ℝ) / ((t + a) / 2 + 383.4)))) ^ p *
        (Heat.conductivity u ((t + a) / 2) * (t - a)) ∧
    (s < t → (d / (1 + 0.00367 * ((s + a) / 2)) / (b * (((s + a) / 2 + 273) ^ (1.5 : ℝ) / ((s + a) / 2 + 383.4)))) ^ p *
        (Heat.conductivity u ((s + a) / 2) * (s - a)) <
      (d / (1 + 0.00367 * ((t + a) / 2)) / (b * (((t + a) / 2 + 273) ^ (1.5 : ℝ) / ((t + a) / 2 + 383.4)))) ^ p *
        (Heat.conductivity u ((t + a) / 2) * (t - a))) := by
  obtain ⟨r1, r2, r3, r4, r5⟩ := film_ratio ha h hst
  have K := conductivity_grows hu (f := (s + a) / 2) (g := (t + a) / 2) (by linarith) (by linarith) (by linarith)
  have k0 := conductivity_pos hu (x := (s + a) / 2) (by linarith) (by linarith)
  have k1 := conductivity_pos hu (x := (t + a) / 2) (by linarith) (by linarith)
  have f0 : -100 ≤ (s + a) / 2 := by linarith
  have fg : (s + a) / 2 ≤ (t + a) / 2 := by linarith
  generalize Heat.conductivity u ((s + a) / 2) = ks at *
  generalize Heat.conductivity u ((t + a) / 2) = kt at *
  generalize (s + a) / 2 = f at *
  generalize (t + a) / 2 = g at *
  have y1 : 0 < f + 273 := by linarith
  have y2 : 0 < g + 273 := by linarith
  have z1 : 0 < f + 383.4 := by linarith
  have z2 : 0 < g + 383.4 := by linarith
  have m1 : 0 < 1 + 0.00367 * f := by linarith
  have m2 : 0 < 1 + 0.00367 * g := by linarith
  have P1 : 0 < (f + 273) ^ (1.5 : ℝ) := Real.rpow_pos_of_pos y1 _
  have P2 : 0 < (g + 273) ^ (1.5 : ℝ) := Real.rpow_pos_of_pos y2 _
  set q := d / (1 + 0.00367 * f) / (b * ((f + 273) ^ (1.5 : ℝ) / (f + 383.4))) with hq
  set q' := d / (1 + 0.00367 * g) / (b * ((g + 273) ^ (1.5 : ℝ) / (g + 383.4))) with hq'
  have q0 : 0 < q := by positivity
  have q1 : 0 < q' := by positivity
  have e : ((g + 273) / (f + 273)) ^ (1.5 : ℝ) = (g + 273) ^ (1.5 : ℝ) / (f + 273) ^ (1.5 : ℝ) :=
    Real.div_rpow y2.le y1.le _
  have hle : q ≤ q' * ((1 + 0.00367 * g) / (1 + 0.00367 * f) * ((g + 273) / (f + 273)) ^ (1.5 : ℝ)) := by
    have : q' * ((1 + 0.00367 * g) / (1 + 0.00367 * f) * ((g + 273) / (f + 273)) ^ (1.5 : ℝ)) =
        q * ((g + 383.4) / (f + 383.4)) := by
      rw [e, hq, hq']
      field_simp
    rw [this]
    refine le_mul_of_one_le_right q0.le ?_
    rw [le_div_iff₀ z1]
    linarith
  generalize (g + 273) / (f + 273) = r at *
  generalize (1 + 0.00367 * g) / (1 + 0.00367 * f) = ρ at *
  have rr : (0 : ℝ) < r := by linarith
  have ρρ : (0 : ℝ) < ρ := by linarith
  have step : q ^ p ≤ q' ^ p * (ρ * r ^ (0.5 : ℝ)) := by
    refine (Real.rpow_le_rpow q0.le hle p0).trans ?_
    rw [Real.mul_rpow q1.le (by positivity), Real.mul_rpow ρρ.le (by positivity), ← Real.rpow_mul rr.le]
    refine mul_le_mul_of_nonneg_left ?_ (by positivity)
    have e1 : ρ ^ p ≤ ρ ^ (0.6 : ℝ) := Real.rpow_le_rpow_of_exponent_le r1 p1
    have e2 : r ^ (1.5 * p) ≤ r ^ (0.4 + 0.5 : ℝ) := Real.rpow_le_rpow_of_exponent_le r3 (by linarith)
    have e3 : r ^ (0.4 : ℝ) ≤ ρ ^ (0.4 : ℝ) := Real.rpow_le_rpow rr.le r2 (by norm_num)
    rw [Real.rpow_add rr] at e2
    have e4 : ρ ^ (0.6 : ℝ) * ρ ^ (0.4 : ℝ) = ρ := by
      rw [← Real.rpow_add ρρ]; norm_num
    calc ρ ^ p * r ^ (1.5 * p) ≤ ρ ^ (0.6 : ℝ) * (r ^ (0.4 : ℝ) * r ^ (0.5 : ℝ)) := by gcongr
      _ ≤ ρ ^ (0.6 : ℝ) * (ρ ^ (0.4 : ℝ) * r ^ (0.5 : ℝ)) := by gcongr
      _ = ρ * r ^ (0.5 : ℝ) := by rw [← mul_assoc, e4]
  have sa : 0 ≤ s - a := by linarith
  have main : q ^ p * (ks * (s - a)) ≤ q' ^ p * (kt * (ρ * (s - a))) := by
    calc q ^ p * (ks * (s - a)) ≤ q' ^ p * (ρ * r ^ (0.5 : ℝ)) * (ks * (s - a)) := by gcongr
      _ = q' ^ p * ((ks * r ^ (0.5 : ℝ)) * (ρ * (s - a))) := by ring
      _ ≤ q' ^ p * (kt * (ρ * (s - a))) := by gcongr
  refine ⟨main.trans (by gcongr), fun hlt => lt_of_le_of_lt main ?_⟩
  have := r5 hlt
  gcongr

/-- What convection in still air is proportional to. -/
theorem natural_up {a d s t : ℝ} (ha : -100 ≤ a) (h : a ≤ s) (hst : s ≤ t) (hd : 0 < d) :
    (d / (1 + 0.00367 * ((s + a) / 2))) ^ (0.5 : ℝ) * (s - a) ^ (1.25 : ℝ) ≤
      (d / (1 + 0.00367 * ((t + a) / 2))) ^ (0.5 : ℝ) * (t - a) ^ (1.25 : ℝ) ∧
    (s < t → (d / (1 + 0.00367 * ((s + a) / 2))) ^ (0.5 : ℝ) * (s - a) ^ (1.25 : ℝ) <
      (d / (1 + 0.00367 * ((t + a) / 2))) ^ (0.5 : ℝ) * (t - a) ^ (1.25 : ℝ)) := by
  obtain ⟨r1, -, -, r4, r5⟩ := film_ratio ha h hst
  have m1 : 0 < 1 + 0.00367 * ((s + a) / 2) := by linarith
  have m2 : 0 < 1 + 0.00367 * ((t + a) / 2) := by linarith
  have sa : 0 ≤ s - a := by linarith
  have e : d / (1 + 0.00367 * ((s + a) / 2)) = d / (1 + 0.00367 * ((t + a) / 2)) *
      ((1 + 0.00367 * ((t + a) / 2)) / (1 + 0.00367 * ((s + a) / 2))) := (div_mul_div_cancel₀ m2.ne').symm
  rw [e]
  have D0 : 0 < d / (1 + 0.00367 * ((t + a) / 2)) := by positivity
  generalize d / (1 + 0.00367 * ((t + a) / 2)) = D at *
  generalize (1 + 0.00367 * ((t + a) / 2)) / (1 + 0.00367 * ((s + a) / 2)) = ρ at *
  have ρρ : (0 : ℝ) < ρ := by linarith
  have main : (D * ρ) ^ (0.5 : ℝ) * (s - a) ^ (1.25 : ℝ) ≤ D ^ (0.5 : ℝ) * (ρ * (s - a)) ^ (1.25 : ℝ) := by
    rw [Real.mul_rpow D0.le ρρ.le, Real.mul_rpow ρρ.le sa, mul_assoc]
    have : ρ ^ (0.5 : ℝ) ≤ ρ ^ (1.25 : ℝ) := Real.rpow_le_rpow_of_exponent_le r1 (by norm_num)
    gcongr
  refine ⟨main.trans ?_, fun hlt => lt_of_le_of_lt main ?_⟩
  · have := Real.rpow_le_rpow (by positivity) r4 (by norm_num : (0 : ℝ) ≤ 1.25)
    gcongr
  · have := Real.rpow_lt_rpow (by positivity) (r5 hlt) (by norm_num : (0 : ℝ) < 1.25)
    gcongr

/-! ## Convection -/

/-- The magnitude of convection from the density, viscosity and conductivity of air and the temperature difference. -/
noncomputable def lossOf (u : UnitSystem) (diameter factor speed d v c dt : ℝ) : ℝ :=
  max (Heat.naturalConstant u * d ^ (0.5 : ℝ) * diameter ^ (0.75 : ℝ) * dt ^ (1.25 : ℝ))
    (max (factor * (1.01 + 1.35 * (diameter * d * speed / v) ^ (0.52 : ℝ)) * c * dt)
      (factor * 0.754 * (diameter * d * speed / v) ^ (0.6 : ℝ) * c * dt))

theorem loss_parts {diameter speed d v : ℝ} (p : ℝ) (hk : 0 < diameter) (hs : 0 ≤ speed) (hd : 0 < d) (hv : 0 < v) :
    (diameter * d * speed / v) ^ p = (diameter * speed) ^ p * (d / v) ^ p := by
  rw [← Real.mul_rpow (by positivity) (by positivity)]
  congr 1
  ring

theorem loss_le {u : UnitSystem} (hu : u ≠ .null) {diameter factor speed d v c dt d' v' c' dt' : ℝ} (hk : 0 < diameter)
    (hf : 0 ≤ factor) (hs : 0 ≤ speed) (hd : 0 < d) (hv : 0 < v) (hd' : 0 < d') (hv' : 0 < v')
    (h1 : d ^ (0.5 : ℝ) * dt ^ (1.25 : ℝ) ≤ d' ^ (0.5 : ℝ) * dt' ^ (1.25 : ℝ))
    (h2 : ∀ p : ℝ, 0 ≤ p → p ≤ 0.6 → (d / v) ^ p * (c * dt) ≤ (d' / v') ^ p * (c' * dt')) :
    lossOf u diameter factor speed d v c dt ≤ lossOf u diameter factor speed d' v' c' dt' := by
  have hn := Heat.naturalConstant_pos hu
  have a1 := h2 0 le_rfl (by norm_num)
  rw [Real.rpow_zero, Real.rpow_zero, one_mul, one_mul] at a1
  have a2 := mul_le_mul_of_nonneg_left (h2 0.52 (by norm_num) (by norm_num))
    (Real.rpow_nonneg (mul_nonneg hk.le hs) (0.52 : ℝ))
  have a3 := mul_le_mul_of_nonneg_left (h2 0.6 (by norm_num) le_rfl) (Real.rpow_nonneg (mul_nonneg hk.le hs) (0.6 : ℝ))
  unfold lossOf
  rw [loss_parts 0.52 hk hs hd hv, loss_parts 0.6 hk hs hd hv, loss_parts 0.52 hk hs hd' hv', loss_parts 0.6 hk hs hd' hv']
  refine max_le_max ?_ (max_le_max ?_ ?_)
  · have := mul_le_mul_of_nonneg_left h1
      (mul_nonneg hn.le (Real.rpow_nonneg hk.le (0.75 : ℝ)))
    linarith
  · have := mul_le_mul_of_nonneg_left (add_le_add (mul_le_mul_of_nonneg_left a1 (by norm_num : (0 : ℝ) ≤ 1.01))
      (mul_le_mul_of_nonneg_left a2 (by norm_num : (0 : ℝ) ≤ 1.35))) hf
    linarith
  · have := mul_le_mul_of_nonneg_left a3 (mul_nonneg hf (by norm_num : (0 : ℝ) ≤ 0.754))
    linarith

theorem loss_lt {u : UnitSystem} (hu : u ≠ .null) {diameter factor speed d v c dt d' v' c' dt' : ℝ} (hk : 0 < diameter)
    (hf : 0 < factor) (hs : 0 ≤ speed) (hd : 0 < d) (hv : 0 < v) (hd' : 0 < d') (hv' : 0 < v')
    (hdt : 0 < dt')
    (h1 : d ^ (0.5 : ℝ) * dt ^ (1.25 : ℝ) < d' ^ (0.5 : ℝ) * dt' ^ (1.25 : ℝ))
    (h2 : ∀ p : ℝ, 0 ≤ p → p ≤ 0.6 → (d / v) ^ p * (c * dt) < (d' / v') ^ p * (c' * dt')) :
    lossOf u diameter factor speed d v c dt < lossOf u diameter factor speed d' v' c' dt' := by
  have hn := Heat.naturalConstant_pos hu
  have a1 := h2 0 le_rfl (by norm_num)
  rw [Real.rpow_zero, Real.rpow_zero, one_mul, one_mul] at a1
  have a2 := mul_le_mul_of_nonneg_left (h2 0.52 (by norm_num) (by norm_num)).le
    (Real.rpow_nonneg (mul_nonneg hk.le hs) (0.52 : ℝ))
  unfold lossOf
  rw [loss_parts 0.52 hk hs hd hv, loss_parts 0.6 hk hs hd hv, loss_parts 0.52 hk hs hd' hv', loss_parts 0.6 hk hs hd' hv']
  refine max_lt (lt_max_of_lt_left ?_) (max_lt (lt_max_of_lt_right (lt_max_of_lt_left ?_)) ?_)
  · have := mul_lt_mul_of_pos_left h1 (mul_pos hn (Real.rpow_pos_of_pos hk (0.75 : ℝ)))
    linarith
  · have := mul_lt_mul_of_pos_left (add_lt_add_of_lt_of_le (mul_lt_mul_of_pos_left a1 (by norm_num : (0 : ℝ) < 1.01))
      (mul_le_mul_of_nonneg_left a2 (by norm_num : (0 : ℝ) ≤ 1.35))) hf
    linarith
  · rcases hs.lt_or_eq with hs | rfl
    · refine lt_max_of_lt_right (lt_max_of_lt_right ?_)
      have := mul_lt_mul_of_pos_left (mul_lt_mul_of_pos_left (h2 0.6 (by norm_num) le_rfl)
        (Real.rpow_pos_of_pos (mul_pos hk hs) (0.6 : ℝ))) (mul_pos hf (by norm_num : (0 : ℝ) < 0.754))
      linarith
    · refine lt_max_of_lt_left ?_
      rw [mul_zero, Real.zero_rpow (by norm_num)]
      have : 0 < Heat.naturalConstant u * d' ^ (0.5 : ℝ) * diameter ^ (0.75 : ℝ) * dt' ^ (1.25 : ℝ) := by positivity
      linarith

/-- Convection of a valid cable in valid weather. -/
theorem convection_loss {k : Cable} {u : UnitSystem} {w : ThermalWeather} {t a b : ℝ} (hk : k.validateThermal.1 = true)
    (hu : u ≠ .null) (hw : w.validate.1 = true) (ht : w.temperatureAir ≤ t) (ha0 : 0 < a) (hb0 : 0 < b)
    (ha : ∀ f, -200 ≤ f → Heat.density u w.elevation f = some (a / (1 + 0.00367 * f)))
    (hb : ∀ f, -200 ≤ f → Heat.viscosity u f = some (b * ((f + 273) ^ (1.5 : ℝ) / (f + 383.4)))) :
    Heat.convection k u w t = some (-lossOf u k.diameter (Heat.windFactor w.angleWind) w.speedWind
      (a / (1 + 0.00367 * ((t + w.temperatureAir) / 2)))
      (b * (((t + w.temperatureAir) / 2 + 273) ^ (1.5 : ℝ) / ((t + w.temperatureAir) / 2 + 383.4)))
      (Heat.conductivity u ((t + w.temperatureAir) / 2)) (t - w.temperatureAir)) := by
  rw [Cable.validateThermal_iff] at hk
  rw [ThermalWeather.validate_iff] at hw
  have f0 : -100 ≤ (t + w.temperatureAir) / 2 := by linarith [hw.2.2.2.2.1]
  have m0 : 0 < 1 + 0.00367 * ((t + w.temperatureAir) / 2) := by linarith
  have m1 : 0 < (t + w.temperatureAir) / 2 + 273 := by linarith
  have m2 : 0 < (t + w.temperatureAir) / 2 + 383.4 := by linarith
  exact convection_eq hu hk.1.2.1 hw.2.2.2.1 ht rfl (ha _ (by linarith)) (by positivity) (hb _ (by linarith))
    (mul_pos hb0 (div_pos (Real.rpow_pos_of_pos m1 _) m2))

theorem windFactor_pos {w : ThermalWeather} (hw : w.validate.1 = true) : 0 < Heat.windFactor w.angleWind := by
  rw [ThermalWeather.validate_iff] at hw
  have h := windFactor_mono le_rfl hw.1.1 hw.1.2
  rw [windFactor_ends.1] at h
  exact lt_of_lt_of_le (by norm_num) h

/-- **C155**: a hotter cable loses more heat.  For every valid cable and weather and both unit systems, convection at a
higher cable temperature is strictly larger, from the air temperature up to 1000 degrees, although hotter air in the
film is thinner; radiation is at least as large, and so the heat that the two take from the cable is strictly larger. -/
theorem C155_hotter (k : Cable) (u : UnitSystem) (w : ThermalWeather) (s t : ℝ) (hk : k.validateThermal.1 = true)
    (hu : u ≠ .null) (hw : w.validate.1 = true) (hs : w.temperatureAir ≤ s) (hst : s < t) (ht : t ≤ 1000) :
    ∃ c c', Heat.convection k u w s = some c ∧ Heat.convection k u w t = some c' ∧ |c| < |c'| ∧
      |Heat.radiation k u w s| ≤ |Heat.radiation k u w t| ∧
      c' + Heat.radiation k u w t < c + Heat.radiation k u w s := by
  obtain ⟨a, a0, ha, -⟩ := density_form hu
  replace a0 := a0 w.elevation
  replace ha := ha w.elevation
  generalize a w.elevation = a at *
  obtain ⟨b, b0, hb⟩ := viscosity_form hu
  have e1 := convection_loss hk hu hw hs a0 b0 ha hb
  have e2 := convection_loss hk hu hw (hs.trans hst.le) a0 b0 ha hb
  have wf := windFactor_pos hw
  rw [Cable.validateThermal_iff] at hk
  rw [ThermalWeather.validate_iff] at hw
  have hair := hw.2.2.2.2.1
  have lt : lossOf u k.diameter (Heat.windFactor w.angleWind) w.speedWind
      (a / (1 + 0.00367 * ((s + w.temperatureAir) / 2)))
      (b * (((s + w.temperatureAir) / 2 + 273) ^ (1.5 : ℝ) / ((s + w.temperatureAir) / 2 + 383.4)))
      (Heat.conductivity u ((s + w.temperatureAir) / 2)) (s - w.temperatureAir) <
      lossOf u k.diameter (Heat.windFactor w.angleWind) w.speedWind
      (a / (1 + 0.00367 * ((t + w.temperatureAir) / 2)))
      (b * (((t + w.temperatureAir) / 2 + 273) ^ (1.5 : ℝ) / ((t + w.temperatureAir) / 2 + 383.4)))
      (Heat.conductivity u ((t + w.temperatureAir) / 2)) (t - w.temperatureAir) := by
    refine loss_lt hu hk.1.2.1 wf hw.2.2.2.1 (div_pos a0 (by linarith))
      (mul_pos b0 (div_pos (Real.rpow_pos_of_pos (by linarith) _) (by linarith))) (div_pos a0 (by linarith))
      (mul_pos b0 (div_pos (Real.rpow_pos_of_pos (by linarith) _) (by linarith))) (by linarith)
      ((natural_up hair hs hst.le a0).2 hst)
      (fun p p0 p1 => (forced_up hu hair hs hst.le ht b0 a0 p0 p1).2 hst)
  have l0 : 0 ≤ lossOf u k.diameter (Heat.windFactor w.angleWind) w.speedWind
      (a / (1 + 0.00367 * ((s + w.temperatureAir) / 2)))
      (b * (((s + w.temperatureAir) / 2 + 273) ^ (1.5 : ℝ) / ((s + w.temperatureAir) / 2 + 383.4)))
      (Heat.conductivity u ((s + w.temperatureAir) / 2)) (s - w.temperatureAir) := by
    refine le_max_of_le_left ?_
    have := Heat.naturalConstant_pos hu
    have h1 : 0 < 1 + 0.00367 * ((s + w.temperatureAir) / 2) := by linarith
    have h2 : 0 ≤ s - w.temperatureAir := by linarith
    have h3 := hk.1.2.1
    positivity
  have hrad : Heat.radiation k u w t ≤ Heat.radiation k u w s := by
    have rc := Heat.radiationConstant_pos hu
    unfold Heat.radiation
    have q : ((s + 273) / 100) ^ 4 ≤ ((t + 273) / 100) ^ 4 :=
      pow_le_pow_left₀ (by linarith) (by linarith) 4
    have kk : 0 ≤ Heat.radiationConstant u * k.diameter * k.emissivity :=
      mul_nonneg (mul_nonneg rc.le hk.1.2.1.le) hk.2.2.1.1
    nlinarith [mul_le_mul_of_nonneg_left q kk]
  have r1 := Heat.radiation_nonpos (k := k) (u := u) (w := w) hu hk.1.2.1 hk.2.2.1.1 (by linarith) hs
  refine ⟨_, _, e1, e2, ?_, ?_, ?_⟩
  · rw [abs_neg, abs_neg, abs_of_nonneg l0, abs_of_nonneg (l0.trans lt.le)]
    exact lt
  · rw [abs_of_nonpos r1, abs_of_nonpos (hrad.trans r1)]
    linarith
  · linarith

/-! ## The current -/

/-- More heat needs more current. -/
theorem currentOf_le {h h' r i i' : ℝ} (hr : 0 < r) (hi : Heat.currentOf h r = some i) (hi' : Heat.currentOf h' r = some i')
    (hle : h ≤ h') : i ≤ i' := by
  obtain ⟨g1, g2, g3, -⟩ := Heat.currentOf_spec hi
  obtain ⟨g1', g2', g3', -⟩ := Heat.currentOf_spec hi'
  rcases lt_or_ge h 0 with ha | ha <;> rcases lt_or_ge h' 0 with hb | hb
  · have := g2 ha
    have := g2' hb
    rw [abs_of_neg ha] at g1
    rw [abs_of_neg hb] at g1'
    by_contra hlt
    rw [not_le] at hlt
    nlinarith [mul_pos hr (sub_pos.2 hlt)]
  · linarith [g2 ha, g3' hb]
  · linarith
  · have := g3 ha
    have := g3' hb
    rw [abs_of_nonneg ha] at g1
    rw [abs_of_nonneg hb] at g1'
    by_contra hlt
    rw [not_le] at hlt
    nlinarith [mul_pos hr (sub_pos.2 hlt)]

/-- What the solver of the steady current answers. -/
theorem current_from {k : Cable} {u : UnitSystem} {w : ThermalWeather} {t c : ℝ} (hk : k.validateThermal.1 = true)
    (hu : u ≠ .null) (hw : w.validate.1 = true) (hc : Heat.convection k u w t = some c) :
    (currentAfter (currentSetup k t u w)).askCurrent.2 =
      Heat.currentOf (-1 * (c + Heat.radiation k u w t + Heat.solar k w)) (k.resistance t) := by
  rw [(currentSetup_ask t (heatValid_of hk hu hw)).1]
  simp [Heat.steadyCurrent, Heat.steadyState, hc]

/-- **C155**: where the resistance is not larger, a cable that may get hotter may carry more current. -/
theorem C155_current (k : Cable) (u : UnitSystem) (w : ThermalWeather) (s t i : ℝ) (hk : k.validateThermal.1 = true)
    (hu : u ≠ .null) (hw : w.validate.1 = true) (hs : w.temperatureAir ≤ s) (hst : s < t) (ht : t ≤ 1000)
    (hr : 0 < k.resistance t) (hr' : k.resistance t ≤ k.resistance s)
    (hi : (currentAfter (currentSetup k s u w)).askCurrent.2 = some i) (h0 : 0 ≤ i) :
    ∃ i', (currentAfter (currentSetup k t u w)).askCurrent.2 = some i' ∧ i < i' := by
  obtain ⟨c, c', e1, e2, -, -, h⟩ := C155_hotter k u w s t hk hu hw hs hst ht
  rw [current_from hk hu hw e1] at hi
  rw [current_from hk hu hw e2]
  obtain ⟨i', hi'⟩ := Heat.currentOf_pos (-1 * (c' + Heat.radiation k u w t + Heat.solar k w)) hr
  refine ⟨i', hi', ?_⟩
  have hlt : -1 * (c + Heat.radiation k u w s + Heat.solar k w) < -1 * (c' + Heat.radiation k u w t + Heat.solar k w) := by
    linarith
  obtain ⟨g1, g2, g3, -⟩ := Heat.currentOf_spec hi
  obtain ⟨g1', -, g3', -⟩ := Heat.currentOf_spec hi'
  generalize -1 * (c + Heat.radiation k u w s + Heat.solar k w) = x at *
  generalize -1 * (c' + Heat.radiation k u w t + Heat.solar k w) = y at *
  have x0 : 0 ≤ x := by
    by_contra hneg
    linarith [g2 (not_le.1 hneg)]
  rw [abs_of_nonneg x0] at g1
  rw [abs_of_nonneg (x0.trans hlt.le)] at g1'
  have p := g3' (x0.trans hlt.le)
  by_contra hc
  rw [not_lt] at hc
  have q := pow_le_pow_left₀ p hc 2
  have q2 := mul_le_mul q hr' hr.le (sq_nonneg i)
  linarith

/-- **C155**: two temperatures with the same steady current need a resistance that differs: it is larger at the hotter
temperature, or smaller if the current is negative.  No current is the steady current of at most one temperature. -/
theorem C155_unique (k : Cable) (u : UnitSystem) (w : ThermalWeather) (s t i : ℝ) (hk : k.validateThermal.1 = true)
    (hu : u ≠ .null) (hw : w.validate.1 = true) (hs : w.temperatureAir ≤ s) (hst : s < t) (ht : t ≤ 1000)
    (hi : (currentAfter (currentSetup k s u w)).askCurrent.2 = some i)
    (hi' : (currentAfter (currentSetup k t u w)).askCurrent.2 = some i) :
    i ≠ 0 ∧ (0 < i → k.resistance s < k.resistance t) ∧ (i < 0 → k.resistance t < k.resistance s) := by
  obtain ⟨c, c', e1, e2, -, -, h⟩ := C155_hotter k u w s t hk hu hw hs hst ht
  rw [current_from hk hu hw e1] at hi
  rw [current_from hk hu hw e2] at hi'
  have hlt : -1 * (c + Heat.radiation k u w s + Heat.solar k w) < -1 * (c' + Heat.radiation k u w t + Heat.solar k w) := by
    linarith
  obtain ⟨g1, g2, g3, -⟩ := Heat.currentOf_spec hi
  obtain ⟨g1', g2', g3', -⟩ := Heat.currentOf_spec hi'
  generalize -1 * (c + Heat.radiation k u w s + Heat.solar k w) = x at *
  generalize -1 * (c' + Heat.radiation k u w t + Heat.solar k w) = y at *
  refine ⟨?_, fun hp => ?_, fun hn => ?_⟩
  · rintro rfl
    have x0 : x = 0 := abs_eq_zero.1 (by rw [← g1]; ring)
    have y0 : y = 0 := abs_eq_zero.1 (by rw [← g1']; ring)
    linarith
  · have x0 : 0 ≤ x := by
      by_contra hneg
      linarith [g2 (not_le.1 hneg)]
    rw [abs_of_nonneg x0] at g1
    rw [abs_of_nonneg (x0.trans hlt.le)] at g1'
    exact lt_of_mul_lt_mul_left (by rw [g1, g1']; exact hlt) (sq_nonneg i)
  · have y0 : y < 0 := by
      by_contra hneg
      linarith [g3' (not_lt.1 hneg)]
    rw [abs_of_neg (hlt.trans y0)] at g1
    rw [abs_of_neg y0] at g1'
    exact lt_of_mul_lt_mul_left (by rw [g1, g1']; linarith) (sq_nonneg i)

/-! ## Warmer and thinner air -/

/-- Warmer air conducts less heat away. -/
theorem conductivity_air {u : UnitSystem} (hu : u ≠ .null) {a a' t : ℝ} (h0 : -100 ≤ a) (h : a ≤ a') (h' : a' ≤ t)
    (h1 : t ≤ 1000) :
    Heat.conductivity u ((t + a') / 2) * (t - a') ≤ Heat.conductivity u ((t + a) / 2) * (t - a) := by
  have ka := conductivity_pos hu h0 (by linarith)
  obtain ⟨x, y, z, z0, yz, e⟩ : ∃ x y z : ℝ, 0 ≤ z ∧ 2000 * z ≤ y ∧ ∀ f, Heat.conductivity u f = x + y * f - z * f ^ 2 := by
    cases u with
    | null => exact absurd rfl hu
    | imperial => exact ⟨_, _, _, by norm_num, by norm_num, fun f => rfl⟩
    | metric => exact ⟨_, _, _, by norm_num, by norm_num, fun f => rfl⟩
  rw [e] at ka
  rw [e, e]
  have slope : (y - 2 * z * ((t + a) / 2)) * (t - a') ≤ 2 * (x + y * ((t + a) / 2) - z * ((t + a) / 2) ^ 2) := by
    have m0 : 0 ≤ y - 2 * z * ((t + a) / 2) := by nlinarith
    have := mul_le_mul_of_nonneg_left (show t - a' ≤ t - a by linarith) m0
    nlinarith [mul_nonneg z0 (sq_nonneg (t - a))]
  have d0 : 0 ≤ a' - a := by linarith
  have d1 : 0 ≤ t - a' := by linarith
  nlinarith [mul_le_mul_of_nonneg_left slope d0, mul_nonneg z0 (mul_nonneg d1 (sq_nonneg (a' - a)))]

/-- The air in the film is thinner and more viscous if the air is warmer. -/
theorem film_air {b d d' f g : ℝ} (h0 : -100 ≤ f) (h : f ≤ g) (hb : 0 < b) (hd : 0 < d') (hdd : d' ≤ d) :
    d' / (1 + 0.00367 * g) ≤ d / (1 + 0.00367 * f) ∧
    d' / (1 + 0.00367 * g) / (b * ((g + 273) ^ (1.5 : ℝ) / (g + 383.4))) ≤
      d / (1 + 0.00367 * f) / (b * ((f + 273) ^ (1.5 : ℝ) / (f + 383.4))) := by
  have y1 : 0 < f + 273 := by linarith
  have y2 : 0 < g + 273 := by linarith
  have z1 : 0 < f + 383.4 := by linarith
  have z2 : 0 < g + 383.4 := by linarith
  have m1 : 0 < 1 + 0.00367 * f := by linarith
  have m2 : 0 < 1 + 0.00367 * g := by linarith
  have P1 : 0 < (f + 273) ^ (1.5 : ℝ) := Real.rpow_pos_of_pos y1 _
  have first : d' / (1 + 0.00367 * g) ≤ d / (1 + 0.00367 * f) :=
    div_le_div₀ (by linarith) hdd m1 (by linarith)
  refine ⟨first, div_le_div₀ (div_nonneg (by linarith) m1.le) first (by positivity) ?_⟩
  refine mul_le_mul_of_nonneg_left ?_ hb.le
  rw [div_le_div_iff₀ z1 z2]
  have r : (f + 273) ^ (1.5 : ℝ) = (f + 273) * (f + 273) ^ (0.5 : ℝ) := by
    rw [show (1.5 : ℝ) = 1 + 0.5 by norm_num, Real.rpow_add y1, Real.rpow_one]
  have r' : (g + 273) ^ (1.5 : ℝ) = (g + 273) * (g + 273) ^ (0.5 : ℝ) := by
    rw [show (1.5 : ℝ) = 1 + 0.5 by norm_num, Real.rpow_add y2, Real.rpow_one]
  rw [r, r']
  have s1 : (f + 273) ^ (0.5 : ℝ) ≤ (g + 273) ^ (0.5 : ℝ) := Real.rpow_le_rpow y1.le (by linarith) (by norm_num)
  have s0 : 0 ≤ (f + 273) ^ (0.5 : ℝ) := Real.rpow_nonneg y1.le _
  have s2 : (f + 273) * (g + 383.4) ≤ (g + 273) * (f + 383.4) := by nlinarith
  have := mul_le_mul s2 s1 s0 (by positivity)
  nlinarith

/-- Convection in warmer and thinner air. -/
theorem convection_air_le {k : Cable} {u : UnitSystem} {w w' : ThermalWeather} {t : ℝ} (hk : k.validateThermal.1 = true)
    (hu : u ≠ .null) (hw : w.validate.1 = true) (hw' : w'.validate.1 = true)
    (e1 : w'.speedWind = w.speedWind) (e2 : w'.angleWind = w.angleWind)
    (h1 : w.temperatureAir ≤ w'.temperatureAir) (h2 : w.elevation ≤ w'.elevation) (h3 : w'.elevation ≤ thinningLimit u)
    (ht : w'.temperatureAir ≤ t) (ht' : t ≤ 1000) :
    ∃ c c', Heat.convection k u w t = some c ∧ Heat.convection k u w' t = some c' ∧ c ≤ c' := by
  obtain ⟨a, a0, ha, hmono⟩ := density_form hu
  obtain ⟨b, b0, hb⟩ := viscosity_form hu
  have l1 := convection_loss hk hu hw (h1.trans ht) (a0 w.elevation) b0 (ha w.elevation) hb
  have l2 := convection_loss hk hu hw' ht (a0 w'.elevation) b0 (ha w'.elevation) hb
  have wf := windFactor_pos hw
  rw [Cable.validateThermal_iff] at hk
  rw [ThermalWeather.validate_iff] at hw hw'
  rw [e1, e2] at l2
  refine ⟨_, _, l1, l2, neg_le_neg ?_⟩
  have hair := hw.2.2.2.2.1
  have hair' := hw'.2.2.2.2.1
  obtain ⟨f1, f2⟩ := film_air (f := (t + w.temperatureAir) / 2) (g := (t + w'.temperatureAir) / 2) (by linarith)
    (by linarith) b0 (a0 w'.elevation) (hmono _ _ h2 h3)
  have f0 : 0 < a w'.elevation / (1 + 0.00367 * ((t + w'.temperatureAir) / 2)) := div_pos (a0 _) (by linarith)
  have v0 : 0 < b * (((t + w.temperatureAir) / 2 + 273) ^ (1.5 : ℝ) / ((t + w.temperatureAir) / 2 + 383.4)) :=
    mul_pos b0 (div_pos (Real.rpow_pos_of_pos (by linarith) _) (by linarith))
  have v1 : 0 < b * (((t + w'.temperatureAir) / 2 + 273) ^ (1.5 : ℝ) / ((t + w'.temperatureAir) / 2 + 383.4)) :=
    mul_pos b0 (div_pos (Real.rpow_pos_of_pos (by linarith) _) (by linarith))
  have kk := conductivity_air hu hair h1 ht ht'
  have k0 := conductivity_pos hu (x := (t + w'.temperatureAir) / 2) (by linarith) (by linarith)
  refine loss_le hu hk.1.2.1 wf.le hw.2.2.2.1 f0 v1 (div_pos (a0 _) (by linarith)) v0 ?_ (fun p p0 p1 => ?_)
  · exact mul_le_mul (Real.rpow_le_rpow f0.le f1 (by norm_num))
      (Real.rpow_le_rpow (by linarith) (by linarith) (by norm_num)) (Real.rpow_nonneg (by linarith) _)
      (Real.rpow_nonneg (f0.le.trans f1) _)
  · exact mul_le_mul (Real.rpow_le_rpow (div_pos f0 v1).le f2 p0) kk (mul_nonneg k0.le (by linarith))
      (Real.rpow_nonneg ((div_pos f0 v1).le.trans f2) _)

/-- The cable with another surface. -/
def withSurface (k : Cable) (absorptivity emissivity : ℝ) : Cable :=
  { k with absorptivity := absorptivity, emissivity := emissivity }

/-- **C156**: warmer air, thinner air, less wind, wind more along the cable, more sun, a surface that takes up more sun
and one that radiates less never raise the current that the cable may carry, in any combination.  This holds in both
unit systems for all valid cables and weather, for cable temperatures from the warmer air temperature up to 1000 degrees
where the resistance is positive, and for elevations up to 11900 meters or 39000 feet. -/
theorem C156_worse (k : Cable) (u : UnitSystem) (w w' : ThermalWeather) (t α ε : ℝ) (hk : k.validateThermal.1 = true)
    (hk' : (withSurface k α ε).validateThermal.1 = true)
    (hu : u ≠ .null) (hw : w.validate.1 = true) (hw' : w'.validate.1 = true)
    (h1 : w.temperatureAir ≤ w'.temperatureAir) (h2 : w.elevation ≤ w'.elevation) (h3 : w'.elevation ≤ thinningLimit u)
    (h4 : w'.speedWind ≤ w.speedWind) (h5 : w'.angleWind ≤ w.angleWind) (h6 : w.radiationSolar ≤ w'.radiationSolar)
    (h7 : k.absorptivity ≤ α) (h8 : ε ≤ k.emissivity)
    (ht : w'.temperatureAir ≤ t) (ht' : t ≤ 1000) (hr : 0 < k.resistance t) :
    ∃ i i', (currentAfter (currentSetup k t u w)).askCurrent.2 = some i ∧
      (currentAfter (currentSetup (withSurface k α ε) t u w')).askCurrent.2 = some i' ∧ i' ≤ i := by
  -- first the wind and the sun, then the air and the surface
  let v : ThermalWeather := { w' with temperatureAir := w.temperatureAir, elevation := w.elevation }
  have hv : v.validate.1 = true := by
    rw [ThermalWeather.validate_iff] at hw hw' ⊢
    exact ⟨hw'.1, hw.2.1, hw'.2.2.1, hw'.2.2.2.1, hw.2.2.2.2.1, hw.2.2.2.2.2⟩
  obtain ⟨j, i, hj, hi, hji⟩ := C140_weather k u v w t hk hu hv hw rfl rfl h4 h5 h6 (h1.trans ht) ht' hr
  obtain ⟨c, c', e1, e2, hc⟩ := convection_air_le (w := v) (w' := w') hk hu hv hw' rfl rfl h1 h2 h3 ht ht'
  have e2' : Heat.convection (withSurface k α ε) u w' t = some c' := by
    rw [← e2]
    rfl
  rw [current_from hk hu hv e1] at hj
  obtain ⟨i', hi'⟩ := Heat.currentOf_pos (-1 * (c' + Heat.radiation (withSurface k α ε) u w' t +
    Heat.solar (withSurface k α ε) w')) hr
  refine ⟨i, i', hi, ?_, le_trans (currentOf_le hr hi' hj ?_) hji⟩
  · rw [current_from hk' hu hw' e2']
    exact hi'
  rw [Cable.validateThermal_iff] at hk hk'
  rw [ThermalWeather.validate_iff] at hw hw'
  have hsol : Heat.solar k v ≤ Heat.solar (withSurface k α ε) w' := by
    have := hk.1.2.1
    have := hw'.2.2.1
    unfold Heat.solar
    simp only [withSurface, v]
    gcongr
  have hrad : Heat.radiation k u v t ≤ Heat.radiation (withSurface k α ε) u w' t := by
    have rc := mul_pos (Heat.radiationConstant_pos hu) hk.1.2.1
    have q0 : ((w.temperatureAir + 273) / 100) ^ 4 ≤ ((w'.temperatureAir + 273) / 100) ^ 4 :=
      pow_le_pow_left₀ (by linarith [hw.2.2.2.2.1]) (by linarith) 4
    have q1 : ((w'.temperatureAir + 273) / 100) ^ 4 ≤ ((t + 273) / 100) ^ 4 :=
      pow_le_pow_left₀ (by linarith [hw'.2.2.2.2.1]) (by linarith) 4
    have m : ε * (((t + 273) / 100) ^ 4 - ((w'.temperatureAir + 273) / 100) ^ 4) ≤
        k.emissivity * (((t + 273) / 100) ^ 4 - ((w.temperatureAir + 273) / 100) ^ 4) :=
      mul_le_mul h8 (by linarith) (by linarith) hk.2.2.1.1
    have := mul_le_mul_of_nonneg_left m rc.le
    unfold Heat.radiation
    simp only [withSurface, v]
    nlinarith
  linarith

/-- A hotter, unlit example cable sheds more heat, and carries more current since its resistance is constant. -/
example : ∃ i i', (currentAfter (currentSetup exThermal 30 .metric (exWeather 0))).askCurrent.2 = some i ∧
    (currentAfter (currentSetup exThermal 80 .metric (exWeather 0))).askCurrent.2 = some i' ∧ 0 ≤ i ∧ i < i' := by
  have hw := exWeather_valid (le_refl (0 : ℝ))
  obtain ⟨i, hi, -⟩ := C66_defined exThermal .metric (exWeather 0) 30 exThermal_valid (by decide) hw
    (by norm_num [exWeather]) (by rw [exThermal_resistance]; norm_num)
  have h0 : 0 ≤ i := by
    obtain ⟨c, hc, cneg⟩ := ((C69_cooling exThermal .metric (exWeather 0) exThermal_valid (by decide) hw).1 30
      (by norm_num [exWeather])).1
    have hr := ((C69_cooling exThermal .metric (exWeather 0) exThermal_valid (by decide) hw).1 30
      (by norm_num [exWeather])).2.1
    have := hi
    rw [current_from exThermal_valid (by decide) hw hc] at this
    refine (Heat.currentOf_spec this).2.2.1 ?_
    have hs : Heat.solar exThermal (exWeather 0) = 0 := by simp [Heat.solar, exWeather]
    rw [hs]
    linarith
  obtain ⟨i', hi', hlt⟩ := C155_current exThermal .metric (exWeather 0) 30 80 i exThermal_valid (by decide) hw
    (by norm_num [exWeather]) (by norm_num) (by norm_num) (by rw [exThermal_resistance]; norm_num)
    (by rw [exThermal_resistance, exThermal_resistance]) hi h0
  exact ⟨i, i', hi, hi', h0, hlt⟩

/-- A cable whose resistance rises as fast as the heat that it loses has the same steady current, 1, at two temperatures. -/
example : ∃ x y, (currentAfter (currentSetup { exThermal with resistances := [⟨x, 30⟩, ⟨y, 80⟩] } 30 .metric
      (exWeather 0))).askCurrent.2 = some 1 ∧
    (currentAfter (currentSetup { exThermal with resistances := [⟨x, 30⟩, ⟨y, 80⟩] } 80 .metric
      (exWeather 0))).askCurrent.2 = some 1 := by
  have hw := exWeather_valid (le_refl (0 : ℝ))
  obtain ⟨c, c', e1, e2, -, -, -⟩ := C155_hotter exThermal .metric (exWeather 0) 30 80 exThermal_valid (by decide) hw
    (by norm_num [exWeather]) (by norm_num) (by norm_num)
  have C := (C69_cooling exThermal .metric (exWeather 0) exThermal_valid (by decide) hw).1
  obtain ⟨⟨d, hd, dneg⟩, rneg, -⟩ := C 30 (by norm_num [exWeather])
  obtain ⟨⟨d', hd', dneg'⟩, rneg', -⟩ := C 80 (by norm_num [exWeather])
  rw [e1] at hd
  rw [e2] at hd'
  cases hd
  cases hd'
  have hs : Heat.solar exThermal (exWeather 0) = 0 := by simp [Heat.solar, exWeather]
  refine ⟨-1 * (c + Heat.radiation exThermal .metric (exWeather 0) 30 + Heat.solar exThermal (exWeather 0)),
    -1 * (c' + Heat.radiation exThermal .metric (exWeather 0) 80 + Heat.solar exThermal (exWeather 0)), ?_⟩
  have p1 : 0 < -1 * (c + Heat.radiation exThermal .metric (exWeather 0) 30 + Heat.solar exThermal (exWeather 0)) := by
    rw [hs]; linarith
  have p2 : 0 < -1 * (c' + Heat.radiation exThermal .metric (exWeather 0) 80 + Heat.solar exThermal (exWeather 0)) := by
    rw [hs]; linarith
  have key : ∀ r : List ResistancePoint, Heat.convection { exThermal with resistances := r } .metric (exWeather 0) 30 = some c ∧
      Heat.convection { exThermal with resistances := r } .metric (exWeather 0) 80 = some c' := fun r => ⟨e1, e2⟩
  have rad : ∀ (r : List ResistancePoint) (t : ℝ), Heat.radiation { exThermal with resistances := r } .metric (exWeather 0) t =
      Heat.radiation exThermal .metric (exWeather 0) t := fun r t => rfl
  have sol : ∀ r : List ResistancePoint, Heat.solar { exThermal with resistances := r } (exWeather 0) =
      Heat.solar exThermal (exWeather 0) := fun r => rfl
  generalize hx : -1 * (c + Heat.radiation exThermal .metric (exWeather 0) 30 + Heat.solar exThermal (exWeather 0)) = x at *
  generalize hy : -1 * (c' + Heat.radiation exThermal .metric (exWeather 0) 80 + Heat.solar exThermal (exWeather 0)) = y at *
  have valid : ({ exThermal with resistances := [⟨x, 30⟩, ⟨y, 80⟩] } : Cable).validateThermal.1 = true := by
    rw [Cable.validateThermal_iff]
    norm_num [exThermal, exThermalPart]
  have one : ∀ z : ℝ, 0 < z → Heat.currentOf z z = some 1 := by
    intro z hz
    unfold Heat.currentOf
    rw [if_neg hz.ne', abs_of_pos hz, div_self hz.ne', if_neg (by norm_num), if_neg (by linarith), Real.sqrt_one]
  constructor
  · rw [current_from valid (by decide) hw (key _).1, rad, sol, hx]
    have : ({ exThermal with resistances := [⟨x, 30⟩, ⟨y, 80⟩] } : Cable).resistance 30 = x := by
      simp [Cable.resistance, Cable.resistanceSearch, Helper.linearY]
    rw [this]
    exact one x p1
  · rw [current_from valid (by decide) hw (key _).2, rad, sol, hy]
    have : ({ exThermal with resistances := [⟨x, 30⟩, ⟨y, 80⟩] } : Cable).resistance 80 = y := by
      norm_num [Cable.resistance, Cable.resistanceSearch, Helper.linearY]
      ring
    rw [this]
    exact one y p2

/-- A hot, still, sunny day high up against a cool, windy one at sea level, and an old surface against a bright one. -/
example : ∃ i i', (currentAfter (currentSetup exThermal 75 .metric (exWeather 0))).askCurrent.2 = some i ∧
    (currentAfter (currentSetup (withSurface exThermal 1 (1 / 4)) 75 .metric ⟨0, 2000, 1000, 0, 40⟩)).askCurrent.2 = some i' ∧
    i' ≤ i := by
  refine C156_worse exThermal .metric (exWeather 0) _ 75 _ _ exThermal_valid ?_ (by decide) (exWeather_valid le_rfl) ?_ ?_ ?_ ?_
    ?_ ?_ ?_ ?_ ?_ ?_ (by norm_num) (by rw [exThermal_resistance]; norm_num)
  · rw [Cable.validateThermal_iff]; norm_num [exThermal, exThermalPart, withSurface]
  · rw [ThermalWeather.validate_iff]; norm_num
  all_goals norm_num [exWeather, exThermal, thinningLimit]

end Verif.Props
