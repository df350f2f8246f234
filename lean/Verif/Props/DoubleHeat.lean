import Verif.DoubleHeatLemmas
import Verif.Props.DoubleLine
import Verif.Props.DoubleSpatial
import Verif.ThermalSolvers

/-! # Heat terms in `double` arithmetic (C198) -/

set_option linter.unusedSectionVars false

namespace Verif.Props

open Verif.Double

/-- The circumstances of a rating: accepted weather, a cable temperature from the air temperature to 500 degrees, and
numbers of ordinary size. -/
structure HeatedCable (d : ℝ) (s : UnitSystem) (w : ThermalWeather) (t : ℝ) : Prop where
  units : s ≠ .null
  diameter : IsDouble d
  diameter_ge : 2 ^ (-30 : ℤ) ≤ d
  diameter_le : d ≤ 2 ^ (30 : ℤ)
  angle_ge : 0 ≤ w.angleWind
  angle_le : w.angleWind ≤ 90
  elevation : IsDouble w.elevation
  elevation_ge : w.elevation = 0 ∨ 2 ^ (-30 : ℤ) ≤ w.elevation
  elevation_le : w.elevation ≤ 32768
  wind : w.speedWind = 0 ∨ (2 ^ (-30 : ℤ) ≤ w.speedWind ∧ w.speedWind ≤ 2 ^ (30 : ℤ))
  air : IsDouble w.temperatureAir
  air_ge : -100 ≤ w.temperatureAir
  air_le : w.temperatureAir ≤ 100
  temperature : IsDouble t
  temperature_ge : t = w.temperatureAir ∨ w.temperatureAir + 2 ^ (-30 : ℤ) ≤ t
  temperature_le : t ≤ 500

namespace HeatDouble

variable {d t : ℝ} {s : UnitSystem} {w : ThermalWeather}

theorem air_le_cable (h : HeatedCable d s w t) : w.temperatureAir ≤ t := by
  rcases h.temperature_ge with e | e
  · exact e.ge
  · have := two_zpow_pos (-30); linarith

theorem film_range (h : HeatedCable d s w t) : -100 ≤ Heat.film w t ∧ Heat.film w t ≤ 300 := by
  have h1 := air_le_cable h
  have h2 := h.air_ge
  have h3 := h.temperature_le
  have h4 := h.air_le
  unfold Heat.film
  constructor <;> linarith

theorem film_ab (h : HeatedCable d s w t) : Ab 601 300 (Double.Heat.film w t) (Heat.film w t) := by
  have h1 := air_le_cable h
  have h2 := h.air_ge
  have h3 := h.temperature_le
  have h4 := h.air_le
  have a1 : Ab 0 500 t t := Ab.exact (abs_le.2 ⟨by linarith, h3⟩)
  have a2 : Ab 0 100 w.temperatureAir w.temperatureAir := Ab.exact (abs_le.2 ⟨h2, h4⟩)
  have a3 := a1.add a2 (by norm_num)
  have a4 : Ab 0 (1 / 2) (1 / 2 : ℝ) (1 / 2) := Ab.exact (by rw [abs_of_pos (by norm_num)])
  have a5 := a3.mul a4 (by norm_num) le_rfl (by norm_num) (by norm_num)
  unfold Double.Heat.film Heat.film
  rw [div_eq_mul_one_div, div_eq_mul_one_div (t + w.temperatureAir)]
  exact a5.mono (by norm_num) (by norm_num)

theorem film_double (w : ThermalWeather) (t : ℝ) : IsDouble (Double.Heat.film w t) := rnd_isDouble _

variable (L : HeatLibrary)

/-- A literal times a power of ten. -/
theorem scaled {a : ℝ} {i : ℤ} (ha : 1 ≤ a) (ha' : a ≤ 10) (hi : -11 ≤ i) (hi' : i ≤ 0) :
    Rel 5 44 (rnd (rnd a * L.pow 10 i)) (a * 10 ^ i) := by
  have h1 : Rel 1 4 (rnd a) a := Rel.literal (by norm_num; linarith) (by norm_num; linarith) (by norm_num)
  have h2 : Rel 0 40 ((10 : ℝ) ^ i) (10 ^ i) := by
    refine Rel.exact (Or.inr ?_)
    have p : (0 : ℝ) < 10 ^ i := by positivity
    rw [abs_of_pos p]
    constructor
    · calc (2 : ℝ) ^ (-((40 : ℕ) : ℤ)) ≤ 10 ^ (-11 : ℤ) := by norm_num
        _ ≤ 10 ^ i := zpow_le_zpow_right₀ (by norm_num) hi
    · calc (10 : ℝ) ^ i ≤ 10 ^ (0 : ℤ) := zpow_le_zpow_right₀ (by norm_num) hi'
        _ ≤ (2 : ℝ) ^ ((40 : ℕ) : ℤ) := by norm_num
  have h3 := h2.faithful (L.pow_faithful 10 i (by exact_mod_cast isDouble_int (n := 10) (by norm_num))
    (Or.inl (by norm_num))) (by norm_num) (by norm_num)
  exact (h1.mul h3 (by norm_num) (by norm_num)).mono (by norm_num) (by norm_num)

/-- The polynomials of the conductivity. -/
theorem fit_ab {a b c x X : ℝ} {i j k : ℤ} (ha : 1 ≤ a) (ha' : a ≤ 10) (hb : 1 ≤ b) (hb' : b ≤ 10) (hc : 1 ≤ c)
    (hc' : c ≤ 10) (hi : -11 ≤ i) (hi' : i ≤ 0) (hj : -11 ≤ j) (hj' : j ≤ 0) (hk : -11 ≤ k) (hk' : k ≤ 0)
    (hx : Ab 601 300 x X) (hd : IsDouble x) {A B C : ℝ} (hA : a * 10 ^ i ≤ A) (hB : b * 10 ^ j ≤ B)
    (hC : c * 10 ^ k ≤ C) (hA' : A ≤ 1 / 10) (hB' : B ≤ 1 / 1000) (hC' : C ≤ 1 / 10000000) :
    Ab (10 * A + 4000 * B + 3000000 * C + 1 / 10 + 2 * A + 600 * B + 180000 * C) 1
      (Double.Heat.fit L a i b j c k x) (a * 10 ^ i + b * 10 ^ j * X - c * 10 ^ k * X ^ 2) := by
  have pa : (0 : ℝ) < a * 10 ^ i := by positivity
  have pb : (0 : ℝ) < b * 10 ^ j := by positivity
  have pc : (0 : ℝ) < c * 10 ^ k := by positivity
  have a1 := (scaled L ha ha' hi hi').ab (M := A) (by rwa [abs_of_pos pa]) (by norm_num)
  have b1 := (scaled L hb hb' hj hj').ab (M := B) (by rwa [abs_of_pos pb]) (by norm_num)
  have c1 := (scaled L hc hc' hk hk').ab (M := C) (by rwa [abs_of_pos pc]) (by norm_num)
  have hsq : Faithful (L.pow x 2) (x ^ 2) := L.pow_faithful x 2 hd (Or.inr (by norm_num))
  have x2 := hx.square hsq (by norm_num) (by norm_num) (by norm_num)
  have A0 : 0 < A := pa.trans_le hA
  have B0 : 0 < B := pb.trans_le hB
  have C0 : 0 < C := pc.trans_le hC
  push_cast at a1 b1 c1
  have b2 := b1.mul hx (by positivity) (by norm_num) (by nlinarith) (by nlinarith)
  have c2 := c1.mul x2 (by positivity) (by norm_num) (by nlinarith) (by nlinarith)
  have s1 := a1.add b2 (by nlinarith)
  have s2 := s1.sub c2 (by nlinarith)
  unfold Double.Heat.fit
  refine s2.mono ?_ ?_ <;> nlinarith

theorem conductivity_rel (h : HeatedCable d s w t) :
    Rel 200 10 (Double.Heat.conductivity L s (Double.Heat.film w t)) (Heat.conductivity s (Heat.film w t)) ∧
    0 < Heat.conductivity s (Heat.film w t) := by
  obtain ⟨f0, f1⟩ := film_range h
  have hx := film_ab h
  have hd := film_double w t
  generalize Double.Heat.film w t = x at *
  generalize Heat.film w t = X at *
  cases s with
  | null => exact absurd rfl h.units
  | imperial =>
    have key := fit_ab L (a := 7.388) (b := 2.279) (c := 1.343) (i := -3) (j := -5) (k := -9) (by norm_num) (by norm_num)
      (by norm_num) (by norm_num) (by norm_num) (by norm_num) (by norm_num) (by norm_num) (by norm_num) (by norm_num)
      (by norm_num) (by norm_num) hx hd (A := 0.0074) (B := 0.000023) (C := 0.0000000014) (by norm_num) (by norm_num)
      (by norm_num) (by norm_num) (by norm_num) (by norm_num)
    show Rel 200 10 (Double.Heat.fit L 7.388 (-3) 2.279 (-5) 1.343 (-9) x)
      (7.388 * 10 ^ (-3 : ℤ) + 2.279 * 10 ^ (-5 : ℤ) * X - 1.343 * 10 ^ (-9 : ℤ) * X ^ 2) ∧
      0 < 7.388 * 10 ^ (-3 : ℤ) + 2.279 * 10 ^ (-5 : ℤ) * X - 1.343 * 10 ^ (-9 : ℤ) * X ^ 2
    have v0 : (0.005 : ℝ) ≤ 7.388 * 10 ^ (-3 : ℤ) + 2.279 * 10 ^ (-5 : ℤ) * X - 1.343 * 10 ^ (-9 : ℤ) * X ^ 2 := by
      norm_num; nlinarith
    have v1 : 7.388 * 10 ^ (-3 : ℤ) + 2.279 * 10 ^ (-5 : ℤ) * X - 1.343 * 10 ^ (-9 : ℤ) * X ^ 2 ≤ (1 : ℝ) :=
      (le_abs_self _).trans key.2
    generalize (7.388 * 10 ^ (-3 : ℤ) + 2.279 * 10 ^ (-5 : ℤ) * X - 1.343 * 10 ^ (-9 : ℤ) * X ^ 2 : ℝ) = v at *
    exact ⟨key.rel (n := 100) (by linarith) (by norm_num; linarith) (by norm_num) (by norm_num; linarith)
      (by norm_num; linarith), by linarith⟩
  | metric =>
    have key := fit_ab L (a := 2.424) (b := 7.477) (c := 4.407) (i := -2) (j := -5) (k := -9) (by norm_num) (by norm_num)
      (by norm_num) (by norm_num) (by norm_num) (by norm_num) (by norm_num) (by norm_num) (by norm_num) (by norm_num)
      (by norm_num) (by norm_num) hx hd (A := 0.0243) (B := 0.000075) (C := 0.0000000045) (by norm_num) (by norm_num)
      (by norm_num) (by norm_num) (by norm_num) (by norm_num)
    show Rel 200 10 (Double.Heat.fit L 2.424 (-2) 7.477 (-5) 4.407 (-9) x)
      (2.424 * 10 ^ (-2 : ℤ) + 7.477 * 10 ^ (-5 : ℤ) * X - 4.407 * 10 ^ (-9 : ℤ) * X ^ 2) ∧
      0 < 2.424 * 10 ^ (-2 : ℤ) + 7.477 * 10 ^ (-5 : ℤ) * X - 4.407 * 10 ^ (-9 : ℤ) * X ^ 2
    have v0 : (0.016 : ℝ) ≤ 2.424 * 10 ^ (-2 : ℤ) + 7.477 * 10 ^ (-5 : ℤ) * X - 4.407 * 10 ^ (-9 : ℤ) * X ^ 2 := by
      norm_num; nlinarith
    have v1 : 2.424 * 10 ^ (-2 : ℤ) + 7.477 * 10 ^ (-5 : ℤ) * X - 4.407 * 10 ^ (-9 : ℤ) * X ^ 2 ≤ (1 : ℝ) :=
      (le_abs_self _).trans key.2
    generalize (2.424 * 10 ^ (-2 : ℤ) + 7.477 * 10 ^ (-5 : ℤ) * X - 4.407 * 10 ^ (-9 : ℤ) * X ^ 2 : ℝ) = v at *
    exact ⟨key.rel (n := 100) (by linarith) (by norm_num; linarith) (by norm_num) (by norm_num; linarith)
      (by norm_num; linarith), by linarith⟩

theorem elevation_rel (h : HeatedCable d s w t) : Rel 0 30 w.elevation w.elevation := by
  refine Rel.exact (h.elevation_ge.imp_right fun h1 => ?_)
  have p := (two_zpow_pos (-30)).trans_le h1
  rw [abs_of_pos p]
  exact ⟨h1, h.elevation_le.trans (by norm_num)⟩

theorem elevation_nonneg (h : HeatedCable d s w t) : 0 ≤ w.elevation := by
  rcases h.elevation_ge with e | e
  · exact e.ge
  · exact (two_zpow_pos (-30)).le.trans e

/-- The numerators of the density. -/
theorem fall_ab (h : HeatedCable d s w t) {a b c : ℝ} {j k : ℤ} (ha : 2 ^ (-10 : ℤ) ≤ a) (ha' : a ≤ 2) (hb : 1 ≤ b)
    (hb' : b ≤ 10) (hc : 1 ≤ c) (hc' : c ≤ 10) (hj : -11 ≤ j) (hj' : j ≤ 0) (hk : -11 ≤ k) (hk' : k ≤ 0) {B C : ℝ}
    (hB : b * 10 ^ j * 32768 ≤ B) (hC : c * 10 ^ k * 32768 ^ 2 ≤ C) (hB' : B ≤ 10) (hC' : C ≤ 10) :
    Ab (4 * a + 14 * B + 20 * C + 1 / 100) (a + B + C)
      (Double.Heat.fall L a b j c k w.elevation) (a - b * 10 ^ j * w.elevation + c * 10 ^ k * w.elevation ^ 2) := by
  have e0 := elevation_nonneg h
  have e1 := h.elevation_le
  have er := elevation_rel h
  have pa : (0 : ℝ) < a := (two_zpow_pos _).trans_le ha
  have pb : (0 : ℝ) < b * 10 ^ j := by positivity
  have pc : (0 : ℝ) < c * 10 ^ k := by positivity
  have a1 : Rel 1 10 (rnd a) a := Rel.literal ha (ha'.trans (by norm_num)) (by norm_num)
  have a2 := a1.ab (M := a) (by rw [abs_of_pos pa]) (by norm_num)
  have b1 := ((scaled L hb hb' hj hj').mul er (by norm_num) (by norm_num)).ab (M := B)
    (by rw [abs_of_nonneg (by positivity)]; exact (mul_le_mul_of_nonneg_left e1 pb.le).trans hB) (by norm_num)
  have s1 : Rel 3 60 (L.pow w.elevation 2) (w.elevation ^ 2) := by
    have h1 := er.mul_raw er
    rw [← sq] at h1
    exact h1.faithful (L.pow_faithful _ 2 h.elevation (Or.inr (by norm_num))) (by norm_num) (by norm_num)
  have c1 := ((scaled L hc hc' hk hk').mul s1 (by norm_num) (by norm_num)).ab (M := C)
    (by
      rw [abs_of_nonneg (by positivity)]
      exact (mul_le_mul_of_nonneg_left (pow_le_pow_left₀ e0 e1 2) pc.le).trans hC) (by norm_num)
  have B0 : 0 < B := (by positivity : (0 : ℝ) < b * 10 ^ j * 32768).trans_le hB
  have C0 : 0 < C := (by positivity : (0 : ℝ) < c * 10 ^ k * 32768 ^ 2).trans_le hC
  push_cast at a2 b1 c1
  have r1 := a2.sub b1 (by nlinarith)
  have r2 := r1.add c1 (by nlinarith)
  unfold Double.Heat.fall
  exact r2.mono (by nlinarith) le_rfl

theorem fall_value {a b c x : ℝ} (hc : 0 < c) {v : ℝ} (hv : b ^ 2 ≤ 4 * c * (a - v)) : v ≤ a - b * x + c * x ^ 2 := by
  nlinarith [sq_nonneg (2 * c * x - b)]

/-- `1 + 0.00367 * film`. -/
theorem expansion_rel (h : HeatedCable d s w t) :
    Rel 30 2 (rnd (1 + rnd (rnd 0.00367 * Double.Heat.film w t))) (1 + 0.00367 * Heat.film w t) ∧
    0 < 1 + 0.00367 * Heat.film w t := by
  obtain ⟨f0, f1⟩ := film_range h
  have hx := film_ab h
  have a1 : Rel 1 10 (rnd 0.00367) 0.00367 := Rel.literal (by norm_num) (by norm_num) (by norm_num)
  have a2 := a1.ab (M := 0.00367) (by rw [abs_of_pos (by norm_num)]) (by norm_num)
  have a3 := a2.mul hx (by norm_num) (by norm_num) (by norm_num) (by norm_num)
  have a4 := (Ab.exact (M := 1) (a := 1) (by norm_num)).add a3 (by norm_num)
  have v0 : (0.633 : ℝ) ≤ 1 + 0.00367 * Heat.film w t := by linarith
  have v1 : 1 + 0.00367 * Heat.film w t ≤ (3 : ℝ) := by linarith
  exact ⟨a4.rel (n := 15) (by linarith) (by norm_num at v0 ⊢; linarith) (by norm_num) (by norm_num at v0 ⊢; linarith)
    (by norm_num at v1 ⊢; linarith), by linarith⟩

theorem div_some {k l m n : ℕ} {a b c e : ℝ} (h : Rel k m a b) (h' : Rel l n c e) (he : e ≠ 0) (hk : k + l ≤ 2 ^ 50)
    (hm : m + n ≤ 1000) : Verif.divFinite b e = some (b / e) ∧ Double.Heat.divFinite a c = some (rnd (a / c)) ∧
    Rel (k + l + 1) (m + n) (rnd (a / c)) (b / e) := by
  have hc : c ≠ 0 := fun e0 => he (h'.1.zero_iff.1 e0)
  unfold Verif.divFinite Double.Heat.divFinite
  rw [if_neg he, if_neg hc]
  exact ⟨rfl, rfl, h.div h' hk hm⟩

theorem density_rel (h : HeatedCable d s w t) : ∃ r R, Double.Heat.density L s w.elevation (Double.Heat.film w t) = some r ∧
    Heat.density s w.elevation (Heat.film w t) = some R ∧ IsDouble r ∧ 0 < R ∧ Rel 1231 10 r R := by
  obtain ⟨x1, x2⟩ := expansion_rel h
  have e0 := elevation_nonneg h
  cases s with
  | null => exact absurd rfl h.units
  | imperial =>
    have key := fall_ab L h (a := 0.080695) (b := 2.901) (c := 3.7) (j := -6) (k := -11) (by norm_num) (by norm_num)
      (by norm_num) (by norm_num) (by norm_num) (by norm_num) (by norm_num) (by norm_num) (by norm_num) (by norm_num)
      (B := 0.0951) (C := 0.0398) (by norm_num) (by norm_num) (by norm_num) (by norm_num)
    have v0 : (0.02 : ℝ) ≤ 0.080695 - 2.901 * 10 ^ (-6 : ℤ) * w.elevation + 3.7 * 10 ^ (-11 : ℤ) * w.elevation ^ 2 :=
      fall_value (by norm_num) (by norm_num)
    have v1 := (le_abs_self _).trans key.2
    have hr := key.rel (n := 600) (m := 8) (by linarith) (by linarith) (by norm_num)
      (le_trans (by norm_num) v0) (v1.trans (by norm_num))
    obtain ⟨q1, q2, q3⟩ := div_some hr x1 x2.ne' (by norm_num) (by norm_num)
    exact ⟨_, _, q2, q1, rnd_isDouble _, div_pos (by linarith) x2, q3.mono (by norm_num) (by norm_num)⟩
  | metric =>
    have key := fall_ab L h (a := 1.293) (b := 1.525) (c := 6.379) (j := -4) (k := -9) (by norm_num) (by norm_num)
      (by norm_num) (by norm_num) (by norm_num) (by norm_num) (by norm_num) (by norm_num) (by norm_num) (by norm_num)
      (B := 5) (C := 6.85) (by norm_num) (by norm_num) (by norm_num) (by norm_num)
    have v0 : (0.38 : ℝ) ≤ 1.293 - 1.525 * 10 ^ (-4 : ℤ) * w.elevation + 6.379 * 10 ^ (-9 : ℤ) * w.elevation ^ 2 :=
      fall_value (by norm_num) (by norm_num)
    have v1 := (le_abs_self _).trans key.2
    have hr := key.rel (n := 600) (m := 8) (by linarith) (by linarith) (by norm_num)
      (le_trans (by norm_num) v0) (v1.trans (by norm_num))
    obtain ⟨q1, q2, q3⟩ := div_some hr x1 x2.ne' (by norm_num) (by norm_num)
    exact ⟨_, _, q2, q1, rnd_isDouble _, div_pos (by linarith) x2, q3.mono (by norm_num) (by norm_num)⟩

theorem pow_some {k m : ℕ} {a b y z : ℝ} (c : ℕ) (h : Rel k m a b) (ha : IsDouble a) (hz : IsDouble z)
    (hb : 0 ≤ b) (hy : 0 < y) (hz0 : 0 < z) (hzc : z ≤ c) (hyc : y ≤ c) (hyz : |z - y| ≤ u) (hk : c * k ≤ 2 ^ 40)
    (hm : c * m ≤ 1000) (hm' : m ≤ 1000) : Verif.powFraction b y = some (b ^ y) ∧
    Double.Heat.powFraction L a z = some (L.powr a z) ∧ IsDouble (L.powr a z) ∧
    Rel (c * k + 3 + m) (c * m) (L.powr a z) (b ^ y) := by
  have ha0 := h.1.nonneg hb
  unfold Verif.powFraction Double.Heat.powFraction
  rw [if_neg (not_lt.2 hb), if_neg (not_lt.2 ha0)]
  exact ⟨rfl, rfl, (L.powr_faithful a z ha hz ha0 hz0).1, h.powr L c ha hz hb hy hz0 hzc hyc hyz hk hm hm'⟩

theorem isDouble_three_halves : IsDouble 1.5 := ⟨3, -1, by norm_num, by norm_num, by norm_num⟩

theorem viscosity_rel (h : HeatedCable d s w t) : ∃ v V, Double.Heat.viscosity L s (Double.Heat.film w t) = some v ∧
    Heat.viscosity s (Heat.film w t) = some V ∧ IsDouble v ∧ 0 < V ∧ Rel 100 90 v V := by
  obtain ⟨f0, f1⟩ := film_range h
  have hx := film_ab h
  have a1 := hx.add (Ab.exact (M := 273) (a := 273) (by norm_num)) (by norm_num)
  have a2 := a1.rel (n := 8) (m := 10) (by linarith) (by norm_num; linarith) (by norm_num) (by norm_num; linarith)
    (by norm_num; linarith)
  have hu := u_pos
  obtain ⟨p1, p2, p3, p4⟩ := pow_some L (y := 1.5) (z := 1.5) 2 a2 (rnd_isDouble _) isDouble_three_halves (by linarith)
    (by norm_num) (by norm_num) (by norm_num) (by norm_num) (by norm_num; exact hu.le) (by norm_num) (by norm_num)
    (by norm_num)
  have c1 : Rel 1 10 (rnd 383.4) 383.4 := Rel.literal (by norm_num) (by norm_num) (by norm_num)
  have c2 := hx.add (c1.ab (M := 383.4) (by rw [abs_of_pos (by norm_num)]) (by norm_num)) (by norm_num)
  have c3 := c2.rel (n := 8) (m := 10) (by linarith) (by norm_num; linarith) (by norm_num) (by norm_num; linarith)
    (by norm_num; linarith)
  have hp : 0 < (Heat.film w t + 273) ^ (1.5 : ℝ) := Real.rpow_pos_of_pos (by linarith) _
  have hq : 0 < Heat.film w t + 383.4 := by linarith
  cases s with
  | null => exact absurd rfl h.units
  | imperial =>
    have k1 : Rel 1 10 (rnd 0.00353) 0.00353 := Rel.literal (by norm_num) (by norm_num) (by norm_num)
    have k2 := k1.mul p4 (by norm_num) (by norm_num)
    obtain ⟨q1, q2, q3⟩ := div_some k2 c3 hq.ne' (by norm_num) (by norm_num)
    have k3 : Rel 0 12 (3600 : ℝ) 3600 := Rel.exact (Or.inr (by norm_num))
    have q4 := q3.div k3 (by norm_num) (by norm_num)
    refine ⟨_, _, ?_, ?_, rnd_isDouble _, ?_, q4.mono (by norm_num) (by norm_num)⟩
    · unfold Double.Heat.viscosity; simp only [p2, Option.bind_some, q2, Option.map_some]
    · unfold Heat.viscosity; simp only [p1, Option.bind_some, q1, Option.map_some]
    · positivity
  | metric =>
    have k1 := scaled L (a := 1.458) (i := -6) (by norm_num) (by norm_num) (by norm_num) (by norm_num)
    have k2 := k1.mul p4 (by norm_num) (by norm_num)
    obtain ⟨q1, q2, q3⟩ := div_some k2 c3 hq.ne' (by norm_num) (by norm_num)
    refine ⟨_, _, ?_, ?_, rnd_isDouble _, ?_, q3.mono (by norm_num) (by norm_num)⟩
    · unfold Double.Heat.viscosity; simp only [p2, Option.bind_some, q2]
    · unfold Heat.viscosity; simp only [p1, Option.bind_some, q1]
    · positivity

/-- The larger of two numbers. -/
theorem rel_max {k m : ℕ} {a b c e : ℝ} (h : Rel k m a b) (h' : Rel k m c e) (hb : 0 ≤ b) (he : 0 ≤ e) :
    Rel k m (max a c) (max b e) := by
  constructor
  · obtain ⟨x, rfl, x1, x2⟩ := h.1
    obtain ⟨y, rfl, y1, y2⟩ := h'.1
    have pk := pow_pos one_sub_u_pos k
    rcases le_total b e with g | g
    · rw [max_eq_right g]
      rcases he.lt_or_eq with p | p
      · refine ⟨max (b * x) (e * y) / e, by field_simp, ?_, ?_⟩
        · rw [le_div_iff₀ p]
          exact (mul_comm _ _).le.trans ((mul_le_mul_of_nonneg_left y1 he).trans (le_max_right _ _))
        · rw [div_mul_eq_mul_div, div_le_one p, max_mul_of_nonneg _ _ pk.le]
          refine max_le ?_ ?_
          · rw [mul_assoc]; exact (mul_le_of_le_one_right hb x2).trans g
          · rw [mul_assoc]; exact mul_le_of_le_one_right he y2
      · rw [← p] at g ⊢
        have : b = 0 := le_antisymm g hb
        rw [this, zero_mul, zero_mul, max_self]
        exact (Close.refl 0).mono (Nat.zero_le _)
    · rw [max_eq_left g]
      rcases hb.lt_or_eq with p | p
      · refine ⟨max (b * x) (e * y) / b, by field_simp, ?_, ?_⟩
        · rw [le_div_iff₀ p]
          exact (mul_comm _ _).le.trans ((mul_le_mul_of_nonneg_left x1 hb).trans (le_max_left _ _))
        · rw [div_mul_eq_mul_div, div_le_one p, max_mul_of_nonneg _ _ pk.le]
          refine max_le ?_ ?_
          · rw [mul_assoc]; exact mul_le_of_le_one_right hb x2
          · rw [mul_assoc]; exact (mul_le_of_le_one_right he y2).trans g
      · rw [← p] at g ⊢
        have : e = 0 := le_antisymm g he
        rw [this, zero_mul, zero_mul, max_self]
        exact (Close.refl 0).mono (Nat.zero_le _)
  · rcases max_choice b e with g | g <;> rw [g]
    · exact h.2
    · exact h'.2

theorem radians_eq (a : ℝ) : Verif.toRadians a = a * (Units.kPi / 180) := by
  simp [Verif.toRadians, Units.convertAngle, Units.convert]

theorem wind_exact (h : HeatedCable d s w t) : 0.388 ≤ Heat.windFactor w.angleWind ∧ Heat.windFactor w.angleWind ≤ 3 := by
  have h0 : 0 ≤ Verif.toRadians w.angleWind := by
    rw [radians_eq]; exact mul_nonneg h.angle_ge (by unfold Units.kPi; norm_num)
  have h1 : Verif.toRadians w.angleWind ≤ Real.pi / 2 := by
    have p := Real.pi_gt_d20
    have := h.angle_le
    have k : Units.kPi ≤ Real.pi := by unfold Units.kPi; norm_num at p ⊢; linarith
    rw [radians_eq]
    have k0 : 0 < Units.kPi := by unfold Units.kPi; norm_num
    nlinarith
  have c0 : 0 ≤ Real.cos (Verif.toRadians w.angleWind) := Real.cos_nonneg_of_mem_Icc ⟨by linarith [Real.pi_pos], h1⟩
  have s0 : 0 ≤ Real.sin (Verif.toRadians w.angleWind) := Real.sin_nonneg_of_nonneg_of_le_pi h0 (by linarith [Real.pi_pos])
  have c1 := Real.cos_le_one (Verif.toRadians w.angleWind)
  have s1 := Real.sin_le_one (Verif.toRadians w.angleWind)
  unfold Heat.windFactor
  rw [Real.cos_two_mul, Real.sin_two_mul]
  have := mul_nonneg s0 c0
  constructor
  · nlinarith
  · nlinarith

theorem wind_rel (h : HeatedCable d s w t) :
    Rel 800 2 (Double.Heat.windFactor L w.angleWind) (Heat.windFactor w.angleWind) := by
  have hu := u_pos
  obtain ⟨w0, w1⟩ := wind_exact h
  have n0 := Traverse.toRadians_near L.toSunLibrary (a := w.angleWind) (abs_le.2 ⟨by linarith [h.angle_ge], by linarith [h.angle_le]⟩)
  have dbl : IsDouble (Sun.toRadians L.toSunLibrary w.angleWind) := toRadians_double L.toSunLibrary w.angleWind
  have two : rnd (2 * Sun.toRadians L.toSunLibrary w.angleWind) = 2 * Sun.toRadians L.toSunLibrary w.angleWind :=
    rnd_of_isDouble (isDouble_two_mul dbl)
  have e : w.angleWind * (Units.kPi / 180) = Verif.toRadians w.angleWind := (radians_eq _).symm
  rw [e] at n0
  have key : ∀ {x y : ℝ} (n : ℝ), IsDouble x → |x - y| ≤ n * u → Ab (n + 3) 1 (L.cos x) (Real.cos y) := by
    intro x y n hx hxy
    refine ⟨?_, Real.abs_cos_le_one y⟩
    have h1 := lib_cos_near L.toSunLibrary hx
    have h2 := Real.abs_cos_sub_cos_le x y
    calc _ ≤ |L.cos x - Real.cos x| + |Real.cos x - Real.cos y| := abs_sub_le _ _ _
      _ ≤ _ := by linarith
  have key' : ∀ {x y : ℝ} (n : ℝ), IsDouble x → |x - y| ≤ n * u → Ab (n + 3) 1 (L.sin x) (Real.sin y) := by
    intro x y n hx hxy
    refine ⟨?_, Real.abs_sin_le_one y⟩
    have h1 := lib_sin_near L.toSunLibrary hx
    have h2 := Real.abs_sin_sub_sin_le x y
    calc _ ≤ |L.sin x - Real.sin x| + |Real.sin x - Real.sin y| := abs_sub_le _ _ _
      _ ≤ _ := by linarith
  have n2 : |2 * Sun.toRadians L.toSunLibrary w.angleWind - 2 * Verif.toRadians w.angleWind| ≤ 120 * u := by
    rw [← mul_sub, abs_mul, abs_of_pos (by norm_num)]; linarith
  have c1 := key 60 dbl n0
  have c2 := key 120 (isDouble_two_mul dbl) n2
  have s2 := key' 120 (isDouble_two_mul dbl) n2
  have a1 := (Rel.literal (m := 10) (a := 1.194) (by norm_num) (by norm_num) (by norm_num)).ab (M := 1.194)
    (by rw [abs_of_pos (by norm_num)]) (by norm_num)
  have a2 := (Rel.literal (m := 10) (a := 0.194) (by norm_num) (by norm_num) (by norm_num)).ab (M := 0.194)
    (by rw [abs_of_pos (by norm_num)]) (by norm_num)
  have a3 := (Rel.literal (m := 10) (a := 0.368) (by norm_num) (by norm_num) (by norm_num)).ab (M := 0.368)
    (by rw [abs_of_pos (by norm_num)]) (by norm_num)
  have r1 := a1.sub c1 (by norm_num)
  have r2 := r1.add (a2.mul c2 (by norm_num) (by norm_num) (by norm_num) (by norm_num)) (by norm_num)
  have r3 := r2.add (a3.mul s2 (by norm_num) (by norm_num) (by norm_num) (by norm_num)) (by norm_num)
  change Ab _ _ _ (Heat.windFactor w.angleWind) at r3
  unfold Double.Heat.windFactor
  simp only [two]
  have w0' : 0 < Heat.windFactor w.angleWind := lt_of_lt_of_le (by norm_num) w0
  exact r3.rel (n := 400) w0' (by norm_num at w0 ⊢; linarith) (by norm_num)
    (by norm_num at w0 ⊢; linarith) (by norm_num at w1 ⊢; linarith)

theorem rise_rel (h : HeatedCable d s w t) : Rel 1 30 (rnd (t - w.temperatureAir)) (t - w.temperatureAir) := by
  refine Rel.rnd (Rel.exact ?_) (by norm_num) (by norm_num)
  rcases h.temperature_ge with e | e
  · left; linarith
  · right
    have p := two_zpow_pos (-30)
    rw [abs_of_pos (by linarith)]
    refine ⟨by push_cast; linarith, ?_⟩
    have h1 := h.temperature_le
    have h2 := h.air_ge
    norm_num; linarith

theorem diameter_rel (h : HeatedCable d s w t) : Rel 0 30 d d := by
  have p := (two_zpow_pos (-30)).trans_le h.diameter_ge
  exact Rel.exact (Or.inr (by rw [abs_of_pos p]; exact ⟨h.diameter_ge, h.diameter_le⟩))

theorem wind_speed_rel (h : HeatedCable d s w t) : Rel 0 30 w.speedWind w.speedWind ∧ 0 ≤ w.speedWind := by
  rcases h.wind with e | e
  · exact ⟨Rel.exact (Or.inl e), e.ge⟩
  · have p := (two_zpow_pos (-30)).trans_le e.1
    exact ⟨Rel.exact (Or.inr (by rw [abs_of_pos p]; exact e)), p.le⟩

theorem literal_near {y : ℝ} (hy : 0 < y) (hy' : y ≤ 3 / 4) (h : 1 / 2 ≤ y) : IsDouble (rnd y) ∧ 0 < rnd y ∧ rnd y ≤ 1 ∧ |rnd y - y| ≤ u := by
  have h1 := rnd_error_le y
  have h2 := tiny_small
  generalize (2 : ℝ) ^ (-1075 : ℤ) = η at *
  have hu := u_pos
  have hu' := u_small
  rw [abs_of_pos hy] at h1
  have h3 : |rnd y - y| ≤ u := by nlinarith
  have h4 := abs_le.1 h3
  exact ⟨rnd_isDouble _, by linarith [h4.1], by linarith [h4.2], h3⟩

theorem forced_rel (h : HeatedCable d s w t) {k : Cable} (hd : k.diameter = d) {c C r R v V : ℝ} (hc : Rel 200 10 c C) (hC : 0 < C)
    (hr : Rel 1231 10 r R) (hR : 0 < R) (hv : Rel 100 90 v V) (hV : 0 < V) :
    ∃ f F, Double.Heat.forced L d w c r v t = some f ∧ Heat.forced k w C R V t = some F ∧ 0 ≤ F ∧ Rel 2600 210 f F := by
  have d0 := (two_zpow_pos (-30)).trans_le h.diameter_ge
  obtain ⟨sw, sw0⟩ := wind_speed_rel h
  have wr := wind_rel L h
  obtain ⟨w0, -⟩ := wind_exact h
  have w0' : 0 < Heat.windFactor w.angleWind := lt_of_lt_of_le (by norm_num) w0
  have rise := rise_rel h
  have rise0 : 0 ≤ t - w.temperatureAir := sub_nonneg.2 (air_le_cable h)
  have q := ((diameter_rel h).mul hr (by norm_num) (by norm_num)).mul sw (by norm_num) (by norm_num)
  obtain ⟨q1, q2, q3⟩ := div_some q hv hV.ne' (by norm_num) (by norm_num)
  have X0 : 0 ≤ d * R * w.speedWind / V := by positivity
  obtain ⟨z1, z2, z3, z4⟩ := literal_near (y := 0.52) (by norm_num) (by norm_num) (by norm_num)
  obtain ⟨y1, y2, y3, y4⟩ := literal_near (y := 0.6) (by norm_num) (by norm_num) (by norm_num)
  obtain ⟨p1, p2, -, p4⟩ := pow_some L 1 q3 (rnd_isDouble _) z1 X0 (by norm_num) z2 (by rw [Nat.cast_one]; exact z3) (by norm_num) z4
    (by norm_num) (by norm_num) (by norm_num)
  obtain ⟨e1, e2, -, e4⟩ := pow_some L 1 q3 (rnd_isDouble _) y1 X0 (by norm_num) y2 (by rw [Nat.cast_one]; exact y3) (by norm_num) y4
    (by norm_num) (by norm_num) (by norm_num)
  have P0 : 0 ≤ (d * R * w.speedWind / V) ^ (0.52 : ℝ) := Real.rpow_nonneg X0 _
  have E0 : 0 ≤ (d * R * w.speedWind / V) ^ (0.6 : ℝ) := Real.rpow_nonneg X0 _
  have l1 : Rel 1 1 (rnd 1.35) 1.35 := Rel.literal (by norm_num) (by norm_num) (by norm_num)
  have l2 : Rel 1 1 (rnd 1.01) 1.01 := Rel.literal (by norm_num) (by norm_num) (by norm_num)
  have l3 : Rel 1 1 (rnd 0.754) 0.754 := Rel.literal (by norm_num) (by norm_num) (by norm_num)
  have g1 := l1.mul p4 (by norm_num) (by norm_num)
  have g2 := (l2.mono (l := 1 + (1 * (0 + 1231 + 1 + 0 + 1 + 100 + 1) + 3 + (30 + 10 + 30 + 90)) + 1) (n := 1 + 1 * (30 + 10 + 30 + 90)) (by norm_num) (by norm_num)).add g1 (by norm_num)
    (by positivity) (by norm_num) (by norm_num)
  have g3 := ((wr.mul g2 (by norm_num) (by norm_num)).mul hc (by norm_num) (by norm_num)).mul rise (by norm_num) (by norm_num)
  have g4 := (((wr.mul l3 (by norm_num) (by norm_num)).mul e4 (by norm_num) (by norm_num)).mul hc (by norm_num) (by norm_num)).mul
    rise (by norm_num) (by norm_num)
  have m3 := g3.mono (l := 2600) (n := 210) (by norm_num) (by norm_num)
  have m4 := g4.mono (l := 2600) (n := 210) (by norm_num) (by norm_num)
  have n3 : 0 ≤ Heat.windFactor w.angleWind * (1.01 + 1.35 * (d * R * w.speedWind / V) ^ (0.52 : ℝ)) * C * (t - w.temperatureAir) := by
    positivity
  have n4 : 0 ≤ Heat.windFactor w.angleWind * 0.754 * (d * R * w.speedWind / V) ^ (0.6 : ℝ) * C * (t - w.temperatureAir) := by
    positivity
  refine ⟨_, _, ?_, ?_, ?_, rel_max m3 m4 n3 n4⟩
  · unfold Double.Heat.forced
    rw [q2]
    simp only [Option.bind_some, p2, e2, Option.map_some, max_def]
  · unfold Heat.forced
    rw [hd, q1]
    simp only [Option.bind_some, p1, e1, Option.map_some, max_def]
  · exact n3.trans (le_max_left _ _)

theorem isDouble_three_quarters : IsDouble 0.75 := ⟨3, -2, by norm_num, by norm_num, by norm_num⟩

theorem isDouble_five_quarters : IsDouble 1.25 := ⟨5, -2, by norm_num, by norm_num, by norm_num⟩

theorem isDouble_point_five : IsDouble 0.5 := ⟨1, -1, by norm_num, by norm_num, by norm_num⟩

theorem natural_rel (h : HeatedCable d s w t) {k : Cable} (hd : k.diameter = d) {r R : ℝ} (hrd : IsDouble r)
    (hr : Rel 1231 10 r R) (hR : 0 < R) :
    ∃ f F, Double.Heat.natural L d s w r t = some f ∧ Heat.natural k s w R t = some F ∧ 0 ≤ F ∧ Rel 2600 210 f F := by
  have d0 := (two_zpow_pos (-30)).trans_le h.diameter_ge
  have hu := u_pos
  have rise := rise_rel h
  have rise0 : 0 ≤ t - w.temperatureAir := sub_nonneg.2 (air_le_cable h)
  have z : ∀ x : ℝ, |x - x| ≤ u := fun x => by rw [sub_self, abs_zero]; exact hu.le
  obtain ⟨p1, p2, -, p4⟩ := pow_some L (y := 0.5) 1 hr hrd isDouble_point_five hR.le (by norm_num) (by norm_num) (by norm_num)
    (by norm_num) (z _) (by norm_num) (by norm_num) (by norm_num)
  obtain ⟨q1, q2, -, q4⟩ := pow_some L (y := 0.75) 1 (diameter_rel h) h.diameter isDouble_three_quarters d0.le (by norm_num)
    (by norm_num) (by norm_num) (by norm_num) (z _) (by norm_num) (by norm_num) (by norm_num)
  obtain ⟨r1, r2, -, r4⟩ := pow_some L (y := 1.25) 2 rise (rnd_isDouble _) isDouble_five_quarters rise0 (by norm_num)
    (by norm_num) (by norm_num) (by norm_num) (z _) (by norm_num) (by norm_num) (by norm_num)
  have c1 : Rel 1 2 (Double.Heat.naturalConstant s) (Heat.naturalConstant s) ∧ 0 < Heat.naturalConstant s := by
    cases s with
    | null => exact absurd rfl h.units
    | imperial => exact ⟨Rel.literal (by norm_num) (by norm_num) (by norm_num), by norm_num [Heat.naturalConstant]⟩
    | metric => exact ⟨Rel.literal (by norm_num) (by norm_num) (by norm_num), by norm_num [Heat.naturalConstant]⟩
  have g := ((c1.1.mul p4 (by norm_num) (by norm_num)).mul q4 (by norm_num) (by norm_num)).mul r4 (by norm_num) (by norm_num)
  refine ⟨_, _, ?_, ?_, ?_, g.mono (by norm_num) (by norm_num)⟩
  · unfold Double.Heat.natural
    simp only [Option.bind_some, p2, q2, r2, Option.map_some]
  · unfold Heat.natural
    rw [hd]
    simp only [Option.bind_some, p1, q1, r1, Option.map_some]
  · have := c1.2
    have := Real.rpow_nonneg hR.le 0.5
    have := Real.rpow_nonneg d0.le 0.75
    have := Real.rpow_nonneg rise0 1.25
    positivity

theorem larger_some (n f : ℝ) : Double.Heat.larger (some n) (some f) = some (-max n f) ∧
    Heat.larger (some n) (some f) = some (-max n f) := by
  unfold Double.Heat.larger Heat.larger
  simp only
  by_cases g : n < f
  · rw [if_pos g, max_eq_right g.le]; simp
  · rw [if_neg g, max_eq_left (not_lt.1 g)]; simp

theorem convection_rel (h : HeatedCable d s w t) {k : Cable} (hd : k.diameter = d) : ∃ f F,
    Double.Heat.convection L d s w t = some (-f) ∧ Heat.convection k s w t = some (-F) ∧ 0 ≤ F ∧ Rel 2600 210 f F := by
  obtain ⟨r, R, r1, r2, r3, r4, r5⟩ := density_rel L h
  obtain ⟨v, V, v1, v2, v3, v4, v5⟩ := viscosity_rel L h
  obtain ⟨c1, c2⟩ := conductivity_rel L h
  obtain ⟨f, F, f1, f2, f3, f4⟩ := forced_rel L h hd c1 c2 r5 r4 v5 v4
  obtain ⟨n, N, n1, n2, n3, n4⟩ := natural_rel L h hd r3 r5 r4
  refine ⟨max n f, max N F, ?_, ?_, n3.trans (le_max_left _ _), rel_max n4 f4 n3 f3⟩
  · unfold Double.Heat.convection
    rw [if_neg h.units]
    simp only [r1, v1, Option.bind_some, f1, n1, (larger_some n f).1]
  · unfold Heat.convection
    rw [if_neg h.units]
    simp only [r2, v2, Option.bind_some, f2, n2, (larger_some N F).2]

theorem close_error {k : ℕ} {a b : ℝ} (h : Close k a b) (hk : k ≤ 4096) : |a - b| ≤ 2 ^ (-40 : ℤ) * |b| := by
  have h1 := h.error (hk.trans (by norm_num))
  have hu := u_pos
  have h2 : (k : ℝ) ≤ 4096 := by exact_mod_cast hk
  have h3 : 4096 * 2 * u = 2 ^ (-40 : ℤ) := by unfold u; norm_num
  rw [← h3]
  refine h1.trans (mul_le_mul_of_nonneg_right ?_ (abs_nonneg b))
  nlinarith

theorem kelvin_rel {x : ℝ} (hx0 : -100 ≤ x) (hx1 : x ≤ 500) :
    Rel 11 68 (L.pow (rnd (rnd (x + 273) / 100)) 4) (((x + 273) / 100) ^ 4) := by
  have p : (0 : ℝ) < x + 273 := by linarith
  have a1 : Rel 1 10 (rnd (x + 273)) (x + 273) := Rel.literal (by norm_num; linarith) (by norm_num; linarith) (by norm_num)
  have a2 : Rel 0 7 (100 : ℝ) 100 := Rel.exact (Or.inr (by norm_num))
  have a3 := a1.div a2 (by norm_num) (by norm_num)
  have a4 := (a3.mul_raw a3).mul_raw (a3.mul_raw a3)
  have e : ∀ y : ℝ, y * y * (y * y) = y ^ 4 := fun y => by ring
  rw [e, e] at a4
  exact a4.faithful (L.pow_faithful _ 4 (rnd_isDouble _) (Or.inr (by norm_num))) (by norm_num) (by norm_num)

theorem constant_rel (hs : s ≠ .null) : Rel 1 5 (Double.Heat.radiationConstant s) (Heat.radiationConstant s) ∧
    0 < Heat.radiationConstant s := by
  cases s with
  | null => exact absurd rfl hs
  | imperial => exact ⟨Rel.literal (by norm_num) (by norm_num) (by norm_num), by norm_num [Heat.radiationConstant]⟩
  | metric => exact ⟨Rel.literal (by norm_num) (by norm_num) (by norm_num), by norm_num [Heat.radiationConstant]⟩

theorem fraction_rel {e : ℝ} (he : e = 0 ∨ (2 ^ (-30 : ℤ) ≤ e ∧ e ≤ 2 ^ (30 : ℤ))) : Rel 0 30 e e ∧ 0 ≤ e := by
  rcases he with h | h
  · exact ⟨Rel.exact (Or.inl h), h.ge⟩
  · have p := (two_zpow_pos (-30)).trans_le h.1
    exact ⟨Rel.exact (Or.inr (by rw [abs_of_pos p]; exact h)), p.le⟩

/-- The heat radiated by the cable and the heat received from the surroundings. -/
noncomputable def radiated (k : Cable) (s : UnitSystem) (w : ThermalWeather) (t : ℝ) : ℝ :=
  Heat.radiationConstant s * k.diameter * k.emissivity * (((t + 273) / 100) ^ 4 + ((w.temperatureAir + 273) / 100) ^ 4)

theorem radiation_core {k1 K1 k2 K2 k3 K3 : ℝ} (h1 : Rel 3 65 k1 K1) (h2 : Rel 11 68 k2 K2) (h3 : Rel 11 68 k3 K3)
    (p1 : 0 ≤ K1) (p2 : 1 ≤ K2) (p3 : 1 ≤ K3) :
    |rnd (-1 * k1 * rnd (k2 - k3)) - -1 * K1 * (K2 - K3)| ≤ 2 ^ (-46 : ℤ) * (K1 * (K2 + K3)) := by
  have hu := u_pos
  have hu' : u ≤ 1 / 10 ^ 12 := by unfold u; norm_num
  rcases h1.2 with z | z
  · have := h1.1.zero_iff.2 z
    rw [this, z]; simp [rnd_zero]
  rw [abs_of_nonneg p1] at z
  have e1 := h1.1.error (by norm_num)
  have e2 := h2.1.error (by norm_num)
  have e3 := h3.1.error (by norm_num)
  rw [abs_of_nonneg p1] at e1
  rw [abs_of_nonneg (zero_le_one.trans p2)] at e2
  rw [abs_of_nonneg (zero_le_one.trans p3)] at e3
  push_cast at e1 e2 e3
  set S := K2 + K3 with hS
  have S2 : 2 ≤ S := by linarith
  have d1 : |k2 - k3 - (K2 - K3)| ≤ 22 * u * S := by
    rw [show k2 - k3 - (K2 - K3) = (k2 - K2) - (k3 - K3) by ring]
    refine (abs_sub _ _).trans ?_
    rw [hS]; nlinarith
  have ht := tiny_small
  have d2 := rnd_error_le (k2 - k3)
  have d3 := rnd_error_le (-1 * k1 * rnd (k2 - k3))
  have t1 : (2 : ℝ) ^ (-1075 : ℤ) ≤ u * (K1 * S) := by
    have h : (2 : ℝ) ^ (-1075 : ℤ) ≤ u * 2 ^ (-65 : ℤ) := by
      rw [show (u : ℝ) = 2 ^ (-53 : ℤ) by unfold u; norm_num, ← zpow_add₀ (by norm_num)]; exact two_zpow_le (by norm_num)
    refine h.trans (mul_le_mul_of_nonneg_left ?_ hu.le)
    have := z.1
    push_cast at this
    nlinarith
  have d4 : |K2 - K3| ≤ S := by rw [abs_le]; constructor <;> linarith
  have d5 : |k2 - k3| ≤ S + 22 * u * S := by
    have := abs_sub_abs_le_abs_sub (k2 - k3) (K2 - K3)
    linarith
  set D := rnd (k2 - k3)
  have d6 : |D - (K2 - K3)| ≤ 24 * u * S := by
    have : |D - (K2 - K3)| ≤ |D - (k2 - k3)| + |k2 - k3 - (K2 - K3)| := abs_sub_le _ _ _
    generalize (2 : ℝ) ^ (-1075 : ℤ) = η at *
    have q1 : u * |k2 - k3| ≤ u * (S + 22 * u * S) := mul_le_mul_of_nonneg_left d5 hu.le
    have q2 : 22 * u * S ≤ 1 / 4 * S := mul_le_mul_of_nonneg_right (by linarith) (by linarith)
    nlinarith
  have d7 : |D| ≤ 2 * S := by
    have := abs_sub_abs_le_abs_sub D (K2 - K3)
    nlinarith
  have d8 : |(-1 * k1 * D) - (-1 * K1 * (K2 - K3))| ≤ 36 * u * (K1 * S) := by
    rw [show (-1 * k1 * D) - (-1 * K1 * (K2 - K3)) = -((k1 - K1) * D + K1 * (D - (K2 - K3))) by ring, abs_neg]
    refine (abs_add_le _ _).trans ?_
    rw [abs_mul, abs_mul, abs_of_nonneg p1]
    have a1 : |k1 - K1| * |D| ≤ 6 * u * K1 * (2 * S) :=
      mul_le_mul (by linarith) d7 (abs_nonneg _) (by positivity)
    have a2 : K1 * |D - (K2 - K3)| ≤ K1 * (24 * u * S) := mul_le_mul_of_nonneg_left d6 p1
    linarith
  have d9 : |(-1 * K1 * (K2 - K3))| ≤ K1 * S := by
    rw [abs_mul, abs_mul, abs_neg, abs_one, one_mul, abs_of_nonneg p1]
    exact mul_le_mul_of_nonneg_left d4 p1
  have KS : 0 ≤ K1 * S := by positivity
  generalize K1 * S = X at *
  generalize -1 * K1 * (K2 - K3) = Y at *
  generalize -1 * k1 * D = y at *
  generalize (2 : ℝ) ^ (-1075 : ℤ) = η at *
  have d10 : |y| ≤ 2 * X := by
    have := abs_sub_abs_le_abs_sub y Y
    nlinarith
  have e4 : (2 : ℝ) ^ (-46 : ℤ) = 128 * u := by unfold u; norm_num
  rw [e4]
  have := abs_sub_le (rnd y) y Y
  nlinarith

theorem isDouble_neg_one_mul {x : ℝ} (h : IsDouble x) : IsDouble (-1 * x) := by rw [neg_one_mul]; exact h.neg

theorem balance_core {c C r R K s S : ℝ} (hc : |c - C| ≤ 5200 * u * |C|) (hr : |r - R| ≤ 128 * u * K) (hR : |R| ≤ K)
    (hs : |s - S| ≤ 4 * u * |S|) (hT : (2 : ℝ) ^ (-250 : ℤ) ≤ |C| + K + |S|) :
    |Double.Heat.balance c r s - -1 * (C + R + S)| ≤ 5300 * u * (|C| + K + |S|) := by
  have hu := u_pos
  have hu' : u ≤ 1 / 10 ^ 12 := by unfold u; norm_num
  have K0 := (abs_nonneg R).trans hR
  have C0 := abs_nonneg C
  have S0 := abs_nonneg S
  have t1 : (2 : ℝ) ^ (-1075 : ℤ) ≤ u * (|C| + K + |S|) := by
    have h : (2 : ℝ) ^ (-1075 : ℤ) ≤ u * 2 ^ (-250 : ℤ) := by
      rw [show (u : ℝ) = 2 ^ (-53 : ℤ) by unfold u; norm_num, ← zpow_add₀ (by norm_num)]; exact two_zpow_le (by norm_num)
    exact h.trans (mul_le_mul_of_nonneg_left hT hu.le)
  have e1 := rnd_error_le (c + r)
  have e2 := rnd_error_le (rnd (c + r) + s)
  unfold Double.Heat.balance
  rw [show -1 * rnd (rnd (c + r) + s) - -1 * (C + R + S) = -(rnd (rnd (c + r) + s) - (C + R + S)) by ring, abs_neg]
  generalize (2 : ℝ) ^ (-1075 : ℤ) = η at *
  set T := |C| + K + |S| with hTd
  have T0 : 0 ≤ T := by positivity
  have d1 : |c + r - (C + R)| ≤ 5200 * u * (|C| + K) := by
    rw [show c + r - (C + R) = (c - C) + (r - R) by ring]
    refine (abs_add_le _ _).trans ?_
    nlinarith
  have d2 : |c + r| ≤ 2 * T := by
    have q1 : |c + r| ≤ |c + r - (C + R)| + |C + R| := by
      have := abs_add_le (c + r - (C + R)) (C + R); rwa [sub_add_cancel] at this
    have q2 := abs_add_le C R
    have q3 : 5200 * u * (|C| + K) ≤ 1 / 2 * (|C| + K) := mul_le_mul_of_nonneg_right (by linarith) (by positivity)
    linarith
  have d3 : |rnd (c + r) - (C + R)| ≤ 5200 * u * (|C| + K) + 3 * u * T := by
    have := abs_sub_le (rnd (c + r)) (c + r) (C + R)
    nlinarith
  have d4 : |rnd (c + r) + s - (C + R + S)| ≤ 5203 * u * T := by
    rw [show rnd (c + r) + s - (C + R + S) = (rnd (c + r) - (C + R)) + (s - S) by ring]
    refine (abs_add_le _ _).trans ?_
    rw [hTd] at d3 ⊢
    nlinarith [mul_nonneg hu.le S0]
  have d5 : |rnd (c + r) + s| ≤ 2 * T := by
    have q1 : |rnd (c + r) + s| ≤ |rnd (c + r) + s - (C + R + S)| + |C + R + S| := by
      have := abs_add_le (rnd (c + r) + s - (C + R + S)) (C + R + S); rwa [sub_add_cancel] at this
    have q2 := abs_add_le C R
    have q4 := abs_add_le (C + R) S
    have q3 : 5203 * u * T ≤ 1 / 2 * T := mul_le_mul_of_nonneg_right (by linarith) T0
    linarith
  have := abs_sub_le (rnd (rnd (c + r) + s)) (rnd (c + r) + s) (C + R + S)
  nlinarith

theorem current_core {h r : ℝ} (hr : 0 < r) :
    |Double.Heat.current h r * |Double.Heat.current h r| * r - h| ≤ 8 * u * |h| + 2 * 2 ^ (-1075 : ℤ) * r := by
  have hu := u_pos
  have hu' := u_small
  have e1 := rnd_error_le (|h| / r)
  have q0 : 0 ≤ |h| / r := by positivity
  rw [abs_of_nonneg q0] at e1
  have Q0 : 0 ≤ rnd (|h| / r) := rnd_nonneg q0
  have c1 := (sqrt_double_close (rnd_isDouble (|h| / r)) Q0).error (by norm_num)
  rw [abs_of_nonneg Q0] at c1
  have s0 : 0 ≤ rnd √(rnd (|h| / r)) := rnd_nonneg (Real.sqrt_nonneg _)
  set q := rnd (|h| / r)
  set z := rnd √q
  have e0 : |h| / r * r = |h| := div_mul_cancel₀ _ hr.ne'
  have key : |z ^ 2 * r - (|h|)| ≤ 8 * u * |h| + 2 * 2 ^ (-1075 : ℤ) * r := by
    generalize (2 : ℝ) ^ (-1075 : ℤ) = η at *
    have η0 : 0 ≤ η ∨ η < 0 := le_or_gt 0 η
    have a1 : |z ^ 2 - |h| / r| ≤ 8 * u * (|h| / r) + 2 * η := by
      have := abs_sub_le (z ^ 2) q (|h| / r)
      have g := (abs_le.1 e1).2
      push_cast at c1
      have b1 : u * q ≤ u * (|h| / r + (u * (|h| / r) + η)) := mul_le_mul_of_nonneg_left (by linarith) hu.le
      have b2 : u * (u * (|h| / r)) ≤ u * (1 / 4 * (|h| / r)) :=
        mul_le_mul_of_nonneg_left (mul_le_mul_of_nonneg_right (by linarith) q0) hu.le
      have η1 : 0 ≤ u * (|h| / r) + η := (abs_nonneg _).trans e1
      have b3 : u * (u * (|h| / r) + η) ≤ 1 / 4 * (u * (|h| / r) + η) := mul_le_mul_of_nonneg_right (by linarith) η1
      nlinarith [mul_nonneg hu.le q0]
    calc |z ^ 2 * r - (|h|)| = |z ^ 2 - |h| / r| * r := by
          rw [show z ^ 2 * r - |h| = (z ^ 2 - |h| / r) * r by rw [sub_mul, e0], abs_mul, abs_of_pos hr]
      _ ≤ (8 * u * (|h| / r) + 2 * η) * r := mul_le_mul_of_nonneg_right a1 hr.le
      _ = 8 * u * (|h| / r * r) + 2 * η * r := by ring
      _ = _ := by rw [e0]
  have cur : Double.Heat.current h r = if h < 0 then z * -1 else z := rfl
  clear_value z
  rw [cur]
  by_cases hh : h < 0
  · rw [if_pos hh, abs_mul, abs_neg, abs_one, mul_one, abs_of_nonneg s0]
    rw [abs_of_neg hh] at key ⊢
    rw [show z * -1 * z * r - h = -(z ^ 2 * r - -h) by ring, abs_neg]; exact key
  · rw [if_neg hh, abs_of_nonneg s0]
    rw [abs_of_nonneg (not_lt.1 hh)] at key ⊢
    rw [show z * z * r - h = z ^ 2 * r - h by ring]; exact key

end HeatDouble

open HeatDouble

variable {d t : ℝ} {s : UnitSystem} {w : ThermalWeather} (L : HeatLibrary)

/-- **C198** (convection): the convective heat loss computed in `double` arithmetic with a faithful library differs from
the exact one by at most one part in 2^40, whatever the regime, the wind and the height above sea level; it is neither
NaN nor positive. -/
theorem C198_convection (h : HeatedCable d s w t) {k : Cable} (hd : k.diameter = d) : ∃ x y,
    Heat.convection k s w t = some x ∧ Double.Heat.convection L d s w t = some y ∧ y ≤ 0 ∧
    |y - x| ≤ 2 ^ (-40 : ℤ) * |x| := by
  obtain ⟨f, F, h1, h2, h3, h4⟩ := convection_rel L h hd
  refine ⟨_, _, h2, h1, by have := h4.1.nonneg h3; linarith, ?_⟩
  rw [show -f - -F = -(f - F) by ring, abs_neg, abs_neg]
  exact close_error h4.1 (by norm_num)

/-- **C198** (radiation): the radiated heat loss computed in `double` arithmetic is wrong by at most one part in 2^46 of the
sum of the heat radiated and the heat received from the surroundings. -/
theorem C198_radiation (h : HeatedCable d s w t) {k : Cable} (hd : k.diameter = d)
    (he : k.emissivity = 0 ∨ (2 ^ (-30 : ℤ) ≤ k.emissivity ∧ k.emissivity ≤ 2 ^ (30 : ℤ))) :
    |Double.Heat.radiation L d k.emissivity s w t - Heat.radiation k s w t| ≤
      2 ^ (-46 : ℤ) * (Heat.radiationConstant s * d * k.emissivity *
        (((t + 273) / 100) ^ 4 + ((w.temperatureAir + 273) / 100) ^ 4)) := by
  have a0 := air_le_cable h
  have a1 := h.air_ge
  have a2 := h.air_le
  have a3 := h.temperature_le
  obtain ⟨e1, e2⟩ := fraction_rel he
  obtain ⟨c1, c2⟩ := constant_rel h.units
  have d0 := (two_zpow_pos (-30)).trans_le h.diameter_ge
  have k1 := (c1.mul (diameter_rel h) (by norm_num) (by norm_num)).mul e1 (by norm_num) (by norm_num)
  have one : ∀ x : ℝ, -100 ≤ x → 1 ≤ ((x + 273) / 100) ^ 4 := fun x hx => by
    refine one_le_pow₀ ?_
    rw [le_div_iff₀ (by norm_num)]; linarith
  unfold Heat.radiation
  rw [hd]
  exact radiation_core (k1.mono (by norm_num) (by norm_num)) (kelvin_rel L (by linarith) a3) (kelvin_rel L a1 (by linarith))
    (by positivity) (one t (by linarith)) (one _ a1)

/-- **C198** (solar heat): the solar heat gain is computed with an error of at most four roundings. -/
theorem C198_solar {k : Cable} (hd : k.diameter = 0 ∨ (2 ^ (-30 : ℤ) ≤ k.diameter ∧ k.diameter ≤ 2 ^ (30 : ℤ)))
    (ha : k.absorptivity = 0 ∨ (2 ^ (-30 : ℤ) ≤ k.absorptivity ∧ k.absorptivity ≤ 2 ^ (30 : ℤ)))
    (hr : w.radiationSolar = 0 ∨ (2 ^ (-30 : ℤ) ≤ w.radiationSolar ∧ w.radiationSolar ≤ 2 ^ (30 : ℤ))) :
    |Double.Heat.solar k.diameter k.absorptivity w - Heat.solar k w| ≤ 2 ^ (-51 : ℤ) * |Heat.solar k w| := by
  obtain ⟨d1, d2⟩ := fraction_rel hd
  obtain ⟨a1, a2⟩ := fraction_rel ha
  obtain ⟨r1, r2⟩ := fraction_rel hr
  have g := ((a1.mul r1 (by norm_num) (by norm_num)).mul d1 (by norm_num) (by norm_num)).1.error (by norm_num)
  unfold Heat.solar Double.Heat.solar
  rw [mul_one]
  refine g.trans (le_of_eq ?_)
  unfold u; norm_num

/-- **C198** (resistive heat): the heat of a current in a resistance is computed with an error of at most eight roundings. -/
theorem C198_resistance {r i : ℝ} (hi : IsDouble i) (hi' : i = 0 ∨ (2 ^ (-30 : ℤ) ≤ |i| ∧ |i| ≤ 2 ^ (30 : ℤ)))
    (hr : r = 0 ∨ (2 ^ (-100 : ℤ) ≤ |r| ∧ |r| ≤ 2 ^ (100 : ℤ))) :
    |Double.Heat.resistance L r i - i ^ 2 * r| ≤ 2 ^ (-50 : ℤ) * |i ^ 2 * r| := by
  have a1 : Rel 0 30 i i := Rel.exact hi'
  have a2 : Rel 0 100 r r := Rel.exact hr
  have a3 := a1.mul_raw a1
  rw [← sq] at a3
  have a4 := a3.faithful (L.pow_faithful _ 2 hi (Or.inr (by norm_num))) (by norm_num) (by norm_num)
  refine ((a4.mul a2 (by norm_num) (by norm_num)).1.error (by norm_num)).trans (le_of_eq ?_)
  unfold u; norm_num

/-- **C198** (current): the current computed from a heat and a resistance has the sign of the heat, and its resistive heat
is that heat up to eight roundings. -/
theorem C198_current {h r : ℝ} (hr : 0 < r) (hr' : r ≤ 2 ^ (100 : ℤ)) (hh : h = 0 ∨ 2 ^ (-900 : ℤ) ≤ |h|) :
    let i := Double.Heat.current h r
    (h < 0 → i ≤ 0) ∧ (0 ≤ h → 0 ≤ i) ∧ |i * |i| * r - h| ≤ 2 ^ (-49 : ℤ) * |h| := by
  have hu := u_pos
  refine ⟨fun g => ?_, fun g => ?_, ?_⟩
  · have := rnd_nonneg (Real.sqrt_nonneg (rnd (|h| / r)))
    unfold Double.Heat.current; rw [if_pos g]; linarith
  · unfold Double.Heat.current; rw [if_neg (not_lt.2 g)]; exact rnd_nonneg (Real.sqrt_nonneg _)
  · rcases hh with z | z
    · simp [z, Double.Heat.current, rnd_zero]
    · refine (current_core (h := h) hr).trans ?_
      have t1 : (2 : ℝ) ^ (-1075 : ℤ) * r ≤ u * |h| := by
        calc (2 : ℝ) ^ (-1075 : ℤ) * r ≤ 2 ^ (-1075 : ℤ) * 2 ^ (100 : ℤ) := by gcongr
          _ = 2 ^ (-975 : ℤ) := by rw [← zpow_add₀ (by norm_num)]; norm_num
          _ ≤ 2 ^ (-53 : ℤ) * 2 ^ (-900 : ℤ) := by rw [← zpow_add₀ (by norm_num)]; exact two_zpow_le (by norm_num)
          _ ≤ u * |h| := by
            rw [show (u : ℝ) = 2 ^ (-53 : ℤ) by unfold u; norm_num]
            exact mul_le_mul_of_nonneg_left z (two_zpow_pos _).le
      have e : (2 : ℝ) ^ (-49 : ℤ) = 16 * u := by unfold u; norm_num
      rw [e]
      have := mul_nonneg hu.le (abs_nonneg h)
      linarith

/-- **C198** (steady state): at the current the solver computes in `double` arithmetic, for whatever positive resistance,
the heat balance of the exact formulas holds up to one part in 2^40 of the heat that is exchanged: the convective loss, the
radiation in both directions and the heat of the sun. -/
theorem C198_steady (h : HeatedCable d s w t) {k : Cable} (hd : k.diameter = d)
    (he : k.emissivity = 0 ∨ (2 ^ (-30 : ℤ) ≤ k.emissivity ∧ k.emissivity ≤ 2 ^ (30 : ℤ)))
    (ha : k.absorptivity = 0 ∨ (2 ^ (-30 : ℤ) ≤ k.absorptivity ∧ k.absorptivity ≤ 2 ^ (30 : ℤ)))
    (hw : w.radiationSolar = 0 ∨ (2 ^ (-30 : ℤ) ≤ w.radiationSolar ∧ w.radiationSolar ≤ 2 ^ (30 : ℤ)))
    {r : ℝ} (hr : 0 < r) (hr' : r ≤ 2 ^ (100 : ℤ)) : ∃ i c x,
    Double.Heat.steady L d k.emissivity k.absorptivity r s w t = some i ∧
    Heat.convection k s w t = some c ∧ (Heat.steadyState k s w (some t)).resistance = some x ∧
    |i * |i| * r - x| ≤ 2 ^ (-40 : ℤ) * (|c| + Heat.radiationConstant s * d * k.emissivity *
        (((t + 273) / 100) ^ 4 + ((w.temperatureAir + 273) / 100) ^ 4) + Heat.solar k w) := by
  have hu := u_pos
  have hu' : u ≤ 1 / 10 ^ 12 := by unfold u; norm_num
  obtain ⟨f, F, h1, h2, h3, h4⟩ := convection_rel L h hd
  have d0 := (two_zpow_pos (-30)).trans_le h.diameter_ge
  have rad := C198_radiation L h hd he
  obtain ⟨e1, e2⟩ := fraction_rel he
  obtain ⟨a1, a2⟩ := fraction_rel ha
  obtain ⟨r1, r2⟩ := fraction_rel hw
  obtain ⟨c1, c2⟩ := constant_rel h.units
  have kr := (c1.mul (diameter_rel h) (by norm_num) (by norm_num)).mul e1 (by norm_num) (by norm_num)
  have sr := (a1.mul r1 (by norm_num) (by norm_num)).mul (diameter_rel h) (by norm_num) (by norm_num)
  have S0 : 0 ≤ Heat.solar k w := by unfold Heat.solar; rw [hd]; positivity
  have es : Heat.solar k w = k.absorptivity * w.radiationSolar * d := by unfold Heat.solar; rw [hd, mul_one]
  have sol : |Double.Heat.solar d k.absorptivity w - Heat.solar k w| ≤ 4 * u * |Heat.solar k w| := by
    have g := C198_solar (w := w) (Or.inr ⟨hd ▸ h.diameter_ge, hd ▸ h.diameter_le⟩) ha hw
    rw [hd, show (2 : ℝ) ^ (-51 : ℤ) = 4 * u by unfold u; norm_num] at g
    exact g
  rw [show (2 : ℝ) ^ (-46 : ℤ) = 128 * u by unfold u; norm_num] at rad
  have t0 := air_le_cable h
  have t1 := h.air_ge
  have one : ∀ x : ℝ, -100 ≤ x → 1 ≤ ((x + 273) / 100) ^ 4 := fun x hx => by
    refine one_le_pow₀ ?_
    rw [le_div_iff₀ (by norm_num)]; linarith
  have o1 := one t (by linarith)
  have o2 := one _ t1
  set K1 := Heat.radiationConstant s * d * k.emissivity with hK1
  have K10 : 0 ≤ K1 := by positivity
  have rb : |Heat.radiation k s w t| ≤
      K1 * (((t + 273) / 100) ^ 4 + ((w.temperatureAir + 273) / 100) ^ 4) := by
    unfold Heat.radiation
    rw [hd, ← hK1, abs_mul, abs_mul, abs_neg, abs_one, one_mul, abs_of_nonneg K10]
    refine mul_le_mul_of_nonneg_left ?_ K10
    rw [abs_le]; constructor <;> linarith
  have Kpos : 0 ≤ K1 * (((t + 273) / 100) ^ 4 + ((w.temperatureAir + 273) / 100) ^ 4) := by positivity
  have Kbig : K1 = 0 ∨ (2 : ℝ) ^ (-250 : ℤ) ≤ K1 * (((t + 273) / 100) ^ 4 + ((w.temperatureAir + 273) / 100) ^ 4) := by
    refine kr.2.imp_right fun g => ?_
    have g1 := g.1
    rw [abs_of_nonneg K10] at g1
    have g2 : (2 : ℝ) ^ (-250 : ℤ) ≤ K1 := (two_zpow_le (by norm_num)).trans g1
    exact g2.trans (le_mul_of_one_le_right K10 (by linarith))
  set K := K1 * (((t + 273) / 100) ^ 4 + ((w.temperatureAir + 273) / 100) ^ 4) with hK
  have conv : |-f - -F| ≤ 5200 * u * |-F| := by
    have g := h4.1.error (by norm_num)
    rw [show -f - -F = -(f - F) by ring, abs_neg, abs_neg]
    push_cast at g; linarith
  have hx : (Heat.steadyState k s w (some t)).resistance = some (-1 * (-F + Heat.radiation k s w t + Heat.solar k w)) := by
    unfold Heat.steadyState
    simp only [Option.bind_some, Option.map_some, h2]
  refine ⟨Double.Heat.current (Double.Heat.balance (-f) (Double.Heat.radiation L d k.emissivity s w t)
    (Double.Heat.solar d k.absorptivity w)) r, _, _, by unfold Double.Heat.steady; rw [h1]; rfl, h2, hx, ?_⟩
  set hd' := Double.Heat.balance (-f) (Double.Heat.radiation L d k.emissivity s w t) (Double.Heat.solar d k.absorptivity w)
    with hhd
  have nF : |-F| = F := by rw [abs_neg, abs_of_nonneg h3]
  have nS : |Heat.solar k w| = Heat.solar k w := abs_of_nonneg S0
  have dich : (F = 0 ∧ K1 = 0 ∧ Heat.solar k w = 0) ∨ (2 : ℝ) ^ (-250 : ℤ) ≤ |-F| + K + |Heat.solar k w| := by
    rw [nF, nS]
    rcases h4.2 with g | g
    · rcases Kbig with g' | g'
      · rcases sr.2 with g'' | g''
        · left; exact ⟨g, g', es.trans g''⟩
        · right
          rw [← es, nS] at g''
          have := (two_zpow_le (a := -250) (b := -((30 + 30 + 30 : ℕ) : ℤ)) (by norm_num)).trans g''.1
          linarith
      · right; linarith
    · right
      rw [abs_of_nonneg h3] at g
      have := (two_zpow_le (a := -250) (b := -((210 : ℕ) : ℤ)) (by norm_num)).trans g.1
      linarith
  rcases dich with ⟨z1, z2, z3⟩ | big
  · have f0 : f = 0 := h4.1.zero_iff.2 z1
    have K0 : K = 0 := by rw [hK, z2, zero_mul]
    rw [K0, mul_zero] at rad
    rw [K0] at rb
    have R0 : Heat.radiation k s w t = 0 := abs_eq_zero.1 (le_antisymm rb (abs_nonneg _))
    have rh0 : Double.Heat.radiation L d k.emissivity s w t = 0 := by
      have := abs_eq_zero.1 (le_antisymm rad (abs_nonneg _))
      rw [R0, sub_zero] at this; exact this
    have s0 : Double.Heat.solar d k.absorptivity w = 0 := by
      rw [z3, abs_zero, mul_zero] at sol
      have := abs_eq_zero.1 (le_antisymm sol (abs_nonneg _))
      rwa [sub_zero] at this
    have b0 : hd' = 0 := by rw [hhd, f0, rh0, s0]; simp [Double.Heat.balance, rnd_zero]
    rw [b0, z1, R0, z3, K0]
    simp [Double.Heat.current, rnd_zero]
  · have bal := balance_core conv rad rb sol big
    rw [← hhd] at bal
    have cur := current_core (h := hd') hr
    set x := -1 * (-F + Heat.radiation k s w t + Heat.solar k w) with hxd
    set T := |-F| + K + |Heat.solar k w| with hT
    have hxT : |x| ≤ T := by
      rw [hxd, abs_mul, abs_neg, abs_one, one_mul]
      have q1 := abs_add_le (-F + Heat.radiation k s w t) (Heat.solar k w)
      have q2 := abs_add_le (-F) (Heat.radiation k s w t)
      linarith
    have T0 : 0 ≤ T := (abs_nonneg _).trans hxT
    have hh : |hd'| ≤ 2 * T := by
      have q1 : |hd'| ≤ |hd' - x| + |x| := by
        have := abs_add_le (hd' - x) x; rwa [sub_add_cancel] at this
      have q3 : 5300 * u * T ≤ 1 / 2 * T := mul_le_mul_of_nonneg_right (by linarith) T0
      linarith
    have tr : (2 : ℝ) ^ (-1075 : ℤ) * r ≤ u * T := by
      calc (2 : ℝ) ^ (-1075 : ℤ) * r ≤ 2 ^ (-1075 : ℤ) * 2 ^ (100 : ℤ) := by gcongr
        _ = 2 ^ (-975 : ℤ) := by rw [← zpow_add₀ (by norm_num)]; norm_num
        _ ≤ 2 ^ (-53 : ℤ) * 2 ^ (-250 : ℤ) := by rw [← zpow_add₀ (by norm_num)]; exact two_zpow_le (by norm_num)
        _ ≤ u * T := by
          rw [show (u : ℝ) = 2 ^ (-53 : ℤ) by unfold u; norm_num]
          exact mul_le_mul_of_nonneg_left big (two_zpow_pos _).le
    have e : (2 : ℝ) ^ (-40 : ℤ) = 8192 * u := by unfold u; norm_num
    rw [e, ← nS, ← hT]
    have := abs_sub_le (Double.Heat.current hd' r * |Double.Heat.current hd' r| * r) hd' x
    have q := mul_le_mul_of_nonneg_left hh hu.le
    nlinarith [mul_nonneg hu.le T0]

/-- A library whose functions are rounded correctly. -/
noncomputable def roundedHeatLibrary : HeatLibrary where
  toSunLibrary := roundedSunLibrary
  powr x y := rnd (x ^ y)
  powr_faithful _ _ _ _ _ _ := rnd_faithful _

/-- A conductor at 75 degrees in a breeze of 2 feet per second under an angle of 90 degrees. -/
example : HeatedCable 1.125 .imperial ⟨90, 1000, 8, 2, 25⟩ 75 where
  units := by decide
  diameter := ⟨9, -3, by norm_num, by norm_num, by norm_num⟩
  diameter_ge := by norm_num
  diameter_le := by norm_num
  angle_ge := by norm_num
  angle_le := by norm_num
  elevation := ⟨1000, 0, by norm_num, by norm_num, by norm_num⟩
  elevation_ge := Or.inr (by norm_num)
  elevation_le := by norm_num
  wind := Or.inr (by norm_num)
  air := ⟨25, 0, by norm_num, by norm_num, by norm_num⟩
  air_ge := by norm_num
  air_le := by norm_num
  temperature := ⟨75, 0, by norm_num, by norm_num, by norm_num⟩
  temperature_ge := Or.inr (by norm_num)
  temperature_le := by norm_num

/-- Its emissivity of one half, and a resistance. -/
example : ((2 : ℝ) ^ (-30 : ℤ) ≤ 0.5 ∧ (0.5 : ℝ) ≤ 2 ^ (30 : ℤ)) ∧ (0 : ℝ) < 0.000022 ∧ (0.000022 : ℝ) ≤ 2 ^ (100 : ℤ) := by norm_num

end Verif.Props
