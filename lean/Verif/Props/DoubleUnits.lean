import Verif.DoubleBaseLemmas
import Verif.Props.Units
import Mathlib.Analysis.Real.Pi.Bounds

/-! # Unit conversions in `double` arithmetic (C173) -/

set_option linter.unusedSectionVars false

namespace Verif.Props

open Verif.Units Verif.Double

/-- A library with correctly rounded functions. -/
noncomputable def roundedLibrary : Library where
  pow x n := rnd (x ^ n)
  atan x := rnd (Real.arctan x)
  pow_faithful x n _ _ := rnd_faithful _
  atan_faithful x _ := rnd_faithful _

/-- What the conversions need to know about a rounded factor. -/
structure GoodFactor (f F : ℝ) : Prop where
  double : IsDouble f
  close : Close 2 f F
  factor : Factor F

theorem tiny_le {x : ℝ} (h : 2 ^ (-20 : ℤ) ≤ x) : (2 : ℝ) ^ (-1022 : ℤ) ≤ |x| :=
  ((two_zpow_le (by norm_num)).trans h).trans (le_abs_self x)

theorem goodFactor_int {n : ℤ} (h1 : 1 ≤ n) (h2 : n ≤ 2 ^ 20) : GoodFactor n n := by
  refine ⟨isDouble_int (by rw [abs_of_pos (by omega)]; exact h2.trans (by norm_num)), (Close.refl _).mono (by norm_num), ?_, ?_⟩
  · have : (1 : ℝ) ≤ n := by exact_mod_cast h1
    refine le_trans ?_ this
    norm_num
  · have : (n : ℝ) ≤ ((2 ^ 20 : ℤ) : ℝ) := by exact_mod_cast h2
    refine this.trans ?_
    norm_num

theorem goodFactor_rnd {F : ℝ} (h : Factor F) : GoodFactor (rnd F) F :=
  ⟨rnd_isDouble _, ((Close.refl F).rnd (tiny_le h.1)).mono (by norm_num), h⟩

theorem goodFactor_div {F : ℝ} (h : Factor F) (h' : Factor (1 / F)) : GoodFactor (rnd (1 / rnd F)) (1 / F) := by
  have h1 : Close 1 (1 / rnd F) (1 / F) := by simpa using ((Close.refl F).rnd (tiny_le h.1)).inv
  refine ⟨rnd_isDouble _, h1.rnd ?_, h'⟩
  have h2 := h1.abs_ge (by norm_num)
  refine le_trans ?_ h2
  rw [le_div_iff₀ (by norm_num)]
  calc (2 : ℝ) ^ (-1022 : ℤ) * 2 = 2 ^ (-1021 : ℤ) := by rw [← zpow_add_one₀ (by norm_num)]; norm_num
    _ ≤ 2 ^ (-20 : ℤ) := two_zpow_le (by norm_num)
    _ ≤ |1 / F| := h'.1.trans (le_abs_self _)

theorem factor_of {F : ℝ} (h1 : 1 / 1000000 ≤ F) (h2 : F ≤ 1000000) : Factor F := by
  constructor
  · refine le_trans ?_ h1; norm_num
  · refine h2.trans ?_; norm_num

theorem goodFactor_degrees : GoodFactor (rnd (180 / rnd 3.14159265358979)) (180 / kPi) := by
  have hk : Factor (3.14159265358979 : ℝ) := factor_of (by norm_num) (by norm_num)
  have h1 : Close 1 (180 / rnd 3.14159265358979) (180 / kPi) := by
    have := (Close.refl 180).div ((Close.refl (3.14159265358979 : ℝ)).rnd (tiny_le hk.1))
    simpa [kPi] using this
  have hF : Factor (180 / kPi) := factor_of (by norm_num [kPi]) (by norm_num [kPi])
  refine ⟨rnd_isDouble _, h1.rnd ?_, hF⟩
  refine le_trans ?_ (h1.abs_ge (by norm_num))
  rw [le_div_iff₀ (by norm_num)]
  calc (2 : ℝ) ^ (-1022 : ℤ) * 2 = 2 ^ (-1021 : ℤ) := by rw [← zpow_add_one₀ (by norm_num)]; norm_num
    _ ≤ 2 ^ (-20 : ℤ) := two_zpow_le (by norm_num)
    _ ≤ _ := hF.1.trans (le_abs_self _)

theorem goodFactor_radians : GoodFactor (rnd (rnd 3.14159265358979 / 180)) (kPi / 180) := by
  have hk : Factor (3.14159265358979 : ℝ) := factor_of (by norm_num) (by norm_num)
  have h1 : Close 1 (rnd 3.14159265358979 / 180) (kPi / 180) := by
    have := ((Close.refl (3.14159265358979 : ℝ)).rnd (tiny_le hk.1)).div (Close.refl 180)
    simpa [kPi] using this
  have hF : Factor (kPi / 180) := factor_of (by norm_num [kPi]) (by norm_num [kPi])
  refine ⟨rnd_isDouble _, h1.rnd ?_, hF⟩
  refine le_trans ?_ (h1.abs_ge (by norm_num))
  rw [le_div_iff₀ (by norm_num)]
  calc (2 : ℝ) ^ (-1022 : ℤ) * 2 = 2 ^ (-1021 : ℤ) := by rw [← zpow_add_one₀ (by norm_num)]; norm_num
    _ ≤ 2 ^ (-20 : ℤ) := two_zpow_le (by norm_num)
    _ ≤ _ := hF.1.trans (le_abs_self _)

/-- Every conversion but the null ones is a multiplication by a good factor. -/
theorem angle_factor (t : AngleType) (ht : t ≠ .null) : ∃ f F, GoodFactor f F ∧
    ∀ L x e b, Double.convertAngle L x t e b = Double.convert L x f e b ∧ Units.convertAngle x t e b = Units.convert x F e b := by
  cases t
  · exact absurd rfl ht
  · exact ⟨_, _, goodFactor_radians, fun _ _ _ _ => ⟨rfl, rfl⟩⟩
  · exact ⟨_, _, goodFactor_degrees, fun _ _ _ _ => ⟨rfl, rfl⟩⟩

theorem force_factor (t : ForceType) (ht : t ≠ .null) : ∃ f F, GoodFactor f F ∧
    ∀ L x e b, Double.convertForce L x t e b = Double.convert L x f e b ∧ Units.convertForce x t e b = Units.convert x F e b := by
  cases t
  · exact absurd rfl ht
  · exact ⟨_, _, goodFactor_div (factor_of (by norm_num) (by norm_num)) (factor_of (by norm_num) (by norm_num)),
      fun _ _ _ _ => ⟨rfl, rfl⟩⟩
  · exact ⟨_, _, goodFactor_rnd (factor_of (by norm_num) (by norm_num)), fun _ _ _ _ => ⟨rfl, rfl⟩⟩

theorem goodFactor_literal {r : ℝ} (n : ℤ) (h : (n : ℝ) = r) (h1 : 1 ≤ n) (h2 : n ≤ 2 ^ 20) : GoodFactor r r :=
  h ▸ goodFactor_int h1 h2

theorem length_factor (t : LengthType) (ht : t ≠ .null) : ∃ f F, GoodFactor f F ∧
    ∀ L x e b, Double.convertLength L x t e b = Double.convert L x f e b ∧
      Units.convertLength x t e b = Units.convert x F e b := by
  cases t
  case null => exact absurd rfl ht
  case centimetersToMeters =>
    exact ⟨rnd (1 / 100), 1 / 100, goodFactor_rnd (factor_of (by norm_num) (by norm_num)), fun _ _ _ _ => ⟨rfl, rfl⟩⟩
  case feetToInches =>
    exact ⟨12, 12, goodFactor_literal 12 (by norm_num) (by norm_num) (by norm_num), fun _ _ _ _ => ⟨rfl, rfl⟩⟩
  case feetToMeters =>
    exact ⟨rnd (0.3048), 0.3048, goodFactor_rnd (factor_of (by norm_num) (by norm_num)), fun _ _ _ _ => ⟨rfl, rfl⟩⟩
  case feetToMiles =>
    exact ⟨rnd (1 / 5280), 1 / 5280, goodFactor_rnd (factor_of (by norm_num) (by norm_num)), fun _ _ _ _ => ⟨rfl, rfl⟩⟩
  case inchesToFeet =>
    exact ⟨rnd (1 / 12), 1 / 12, goodFactor_rnd (factor_of (by norm_num) (by norm_num)), fun _ _ _ _ => ⟨rfl, rfl⟩⟩
  case kilometersToMeters =>
    exact ⟨1000, 1000, goodFactor_literal 1000 (by norm_num) (by norm_num) (by norm_num), fun _ _ _ _ => ⟨rfl, rfl⟩⟩
  case metersToCentimeters =>
    exact ⟨100, 100, goodFactor_literal 100 (by norm_num) (by norm_num) (by norm_num), fun _ _ _ _ => ⟨rfl, rfl⟩⟩
  case metersToFeet =>
    exact ⟨rnd (1 / rnd 0.3048), 1 / 0.3048,
      goodFactor_div (factor_of (by norm_num) (by norm_num)) (factor_of (by norm_num) (by norm_num)),
      fun _ _ _ _ => ⟨rfl, rfl⟩⟩
  case metersToKilometers =>
    exact ⟨rnd (1 / 1000), 1 / 1000, goodFactor_rnd (factor_of (by norm_num) (by norm_num)), fun _ _ _ _ => ⟨rfl, rfl⟩⟩
  case metersToMillimeters =>
    exact ⟨1000, 1000, goodFactor_literal 1000 (by norm_num) (by norm_num) (by norm_num), fun _ _ _ _ => ⟨rfl, rfl⟩⟩
  case milesToFeet =>
    exact ⟨5280, 5280, goodFactor_literal 5280 (by norm_num) (by norm_num) (by norm_num), fun _ _ _ _ => ⟨rfl, rfl⟩⟩
  case millimetersToMeters =>
    exact ⟨rnd (1 / 1000), 1 / 1000, goodFactor_rnd (factor_of (by norm_num) (by norm_num)), fun _ _ _ _ => ⟨rfl, rfl⟩⟩

theorem stress_factor (t : StressType) (ht : t ≠ .null) : ∃ f F, GoodFactor f F ∧
    ∀ L x e b, Double.convertStress L x t e b = Double.convert L x f e b ∧
      Units.convertStress x t e b = Units.convert x F e b := by
  cases t
  case null => exact absurd rfl ht
  case megaPascalToPascal =>
    exact ⟨1000000, 1000000, goodFactor_literal 1000000 (by norm_num) (by norm_num) (by norm_num), fun _ _ _ _ => ⟨rfl, rfl⟩⟩
  case pascalToMegaPascal =>
    exact ⟨rnd (1 / 1000000), 1 / 1000000, goodFactor_rnd (factor_of (by norm_num) (by norm_num)), fun _ _ _ _ => ⟨rfl, rfl⟩⟩
  case pascalToPsf =>
    exact ⟨rnd (1 / rnd 47.88026), 1 / 47.88026,
      goodFactor_div (factor_of (by norm_num) (by norm_num)) (factor_of (by norm_num) (by norm_num)),
      fun _ _ _ _ => ⟨rfl, rfl⟩⟩
  case psfToPascal =>
    exact ⟨rnd (47.88026), 47.88026, goodFactor_rnd (factor_of (by norm_num) (by norm_num)), fun _ _ _ _ => ⟨rfl, rfl⟩⟩
  case psfToPsi =>
    exact ⟨rnd (1 / 144), 1 / 144, goodFactor_rnd (factor_of (by norm_num) (by norm_num)), fun _ _ _ _ => ⟨rfl, rfl⟩⟩
  case psiToPsf =>
    exact ⟨144, 144, goodFactor_literal 144 (by norm_num) (by norm_num) (by norm_num), fun _ _ _ _ => ⟨rfl, rfl⟩⟩

theorem convert_error (L : Library) {x f F : ℝ} {e : ℤ} (b : Bool) (h : GoodFactor f F) (he : |e| ≤ 10)
    (hx : x = 0 ∨ 2 ^ (-800 : ℤ) ≤ |x|) :
    |Double.convert L x f e b - Units.convert x F e b| ≤ (|e| + 3) * 2 ^ (-51 : ℤ) * |Units.convert x F e b| := by
  have hc := convert_close L (e := e) b h.double h.close h.factor he hx
  have hn : e.natAbs ≤ 10 := by rw [Int.abs_eq_natAbs] at he; omega
  refine (hc.error (by omega)).trans (mul_le_mul_of_nonneg_right ?_ (abs_nonneg _))
  have h1 : ((|e| : ℤ) : ℝ) = (e.natAbs : ℝ) := by rw [Int.abs_eq_natAbs]; simp
  have h2 : (2 : ℝ) ^ (-51 : ℤ) = 4 * u := by unfold u; norm_num
  have hu := u_pos
  push_cast at h1 ⊢
  rw [h1, h2]
  push_cast
  nlinarith [hu]

/-- **C173** (accuracy): computed with `double`s, every conversion of an angle, a force, a length or a stress to a power
of at most ten is the exact conversion up to a few units in the 51st binary digit, for any number that is not
absurdly small and any faithful library. -/
theorem C173_accuracy (L : Library) {x : ℝ} {e : ℤ} (b : Bool) (he : |e| ≤ 10) (hx : x = 0 ∨ 2 ^ (-800 : ℤ) ≤ |x|) :
    (∀ t, |Double.convertAngle L x t e b - Units.convertAngle x t e b| ≤
      (|e| + 3) * 2 ^ (-51 : ℤ) * |Units.convertAngle x t e b|) ∧
    (∀ t, |Double.convertForce L x t e b - Units.convertForce x t e b| ≤
      (|e| + 3) * 2 ^ (-51 : ℤ) * |Units.convertForce x t e b|) ∧
    (∀ t, |Double.convertLength L x t e b - Units.convertLength x t e b| ≤
      (|e| + 3) * 2 ^ (-51 : ℤ) * |Units.convertLength x t e b|) ∧
    (∀ t, |Double.convertStress L x t e b - Units.convertStress x t e b| ≤
      (|e| + 3) * 2 ^ (-51 : ℤ) * |Units.convertStress x t e b|) := by
  have hnull : ∀ y : ℝ, |y - y| ≤ (|e| + 3) * 2 ^ (-51 : ℤ) * |y| := by
    intro y
    rw [sub_self, abs_zero]
    have : (0 : ℝ) ≤ ((|e| : ℤ) : ℝ) := by exact_mod_cast abs_nonneg e
    push_cast at this
    positivity
  refine ⟨fun t => ?_, fun t => ?_, fun t => ?_, fun t => ?_⟩
  · rcases eq_or_ne t .null with rfl | ht
    · exact hnull _
    · obtain ⟨f, F, h, heq⟩ := angle_factor t ht
      rw [(heq L x e b).1, (heq L x e b).2]; exact convert_error L b h he hx
  · rcases eq_or_ne t .null with rfl | ht
    · exact hnull _
    · obtain ⟨f, F, h, heq⟩ := force_factor t ht
      rw [(heq L x e b).1, (heq L x e b).2]; exact convert_error L b h he hx
  · rcases eq_or_ne t .null with rfl | ht
    · exact hnull _
    · obtain ⟨f, F, h, heq⟩ := length_factor t ht
      rw [(heq L x e b).1, (heq L x e b).2]; exact convert_error L b h he hx
  · rcases eq_or_ne t .null with rfl | ht
    · exact hnull _
    · obtain ⟨f, F, h, heq⟩ := stress_factor t ht
      rw [(heq L x e b).1, (heq L x e b).2]; exact convert_error L b h he hx

/-- A load per area of 20 pounds per square foot. -/
example : |(2 : ℤ)| ≤ 10 ∧ ((20 : ℝ) = 0 ∨ (2 : ℝ) ^ (-800 : ℤ) ≤ |(20 : ℝ)|) := by
  refine ⟨by norm_num, .inr ?_⟩
  rw [abs_of_pos (by norm_num)]
  exact (two_zpow_le (show (-800 : ℤ) ≤ 0 by norm_num)).trans (by norm_num)

theorem convert_linear (x y F : ℝ) (e : ℤ) (b : Bool) : Units.convert (x * y) F e b = Units.convert x F e b * y := by
  unfold Units.convert; cases b <;> simp <;> ring

theorem close_convert {k : ℕ} {x y : ℝ} (h : Close k x y) (F : ℝ) (e : ℤ) (b : Bool) :
    Close k (Units.convert x F e b) (Units.convert y F e b) := by
  obtain ⟨t, rfl, h1, h2⟩ := h
  exact ⟨t, convert_linear y t F e b, h1, h2⟩

theorem convert_size {F : ℝ} (hF : Factor F) {x : ℝ} {e : ℤ} (b : Bool) (he : |e| ≤ 10)
    (hx : (2 : ℝ) ^ (-500 : ℤ) ≤ |x|) : (2 : ℝ) ^ (-700 : ℤ) ≤ |Units.convert x F e b| := by
  have hF0 : 0 < F := (two_zpow_pos _).trans_le hF.1
  have hFe := hF.zpow e
  have key : ∀ g : ℝ, 2 ^ (-200 : ℤ) ≤ g → (2 : ℝ) ^ (-700 : ℤ) ≤ |x * g| := by
    intro g hg
    rw [abs_mul, abs_of_pos ((two_zpow_pos _).trans_le hg)]
    calc (2 : ℝ) ^ (-700 : ℤ) = 2 ^ (-500 : ℤ) * 2 ^ (-200 : ℤ) := by rw [← zpow_add₀ (by norm_num)]; norm_num
      _ ≤ _ := mul_le_mul hx hg (two_zpow_pos _).le (abs_nonneg x)
  cases b
  · refine key (1 / F ^ e) ?_
    rw [le_div_iff₀ (zpow_pos hF0 e)]
    calc (2 : ℝ) ^ (-200 : ℤ) * F ^ e ≤ 2 ^ (-200 : ℤ) * 2 ^ (200 : ℤ) :=
          mul_le_mul_of_nonneg_left (hFe.2.trans (two_zpow_le (by omega))) (two_zpow_pos _).le
      _ = 1 := by rw [← zpow_add₀ (by norm_num)]; norm_num
  · exact key (F ^ e) ((two_zpow_le (by omega)).trans hFe.1)

theorem convert_back (L : Library) {x f F g G : ℝ} {e : ℤ} (b : Bool) (h : GoodFactor f F) (h' : GoodFactor g G)
    (hFG : ∀ y, Units.convert (Units.convert y F e b) G e b = y) (he : |e| ≤ 10)
    (hx : x = 0 ∨ 2 ^ (-500 : ℤ) ≤ |x|) :
    |Double.convert L (Double.convert L x f e b) g e b - x| ≤ (|e| + 3) * 2 ^ (-50 : ℤ) * |x| := by
  have hn : e.natAbs ≤ 10 := by rw [Int.abs_eq_natAbs] at he; omega
  have hx' : x = 0 ∨ (2 : ℝ) ^ (-800 : ℤ) ≤ |x| := hx.imp id fun h => (two_zpow_le (by norm_num)).trans h
  have h1 := convert_close L (e := e) b h.double h.close h.factor he hx'
  have h2 : Double.convert L x f e b = 0 ∨ (2 : ℝ) ^ (-800 : ℤ) ≤ |Double.convert L x f e b| := by
    rcases hx with rfl | hx
    · exact .inl (h1.zero_iff.mpr (by unfold Units.convert; simp))
    · refine .inr (le_trans ?_ (h1.abs_ge (by omega)))
      have := convert_size h.factor b he hx
      rw [le_div_iff₀ (by norm_num)]
      refine le_trans ?_ this
      rw [← zpow_add_one₀ (by norm_num)]
      exact two_zpow_le (by norm_num)
  have h3 := convert_close L (e := e) b h'.double h'.close h'.factor he h2
  have h4 := h3.trans (close_convert h1 G e b)
  rw [hFG] at h4
  refine (h4.error (by omega)).trans (mul_le_mul_of_nonneg_right ?_ (abs_nonneg _))
  have e1 : ((|e| : ℤ) : ℝ) = (e.natAbs : ℝ) := by rw [Int.abs_eq_natAbs]; simp
  have e2 : (2 : ℝ) ^ (-50 : ℤ) = 8 * u := by unfold u; norm_num
  have hu := u_pos
  push_cast at e1 ⊢
  rw [e1, e2]
  push_cast
  nlinarith [hu]

/-- **C173** (there and back): a conversion followed by the opposite one returns the number up to a few units in the
50th binary digit. -/
theorem C173_round_trip (L : Library) {x : ℝ} {e : ℤ} (b : Bool) (he : |e| ≤ 10) (hx : x = 0 ∨ 2 ^ (-500 : ℤ) ≤ |x|) :
    (∀ s t, OppositeAngle s t →
      |Double.convertAngle L (Double.convertAngle L x s e b) t e b - x| ≤ (|e| + 3) * 2 ^ (-50 : ℤ) * |x|) ∧
    (∀ s t, OppositeForce s t →
      |Double.convertForce L (Double.convertForce L x s e b) t e b - x| ≤ (|e| + 3) * 2 ^ (-50 : ℤ) * |x|) ∧
    (∀ s t, OppositeLength s t →
      |Double.convertLength L (Double.convertLength L x s e b) t e b - x| ≤ (|e| + 3) * 2 ^ (-50 : ℤ) * |x|) ∧
    (∀ s t, OppositeStress s t →
      |Double.convertStress L (Double.convertStress L x s e b) t e b - x| ≤ (|e| + 3) * 2 ^ (-50 : ℤ) * |x|) := by
  refine ⟨fun s t h => ?_, fun s t h => ?_, fun s t h => ?_, fun s t h => ?_⟩
  · obtain ⟨f, F, h1, q1⟩ := angle_factor s (by cases h <;> simp)
    obtain ⟨g, G, h2, q2⟩ := angle_factor t (by cases h <;> simp)
    rw [(q2 L _ e b).1, (q1 L _ e b).1]
    refine convert_back L b h1 h2 (fun y => ?_) he hx
    rw [← (q1 L y e b).2, ← (q2 L _ e b).2]; exact C32_angle_round_trip h y e b
  · obtain ⟨f, F, h1, q1⟩ := force_factor s (by cases h <;> simp)
    obtain ⟨g, G, h2, q2⟩ := force_factor t (by cases h <;> simp)
    rw [(q2 L _ e b).1, (q1 L _ e b).1]
    refine convert_back L b h1 h2 (fun y => ?_) he hx
    rw [← (q1 L y e b).2, ← (q2 L _ e b).2]; exact C32_force_round_trip h y e b
  · obtain ⟨f, F, h1, q1⟩ := length_factor s (by cases h <;> simp)
    obtain ⟨g, G, h2, q2⟩ := length_factor t (by cases h <;> simp)
    rw [(q2 L _ e b).1, (q1 L _ e b).1]
    refine convert_back L b h1 h2 (fun y => ?_) he hx
    rw [← (q1 L y e b).2, ← (q2 L _ e b).2]; exact C32_length_round_trip h y e b
  · obtain ⟨f, F, h1, q1⟩ := stress_factor s (by cases h <;> simp)
    obtain ⟨g, G, h2, q2⟩ := stress_factor t (by cases h <;> simp)
    rw [(q2 L _ e b).1, (q1 L _ e b).1]
    refine convert_back L b h1 h2 (fun y => ?_) he hx
    rw [← (q1 L y e b).2, ← (q2 L _ e b).2]; exact C32_stress_round_trip h y e b

/-- A span of 300 feet. -/
example : |(1 : ℤ)| ≤ 10 ∧ ((300 : ℝ) = 0 ∨ (2 : ℝ) ^ (-500 : ℤ) ≤ |(300 : ℝ)|) ∧
    OppositeLength .feetToMeters .metersToFeet := by
  refine ⟨by norm_num, .inr ?_, .ftM⟩
  rw [abs_of_pos (by norm_num)]
  exact (two_zpow_le (show (-500 : ℤ) ≤ 0 by norm_num)).trans (by norm_num)

/-- **C173** (exactness fails): but not always the number itself: one foot in meters and back is less than a foot, with
every faithful library. -/
theorem C173_round_trip_fails (L : Library) :
    Double.convertLength L (Double.convertLength L 1 .feetToMeters) .metersToFeet < 1 := by
  have h1 : rnd 0.3048 = ((5490788665690109 : ℤ) : ℝ) * 2 ^ (-54 : ℤ) :=
    rnd_eq _ _ (by norm_num) (by norm_num [abs_of_pos]) (by norm_num [abs_of_pos]) (by norm_num [abs_lt])
  have h2 : rnd (1 / (((5490788665690109 : ℤ) : ℝ) * 2 ^ (-54 : ℤ))) = ((7387794664321679 : ℤ) : ℝ) * 2 ^ (-51 : ℤ) :=
    rnd_eq _ _ (by norm_num) (by norm_num [abs_of_pos]) (by norm_num [abs_of_pos]) (by norm_num [abs_lt])
  have h3 : rnd (((5490788665690109 : ℤ) : ℝ) * 2 ^ (-54 : ℤ) * (((7387794664321679 : ℤ) : ℝ) * 2 ^ (-51 : ℤ))) =
      ((9007199254740991 : ℤ) : ℝ) * 2 ^ (-53 : ℤ) :=
    rnd_eq _ _ (by norm_num) (by norm_num [abs_of_pos]) (by norm_num [abs_of_pos]) (by norm_num [abs_lt])
  have e1 : Double.convertLength L 1 .feetToMeters = ((5490788665690109 : ℤ) : ℝ) * 2 ^ (-54 : ℤ) := by
    show rnd (1 * L.pow (rnd 0.3048) 1) = _
    rw [L.pow_one (rnd_isDouble _), one_mul, rnd_rnd, h1]
  rw [e1]
  show rnd (_ * L.pow (rnd (1 / rnd 0.3048)) 1) < 1
  rw [L.pow_one (rnd_isDouble _), h1, h2, h3]
  norm_num

/-- **C173** (order): a larger number never converts to a smaller one, and zero to zero. -/
theorem C173_order (L : Library) {x y : ℝ} (h : x ≤ y) (e : ℤ) (b : Bool) :
    (∀ t, Double.convertAngle L x t e b ≤ Double.convertAngle L y t e b) ∧
    (∀ t, Double.convertForce L x t e b ≤ Double.convertForce L y t e b) ∧
    (∀ t, Double.convertLength L x t e b ≤ Double.convertLength L y t e b) ∧
    (∀ t, Double.convertStress L x t e b ≤ Double.convertStress L y t e b) := by
  have key : ∀ {f F : ℝ}, GoodFactor f F → Double.convert L x f e b ≤ Double.convert L y f e b := by
    intro f F hg
    have hF0 : 0 < F := (two_zpow_pos _).trans_le hg.factor.1
    have hf0 : 0 < f := by
      obtain ⟨t, rfl, h1, -⟩ := hg.close
      exact mul_pos hF0 ((pow_pos one_sub_u_pos 2).trans_le h1)
    have hp : 0 ≤ L.pow f e := (L.pow_faithful f e hg.double (.inl hf0.ne')).nonneg (zpow_pos hf0 e).le
    unfold Double.convert
    refine rnd_mono (mul_le_mul_of_nonneg_right h ?_)
    cases b
    · exact rnd_nonneg (by positivity)
    · exact hp
  refine ⟨fun t => ?_, fun t => ?_, fun t => ?_, fun t => ?_⟩
  · rcases eq_or_ne t .null with rfl | ht
    · exact le_rfl
    · obtain ⟨f, F, hg, q⟩ := angle_factor t ht
      rw [(q L x e b).1, (q L y e b).1]; exact key hg
  · rcases eq_or_ne t .null with rfl | ht
    · exact le_rfl
    · obtain ⟨f, F, hg, q⟩ := force_factor t ht
      rw [(q L x e b).1, (q L y e b).1]; exact key hg
  · rcases eq_or_ne t .null with rfl | ht
    · exact le_rfl
    · obtain ⟨f, F, hg, q⟩ := length_factor t ht
      rw [(q L x e b).1, (q L y e b).1]; exact key hg
  · rcases eq_or_ne t .null with rfl | ht
    · exact le_rfl
    · obtain ⟨f, F, hg, q⟩ := stress_factor t ht
      rw [(q L x e b).1, (q L y e b).1]; exact key hg

/-- There is such a library, and one foot is 0.3048 meters, rounded. -/
example : Double.convertLength roundedLibrary 1 .feetToMeters = rnd 0.3048 := by
  show rnd (1 * roundedLibrary.pow (rnd 0.3048) 1) = _
  rw [roundedLibrary.pow_one (rnd_isDouble _), one_mul, rnd_rnd]

/-- An error bound for a product by a factor rounded at most twice. -/
theorem scaled_error {x f F : ℝ} (hF : 0 ≤ F) (hF' : F ≤ 2) (hf : |f - F| ≤ 5 * u) :
    |rnd (x * f) - x * F| ≤ 8 * u * |x| + 2 ^ (-1075 : ℤ) := by
  have hu := u_pos
  have hu' := u_small
  have h1 := rnd_error_le (x * f)
  have h2 : |x * f - x * F| ≤ 5 * u * |x| := by
    rw [← mul_sub, abs_mul]; nlinarith [abs_nonneg x]
  have h3 : |x * f| ≤ |x| * 3 := by
    rw [abs_mul]
    refine mul_le_mul_of_nonneg_left ?_ (abs_nonneg x)
    have := abs_le.mp hf
    rw [abs_le]; constructor <;> linarith
  have h4 := abs_sub_le (rnd (x * f)) (x * f) (x * F)
  nlinarith [abs_nonneg x]

/-- **C173** (temperatures): computed with `double`s, every conversion of a temperature is exact up to a few units in the
50th binary digit of the numbers involved. -/
theorem C173_temperature (L : Library) {x : ℝ} (hx : IsDouble x) (t : TemperatureType) :
    |Double.convertTemperature L x t - Units.convertTemperature x t| ≤ 2 ^ (-49 : ℤ) * (|x| + 500) := by
  have hu := u_pos
  have hu' := u_small
  have e49 : (2 : ℝ) ^ (-49 : ℤ) = 16 * u := by unfold u; norm_num
  have htiny : (2 : ℝ) ^ (-1075 : ℤ) ≤ u := two_zpow_le (by norm_num)
  have hax := abs_nonneg x
  have f18 : |rnd 1.8 - 1.8| ≤ 5 * u := by
    have h := rnd_error_le 1.8
    rw [abs_of_pos (by norm_num : (0 : ℝ) < 1.8)] at h
    linarith
  have f18' : |rnd (1 / rnd 1.8) - 1 / 1.8| ≤ 5 * u := by
    have h := rnd_relative (x := 1.8) (tiny_le (factor_of (by norm_num) (by norm_num)).1)
    rw [abs_of_pos (by norm_num : (0 : ℝ) < 1.8)] at h
    have hb := abs_le.mp h
    have hp : 1 < rnd 1.8 := by linarith [hb.1]
    have h1 := rnd_error_le (1 / rnd 1.8)
    have h2 : |1 / rnd 1.8 - 1 / 1.8| ≤ u := by
      have : 1 / rnd 1.8 - 1 / 1.8 = (1.8 - rnd 1.8) / (rnd 1.8 * 1.8) := by
        field_simp
      rw [this, abs_div, abs_sub_comm, abs_of_pos (by positivity : 0 < rnd 1.8 * 1.8), div_le_iff₀ (by positivity)]
      nlinarith
    have h3 : |1 / rnd 1.8| ≤ 1 := by
      rw [abs_of_pos (by positivity), div_le_one (by linarith)]; exact hp.le
    have h4 := abs_sub_le (rnd (1 / rnd 1.8)) (1 / rnd 1.8) (1 / 1.8)
    nlinarith
  have hc : ∀ {v f F : ℝ}, IsDouble f → 0 ≤ F → F ≤ 2 → |f - F| ≤ 5 * u →
      |Double.convert L v f 1 true - Units.convert v F 1 true| ≤ 8 * u * |v| + 2 ^ (-1075 : ℤ) := by
    intro v f F hd h0 h2 h
    have e1 : Double.convert L v f 1 true = rnd (v * f) := by unfold Double.convert; rw [L.pow_one hd]; rfl
    have e2 : Units.convert v F 1 true = v * F := by unfold Units.convert; simp
    rw [e1, e2]; exact scaled_error h0 h2 h
  have hs : ∀ c : ℝ, |c| ≤ 460 → |rnd (x + rnd c) - (x + c)| ≤ 16 * u * (|x| + 500) := by
    intro c hc
    have h1 := rnd_error_le c
    have h2 := rnd_error_le (x + rnd c)
    have h3 : |x + rnd c| ≤ |x| + 461 := by
      have := abs_add_le x (rnd c)
      have h4 : |rnd c| ≤ 461 := by
        have := abs_sub_abs_le_abs_sub (rnd c) c
        nlinarith
      linarith
    have h5 : |rnd (x + rnd c) - (x + c)| ≤ |rnd (x + rnd c) - (x + rnd c)| + |rnd c - c| := by
      have := abs_sub_le (rnd (x + rnd c)) (x + rnd c) (x + c)
      rwa [show x + rnd c - (x + c) = rnd c - c by ring] at this
    nlinarith
  rw [e49]
  cases t
  · show |(-999999 : ℝ) - -999999| ≤ _
    rw [sub_self, abs_zero]; positivity
  · show |rnd (Double.convert L x (rnd 1.8) 1 true + 32) - (Units.convert x 1.8 1 true + 32)| ≤ _
    have h1 := hc (v := x) (rnd_isDouble 1.8) (by norm_num) (by norm_num) f18
    have e2 : Units.convert x 1.8 1 true = x * 1.8 := by unfold Units.convert; simp
    rw [e2] at h1 ⊢
    generalize Double.convert L x (rnd 1.8) 1 true = a at h1
    have h2 := rnd_error_le (a + 32)
    have h3 : |a + 32| ≤ 3 * |x| + 33 := by
      have h4 : |x * 1.8| = 1.8 * |x| := by rw [abs_mul, abs_of_pos (by norm_num : (0 : ℝ) < 1.8)]; ring
      have h5 := abs_sub_abs_le_abs_sub a (x * 1.8)
      have h6 := abs_add_le a 32
      rw [abs_of_pos (by norm_num : (0 : ℝ) < 32)] at h6
      nlinarith
    have h5 : |rnd (a + 32) - (x * 1.8 + 32)| ≤ |rnd (a + 32) - (a + 32)| + |a - x * 1.8| := by
      have := abs_sub_le (rnd (a + 32)) (a + 32) (x * 1.8 + 32)
      rwa [show a + 32 - (x * 1.8 + 32) = a - x * 1.8 by ring] at this
    nlinarith
  · exact hs 273.15 (by norm_num [abs_of_pos])
  · show |Double.convert L (rnd (x + -32)) (rnd (1 / rnd 1.8)) 1 true - Units.convert (x + -32) (1 / 1.8) 1 true| ≤ _
    have h1 := hc (v := rnd (x + -32)) (rnd_isDouble (1 / rnd 1.8)) (by norm_num) (by norm_num) f18'
    have e2 : ∀ v : ℝ, Units.convert v (1 / 1.8) 1 true = v * (1 / 1.8) := by intro v; unfold Units.convert; simp
    rw [e2] at h1 ⊢
    have h2 := rnd_error_le (x + -32)
    have h3 : |x + -32| ≤ |x| + 32 := by
      have := abs_add_le x (-32); rwa [abs_neg, abs_of_pos (by norm_num : (0 : ℝ) < 32)] at this
    generalize Double.convert L (rnd (x + -32)) (rnd (1 / rnd 1.8)) 1 true = a at h1
    generalize rnd (x + -32) = w at h1 h2
    have h4 : |w| ≤ 9 / 8 * |x| + 33 := by
      have := abs_sub_abs_le_abs_sub w (x + -32)
      nlinarith
    have h5 : |a - (x + -32) * (1 / 1.8)| ≤ |a - w * (1 / 1.8)| + |w - (x + -32)| * (1 / 1.8) := by
      have := abs_sub_le a (w * (1 / 1.8)) ((x + -32) * (1 / 1.8))
      rwa [show w * (1 / 1.8) - (x + -32) * (1 / 1.8) = (w - (x + -32)) * (1 / 1.8) by ring, abs_mul,
        abs_of_pos (by norm_num : (0 : ℝ) < 1 / 1.8)] at this
    have h6 : |w - (x + -32)| * (1 / 1.8) ≤ |w - (x + -32)| := by
      have : (1 : ℝ) / 1.8 ≤ 1 := by norm_num
      nlinarith [abs_nonneg (w - (x + -32))]
    nlinarith
  · exact hs 459.67 (by norm_num [abs_of_pos])
  · have := hs (-273.15) (by norm_num)
    rwa [rnd_neg] at this
  · have := hc (v := x) (rnd_isDouble 1.8) (by norm_num) (by norm_num) f18
    refine this.trans ?_
    nlinarith
  · have := hs (-459.67) (by norm_num)
    rwa [rnd_neg] at this
  · have := hc (v := x) (rnd_isDouble (1 / rnd 1.8)) (by norm_num) (by norm_num) f18'
    refine this.trans ?_
    nlinarith

/-- The boiling point of water. -/
example : IsDouble 100 ∧ Units.convertTemperature 100 .celsiusToFahrenheit = 212 := by
  refine ⟨by exact_mod_cast isDouble_int (n := 100) (by norm_num), ?_⟩
  norm_num [Units.convertTemperature, Units.convert]

end Verif.Props
