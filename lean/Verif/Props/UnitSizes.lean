import Mathlib.Analysis.Real.Pi.Bounds
import Verif.Props.Units

/-!
# Conversions and the sizes of units

C165: a conversion multiplies by the ratio of the sizes of its units, for every exponent and on both sides of the
fraction line, and conversions of different quantities fit each other.
-/

set_option linter.unusedSectionVars false

namespace Verif.Props
open Verif.Units

theorem convert_zpow (x f : ℝ) (e : ℤ) : convert x f e true = x * f ^ e ∧ convert x f e false = x * f ^ (-e) := by
  unfold convert
  constructor <;> simp

/-- **C32**. A value in the denominator is converted by the reciprocal of what converts it in the numerator: the same as
with the opposite exponent. -/
theorem C32_denominator (x : ℝ) (e : ℤ) (b : Bool) :
    (∀ t, t ≠ AngleType.null → convertAngle x t e b = convertAngle x t (-e) !b) ∧
    (∀ t, t ≠ ForceType.null → convertForce x t e b = convertForce x t (-e) !b) ∧
    (∀ t, t ≠ LengthType.null → convertLength x t e b = convertLength x t (-e) !b) ∧
    (∀ t, t ≠ StressType.null → convertStress x t e b = convertStress x t (-e) !b) := by
  have key : ∀ f, convert x f e b = convert x f (-e) !b := by
    intro f
    cases b
    · rw [(convert_zpow x f e).2]; exact (convert_zpow x f (-e)).1.symm
    · rw [(convert_zpow x f e).1]; exact ((convert_zpow x f (-e)).2.trans (by rw [neg_neg])).symm
  refine ⟨?_, ?_, ?_, ?_⟩ <;> intro t ht <;> cases t <;> first | exact absurd rfl ht | exact key _

/-- Units of length. -/
inductive LengthUnit where
  | millimeter | centimeter | meter | kilometer | inch | foot | mile

/-- The size of a unit of length in meters (international inch, foot and mile). -/
noncomputable def LengthUnit.meters : LengthUnit → ℝ
  | .millimeter => 0.001
  | .centimeter => 0.01
  | .meter => 1
  | .kilometer => 1000
  | .inch => 0.0254
  | .foot => 0.3048
  | .mile => 1609.344

/-- The units between which a length conversion converts. -/
def lengthUnits : LengthType → Option (LengthUnit × LengthUnit)
  | .null => none
  | .centimetersToMeters => some (.centimeter, .meter)
  | .feetToInches => some (.foot, .inch)
  | .feetToMeters => some (.foot, .meter)
  | .feetToMiles => some (.foot, .mile)
  | .inchesToFeet => some (.inch, .foot)
  | .kilometersToMeters => some (.kilometer, .meter)
  | .metersToCentimeters => some (.meter, .centimeter)
  | .metersToFeet => some (.meter, .foot)
  | .metersToKilometers => some (.meter, .kilometer)
  | .metersToMillimeters => some (.meter, .millimeter)
  | .milesToFeet => some (.mile, .foot)
  | .millimetersToMeters => some (.millimeter, .meter)

/-- The exponent of a unit, negative in the denominator. -/
def power (e : ℤ) (isNumerator : Bool) : ℤ := if isNumerator then e else -e

theorem convert_power (x f : ℝ) (e : ℤ) (b : Bool) : convert x f e b = x * f ^ power e b := by
  cases b
  · exact (convert_zpow x f e).2
  · exact (convert_zpow x f e).1

/-- **C165**, lengths. A length (or area, or volume, or a quantity per length, …) keeps its size. -/
theorem C165_length {t : LengthType} {a b : LengthUnit} (h : lengthUnits t = some (a, b)) (x : ℝ) (e : ℤ) (n : Bool) :
    convertLength x t e n * b.meters ^ power e n = x * a.meters ^ power e n := by
  have key : ∀ f u v : ℝ, f * v = u → convert x f e n * v ^ power e n = x * u ^ power e n := by
    intro f u v hf
    rw [convert_power, mul_assoc, ← mul_zpow, hf]
  cases t <;> simp only [lengthUnits, Option.some.injEq, Prod.mk.injEq, reduceCtorEq] at h <;>
    obtain ⟨rfl, rfl⟩ := h <;> exact key _ _ _ (by norm_num [LengthUnit.meters])

/-- A route of length conversions. -/
inductive LengthRoute : LengthUnit → LengthUnit → List LengthType → Prop
  | nil (a : LengthUnit) : LengthRoute a a []
  | cons {a b c : LengthUnit} {t : LengthType} {ts : List LengthType} (h : lengthUnits t = some (a, b))
      (r : LengthRoute b c ts) : LengthRoute a c (t :: ts)

/-- Converting along a route. -/
noncomputable def lengthAlong (ts : List LengthType) (x : ℝ) (e : ℤ) (n : Bool) : ℝ :=
  ts.foldl (fun y t => convertLength y t e n) x

theorem meters_pos (a : LengthUnit) : 0 < a.meters := by cases a <;> norm_num [LengthUnit.meters]

theorem lengthAlong_size {a b : LengthUnit} {ts : List LengthType} (r : LengthRoute a b ts) (x : ℝ) (e : ℤ) (n : Bool) :
    lengthAlong ts x e n * b.meters ^ power e n = x * a.meters ^ power e n := by
  induction r generalizing x with
  | nil a => rfl
  | cons h r ih =>
    rw [← C165_length h]
    exact ih _

/-- **C165**. All routes between two units of length give the same number, for every exponent on both sides of the
fraction line. -/
theorem C165_length_routes {a b : LengthUnit} {ts ts' : List LengthType} (r : LengthRoute a b ts)
    (r' : LengthRoute a b ts') (x : ℝ) (e : ℤ) (n : Bool) : lengthAlong ts x e n = lengthAlong ts' x e n := by
  have h := (lengthAlong_size r x e n).trans (lengthAlong_size r' x e n).symm
  exact mul_right_cancel₀ (zpow_pos (meters_pos b) _).ne' h

/-- From miles to inches through feet, or through feet, meters and feet. -/
example : LengthRoute .mile .inch [.milesToFeet, .feetToInches] ∧
    LengthRoute .mile .inch [.milesToFeet, .feetToMeters, .metersToFeet, .feetToInches] ∧
    lengthAlong [.milesToFeet, .feetToInches] 2 1 true = 126720 :=
  ⟨.cons rfl (.cons rfl (.nil _)), .cons rfl (.cons rfl (.cons rfl (.cons rfl (.nil _)))), by
    norm_num [lengthAlong, convertLength, convert]⟩

/-- **C165**, forces: the avoirdupois pound is 0.45359237 kg and falls with 9.80665 m/s². -/
theorem C165_force (x : ℝ) (e : ℤ) (n : Bool) :
    convertForce x .poundsToNewtons e n = x * (0.45359237 * 9.80665) ^ power e n ∧
    convertForce x .newtonsToPounds e n * (0.45359237 * 9.80665) ^ power e n = x := by
  have h : (0.45359237 : ℝ) * 9.80665 = 4.4482216152605 := by norm_num
  rw [h]
  constructor
  · exact convert_power _ _ _ _
  · show convert x (1 / 4.4482216152605) e n * _ = x
    rw [convert_power, mul_assoc, ← mul_zpow]
    norm_num

theorem convert_square (x f : ℝ) (e : ℤ) (n : Bool) : convert x (f ^ 2) e n = convert x f⁻¹ (2 * e) (!n) := by
  rw [convert_power, convert_power]
  congr 1
  have : (f ^ 2) ^ power e n = f ^ (2 * power e n) := by
    rw [zpow_mul]; rfl
  rw [this, inv_zpow', power, power]
  congr 1
  cases n <;> simp

/-- **C165**, stresses. A stress in pounds per square inch is converted to pounds per square foot as the inches, squared
and in the denominator, are converted to feet; and one in megapascals to pascals as millimeters are converted to
meters (newtons per square millimeter).  So it is for every power of a stress on both sides of the fraction line. -/
theorem C165_stress (x : ℝ) (e : ℤ) (n : Bool) :
    convertStress x .psiToPsf e n = convertLength x .inchesToFeet (2 * e) (!n) ∧
    convertStress x .psfToPsi e n = convertLength x .feetToInches (2 * e) (!n) ∧
    convertStress x .megaPascalToPascal e n = convertLength x .millimetersToMeters (2 * e) (!n) ∧
    convertStress x .pascalToMegaPascal e n = convertLength x .metersToMillimeters (2 * e) (!n) := by
  refine ⟨?_, ?_, ?_, ?_⟩
  · have := convert_square x 12 e n
    norm_num at this
    simpa [convertStress, convertLength] using this
  · have := convert_square x (1 / 12) e n
    norm_num at this
    simpa [convertStress, convertLength] using this
  · have := convert_square x 1000 e n
    norm_num at this
    simpa [convertStress, convertLength] using this
  · have := convert_square x (1 / 1000) e n
    norm_num at this
    simpa [convertStress, convertLength] using this

/-- **C165**, stresses. A pound per square foot is converted to pascals, up to 3 parts in 100 millions, as the pounds are
converted to newtons and the square feet in the denominator to square meters. -/
theorem C165_stress_metric (x : ℝ) :
    |convertStress x .psfToPascal - convertLength (convertForce x .poundsToNewtons) .feetToMeters 2 false| ≤
      3e-8 * |convertStress x .psfToPascal| := by
  have e : convertStress x .psfToPascal - convertLength (convertForce x .poundsToNewtons) .feetToMeters 2 false =
      x * (47.88026 - 4.4482216152605 * (1 / 0.3048 ^ 2)) := by
    simp only [convertStress, convertLength, convertForce, convert]
    norm_num
    ring
  have e' : convertStress x .psfToPascal = x * 47.88026 := by
    simp [convertStress, convert]
  rw [e, e', abs_mul, abs_mul, mul_comm (3e-8 : ℝ), mul_assoc]
  refine mul_le_mul_of_nonneg_left ?_ (abs_nonneg x)
  rw [abs_of_pos (by norm_num), abs_of_pos (by norm_num)]
  norm_num

/-- **C165**, angles. A half turn is 180 degrees and π radians, up to 2 parts in 10^15. -/
theorem C165_angle (x : ℝ) :
    |convertAngle x .degreesToRadians - x * (Real.pi / 180)| ≤ 2e-15 * |x * (Real.pi / 180)| ∧
    |convertAngle x .radiansToDegrees - x * (180 / Real.pi)| ≤ 2e-15 * |x * (180 / Real.pi)| := by
  have h1 := Real.pi_gt_d20
  have h2 := Real.pi_lt_d20
  have hp := Real.pi_pos
  have e1 : convertAngle x .degreesToRadians = x * (kPi / 180) := by simp [convertAngle, convert]
  have e2 : convertAngle x .radiansToDegrees = x * (180 / kPi) := by simp [convertAngle, convert]
  rw [e1, e2, ← mul_sub, ← mul_sub, abs_mul, abs_mul, abs_mul, abs_mul]
  constructor
  · rw [mul_left_comm]
    refine mul_le_mul_of_nonneg_left ?_ (abs_nonneg x)
    rw [abs_of_pos (show 0 < Real.pi / 180 by positivity), abs_le]
    constructor <;> norm_num [kPi] <;> linarith
  · rw [mul_left_comm]
    refine mul_le_mul_of_nonneg_left ?_ (abs_nonneg x)
    have e : 180 / kPi - 180 / Real.pi = 180 / Real.pi * ((Real.pi - kPi) / kPi) := by
      have : kPi ≠ 0 := by norm_num [kPi]
      field_simp
    rw [e, abs_mul, mul_comm]
    refine mul_le_mul_of_nonneg_right ?_ (abs_nonneg _)
    rw [abs_le]
    constructor
    · rw [le_div_iff₀ (by norm_num [kPi])]; norm_num [kPi]; linarith
    · rw [div_le_iff₀ (by norm_num [kPi])]; norm_num [kPi]; linarith

example : convertStress 1 .psiToPsf = 144 ∧ convertLength 1 .inchesToFeet 2 false = 144 := by
  norm_num [convertStress, convertLength, convert]

end Verif.Props
