import Verif.Props.CableUnitLoad
import Verif.Props.CatenaryTighter
import Verif.Props.Sagging

/-!
# C209: how far wind swings a cable
-/

set_option linter.unusedSectionVars false

namespace Verif.Props

open Catenary3d Verif.Units

/-- A catenary, whatever was called on it before, under the load of a cable with diameter `d` and unit weight `w` in a
weather. -/
def InWeather (k : Catenary3d) (d w : ℝ) (c : WeatherLoadCase) : Prop :=
  k.Reachable ∧ (UnitLoadSolver.mk (some d) (some w)).unitCableLoad c = .val k.weightUnit

theorem swing_value (k : Catenary3d) :
    k.swingAngle = toDegrees (Real.arctan (k.weightUnit.y / k.weightUnit.z)) := by
  show toDegrees (Real.arctan (k.refresh.weightUnit.y / k.refresh.weightUnit.z)) = _
  rw [(refresh_params k).2.2.1]

theorem swing_lt {k k' : Catenary3d} (h : 0 < k.weightUnit.z) (h' : 0 < k'.weightUnit.z) :
    k.swingAngle < k'.swingAngle ↔
      k.weightUnit.y * k'.weightUnit.z < k'.weightUnit.y * k.weightUnit.z := by
  rw [swing_value, swing_value, ← div_lt_div_iff₀ h h']
  rw [toDegrees_lt]
  exact Real.arctan_lt_arctan_iff

section
variable {k k' : Catenary3d} {d w : ℝ} {c c' : WeatherLoadCase} (K : InWeather k d w c) (K' : InWeather k' d w c')
  (hd : 0 < d) (hw : 0 < w) (hρ : 0 ≤ c.densityIce) (ht : 0 ≤ c.thicknessIce)
include K hd hw hρ ht

theorem weather_load : k.weightUnit.y = c.pressureWind * (d + 2 * c.thicknessIce) ∧
    k.weightUnit.z = w + c.densityIce * (kPi * c.thicknessIce * (d + c.thicknessIce)) ∧ 0 < k.weightUnit.z := by
  obtain ⟨v, e, -, y, z⟩ := C40_unit_load d w c
  have := K.2
  rw [e] at this
  obtain rfl : v = k.weightUnit := by injection this
  have q : 0 < kPi := by unfold kPi; norm_num
  exact ⟨y, z, by rw [z]; positivity⟩

/-- **C209**. The cable swings if and only if there is wind, and never against it. -/
theorem C209_still : (k.swingAngle = 0 ↔ c.pressureWind = 0) ∧ (0 < k.swingAngle ↔ 0 < c.pressureWind) := by
  obtain ⟨y, -, z0⟩ := weather_load K hd hw hρ ht
  have e0 : toDegrees 0 = 0 := by rw [toDegrees_eq, zero_mul]
  have D : 0 < d + 2 * c.thicknessIce := by linarith
  have key : 0 < k.swingAngle ↔ 0 < c.pressureWind := by
    have : 0 < k.swingAngle ↔ toDegrees (Real.arctan 0) < k.swingAngle := by rw [Real.arctan_zero, e0]
    rw [this, swing_value, toDegrees_lt, Real.arctan_lt_arctan_iff, lt_div_iff₀ z0, zero_mul, y,
      mul_pos_iff_of_pos_right D]
  have key' : k.swingAngle < 0 ↔ c.pressureWind < 0 := by
    have : k.swingAngle < 0 ↔ k.swingAngle < toDegrees (Real.arctan 0) := by rw [Real.arctan_zero, e0]
    rw [this, swing_value, toDegrees_lt, Real.arctan_lt_arctan_iff, div_lt_iff₀ z0, zero_mul, y, ← neg_pos,
      ← neg_mul, mul_pos_iff_of_pos_right D, neg_pos]
  refine ⟨?_, key⟩
  constructor <;> intro h
  · exact le_antisymm (not_lt.1 fun q => (key.2 q).ne' h) (not_lt.1 fun q => (key'.2 q).ne h)
  · exact le_antisymm (not_lt.1 fun q => (key.1 q).ne' h) (not_lt.1 fun q => (key'.1 q).ne h)

include K'

/-- **C209**. With the same ice, a stronger wind swings the cable further, on whatever span and at whatever tension. -/
theorem C209_wind (e1 : c'.densityIce = c.densityIce) (e2 : c'.thicknessIce = c.thicknessIce) :
    k.swingAngle < k'.swingAngle ↔ c.pressureWind < c'.pressureWind := by
  obtain ⟨y, z, z0⟩ := weather_load K hd hw hρ ht
  obtain ⟨y', z', z0'⟩ := weather_load K' hd hw (e1 ▸ hρ) (e2 ▸ ht)
  rw [swing_lt z0 z0', y, y', show k'.weightUnit.z = k.weightUnit.z by rw [z, z', e1, e2], e2,
    mul_lt_mul_iff_left₀ z0, mul_lt_mul_iff_left₀ (by linarith)]

/-- **C209**. In the same wind, denser ice of the same thickness swings it less. -/
theorem C209_density (p : 0 < c.pressureWind) (t : 0 < c.thicknessIce) (hρ' : 0 ≤ c'.densityIce)
    (e1 : c'.pressureWind = c.pressureWind) (e2 : c'.thicknessIce = c.thicknessIce) :
    k'.swingAngle < k.swingAngle ↔ c.densityIce < c'.densityIce := by
  obtain ⟨y, z, z0⟩ := weather_load K hd hw hρ ht
  obtain ⟨y', z', z0'⟩ := weather_load K' hd hw hρ' (e2 ▸ ht)
  have q : 0 < kPi := by unfold kPi; norm_num
  have ey : k'.weightUnit.y = k.weightUnit.y := by rw [y, y', e1, e2]
  have y0 : 0 < k.weightUnit.y := by rw [y]; positivity
  rw [swing_lt z0' z0, ey, mul_lt_mul_iff_right₀ y0, z, z', e2, add_lt_add_iff_left, mul_lt_mul_iff_left₀ (by positivity)]

/-- **C209**. In the same wind a thicker layer of the same ice swings the cable less exactly when the ice is heavy enough for
the cable: twice the unit weight is less than the density times `pi (d^2 + d (t + t') + 2 t t')`. -/
theorem C209_thickness (p : 0 < c.pressureWind) (e1 : c'.pressureWind = c.pressureWind)
    (e2 : c'.densityIce = c.densityIce) (t : c.thicknessIce < c'.thicknessIce) :
    k'.swingAngle < k.swingAngle ↔ 2 * w < c.densityIce * (kPi * (d ^ 2 + d * (c.thicknessIce + c'.thicknessIce) +
      2 * (c.thicknessIce * c'.thicknessIce))) := by
  obtain ⟨y, z, z0⟩ := weather_load K hd hw hρ ht
  obtain ⟨y', z', z0'⟩ := weather_load K' hd hw (e2 ▸ hρ) (by linarith)
  rw [swing_lt z0' z0, y, y', z, z', e1, e2, ← sub_pos, ← sub_pos (b := 2 * w)]
  have f : 0 < c.pressureWind * (c'.thicknessIce - c.thicknessIce) := mul_pos p (by linarith)
  rw [show c.pressureWind * (d + 2 * c.thicknessIce) * (w + c.densityIce * (kPi * c'.thicknessIce * (d + c'.thicknessIce))) -
      c.pressureWind * (d + 2 * c'.thicknessIce) * (w + c.densityIce * (kPi * c.thicknessIce * (d + c.thicknessIce))) =
      c.pressureWind * (c'.thicknessIce - c.thicknessIce) * (c.densityIce * (kPi * (d ^ 2 + d * (c.thicknessIce +
        c'.thicknessIce) + 2 * (c.thicknessIce * c'.thicknessIce))) - 2 * w) by ring]
  exact mul_pos_iff_of_pos_left f

end

/-- A catenary under the load of a cable of diameter 1 and unit weight 2 in a weather. -/
noncomputable def exBlown (c : WeatherLoadCase) : Catenary3d :=
  (exCat3.setTension 20000).setWeight ⟨0, c.pressureWind * (1 + 2 * c.thicknessIce),
    2 + c.densityIce * (kPi * c.thicknessIce * (1 + c.thicknessIce))⟩

theorem exBlown_ok (c : WeatherLoadCase) : InWeather (exBlown c) 1 2 c := by
  refine ⟨(exCat3_reachable.step (.setTension _)).step (.setWeight _), ?_⟩
  obtain ⟨v, e, x, y, z⟩ := C40_unit_load 1 2 c
  rw [e]
  congr 1
  ext
  exacts [x, y, z]

/-- The theorem C209 applies: half an inch of ice and two winds; twice the ice; bare and iced. -/
example : (exBlown ⟨57, 4, 0, 0.5⟩).swingAngle < (exBlown ⟨57, 8, 0, 0.5⟩).swingAngle ∧
    (exBlown ⟨57, 4, 0, 0.5⟩).swingAngle < (exBlown ⟨30, 4, 0, 0.5⟩).swingAngle ∧
    (exBlown ⟨57, 4, 0, 0.5⟩).swingAngle < (exBlown ⟨57, 4, 0, 0⟩).swingAngle := by
  refine ⟨(C209_wind (exBlown_ok ⟨57, 4, 0, 0.5⟩) (exBlown_ok ⟨57, 8, 0, 0.5⟩) one_pos two_pos (by norm_num) (by norm_num) rfl rfl).2
      (by norm_num),
    (C209_density (exBlown_ok ⟨30, 4, 0, 0.5⟩) (exBlown_ok ⟨57, 4, 0, 0.5⟩) one_pos two_pos (by norm_num)
      (by norm_num) (by norm_num) (by norm_num) (by norm_num) rfl rfl).2 (by norm_num),
    (C209_thickness (exBlown_ok ⟨57, 4, 0, 0⟩) (exBlown_ok ⟨57, 4, 0, 0.5⟩) one_pos two_pos (by norm_num)
      (by norm_num) (by norm_num) rfl rfl (by norm_num)).2 ?_⟩
  unfold kPi
  norm_num

end Verif.Props
