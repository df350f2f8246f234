import Verif.Outcome
import Verif.Vector

/-!
# Model of `base/geometric_shapes.cc` and `transmissionline/cable_unit_load_solver.cc`

Exact real arithmetic.
-/

namespace Verif

open Verif.Units

/-- `Cylinder`, `base/geometric_shapes.cc` L10-13 (members). -/
structure Cylinder where
  diameter : ℝ
  length : ℝ

namespace Cylinder

/-- `Cylinder::AreaCrossSection`, `geometric_shapes.cc` L17-19. -/
noncomputable def areaCrossSection (c : Cylinder) : ℝ := kPi / 4 * c.diameter ^ 2

/-- `Cylinder::Volume`, `geometric_shapes.cc` L49-51. -/
noncomputable def volume (c : Cylinder) : ℝ := c.areaCrossSection * c.length

open Classical in
/-- `Cylinder::Validate`, `geometric_shapes.cc` L21-47. -/
noncomputable def validate (c : Cylinder) : Bool × List String :=
  (decide (¬ c.diameter ≤ 0) && decide (¬ c.length ≤ 0),
    (if c.diameter ≤ 0 then ["Invalid diameter"] else []) ++
      (if c.length ≤ 0 then ["Invalid length"] else []))

end Cylinder

/-- `WeatherLoadCase`, numeric members. -/
structure WeatherLoadCase where
  densityIce : ℝ
  pressureWind : ℝ
  temperatureCable : ℝ
  thicknessIce : ℝ

/-- `CableUnitLoadSolver`, `cable_unit_load_solver.cc` L8-11: the two pointers, `none` = null. -/
structure UnitLoadSolver where
  diameterCable : Option ℝ
  weightUnitCable : Option ℝ

namespace UnitLoadSolver

open Classical in
/-- `CableUnitLoadSolver::Validate`, `cable_unit_load_solver.cc` L16-44. -/
noncomputable def validate (s : UnitLoadSolver) : Bool :=
  (match s.diameterCable with | none => false | some d => decide (¬ d ≤ 0)) &&
  (match s.weightUnitCable with | none => false | some w => decide (¬ w ≤ 0))

/-- `CableUnitLoadSolver::UnitCableLoad`, `cable_unit_load_solver.cc` L50-74; a null pointer is UB. -/
noncomputable def unitCableLoad (s : UnitLoadSolver) (c : WeatherLoadCase) : Res V3 :=
  match s.diameterCable, s.weightUnitCable with
  | some d, some w =>
    let bare : Cylinder := ⟨d, 1⟩
    let iced : Cylinder := ⟨d + 2 * c.thicknessIce, 1⟩
    let volumeIce := iced.volume - bare.volume
    let weightIce := volumeIce * c.densityIce
    .val ⟨0, iced.diameter * iced.length * c.pressureWind, w + weightIce⟩
  | _, _ => .ub

end UnitLoadSolver
end Verif
