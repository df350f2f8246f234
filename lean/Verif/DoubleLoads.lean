import Verif.DoubleCatenary
import Verif.CableUnitLoad
import Verif.CableReloader
import Verif.Sagging

/-!
# Unit loads, strained lengths and wave times in `double` arithmetic

`base/geometric_shapes.cc`, `transmissionline/cable_unit_load_solver.cc`, the formula of `sagtension/cable_strainer.cc`
and the formulas of `sagging/stopwatch_sagger.cc`, with every operation rounded (see `Verif/Double.lean`).
-/

namespace Verif.Double

variable (L : Library)

/-- Squares keep the order of the sizes. -/
def Library.SquaresMono (L : Library) : Prop :=
  ∀ x y, IsDouble x → IsDouble y → 0 ≤ x → x ≤ y → L.pow x 2 ≤ L.pow y 2

/-! ## Unit loads -/

/-- `Cylinder::AreaCrossSection`, `base/geometric_shapes.cc` L17-19. -/
noncomputable def areaCrossSection (c : Cylinder) : ℝ :=
  rnd (rnd (rnd 3.14159265358979 / 4) * L.pow c.diameter 2)

/-- `Cylinder::Volume`, `base/geometric_shapes.cc` L49-51. -/
noncomputable def volume (c : Cylinder) : ℝ := rnd (areaCrossSection L c * c.length)

/-- `CableUnitLoadSolver::UnitCableLoad`, `cable_unit_load_solver.cc` L50-74, for a cable of diameter `d` and unit
weight `w` (the two pointers not null). -/
noncomputable def unitCableLoad (d w : ℝ) (c : WeatherLoadCase) : V3 :=
  let bare : Cylinder := ⟨d, 1⟩
  let iced : Cylinder := ⟨rnd (d + rnd (2 * c.thicknessIce)), 1⟩
  let volumeIce := rnd (volume L iced - volume L bare)
  let weightIce := rnd (volumeIce * c.densityIce)
  ⟨0, rnd (rnd (iced.diameter * iced.length) * c.pressureWind), rnd (w + weightIce)⟩

/-! ## Strained lengths -/

open Classical in
/-- The formula of `CableStrainer::LengthFinish`, `cable_strainer.cc` L25-42, from the start length and the two
strains. -/
noncomputable def lengthFinish (length start finish : ℝ) : ℝ :=
  let transition := rnd (finish - start)
  if transition < 0 then rnd (length / rnd (1 + |transition|)) else rnd (length * rnd (1 + transition))

/-! ## Wave times -/

/-- `units::kGravityImperial` and `kGravityMetric`, `units.h` L112-113. -/
noncomputable def gravity : UnitSystem → ℝ
  | .imperial => rnd (1 / rnd 0.0310810)
  | .metric => rnd (1 / rnd 0.101972)
  | .null => 0

/-- `velocity_wave_` of `UpdateLengthAndVelocity`, `stopwatch_sagger.cc` L86-104, from H/w. -/
noncomputable def velocityWave (s : UnitSystem) (constant : ℝ) : ℝ := rnd √(rnd (gravity s * constant))

/-- `TimeReturn`, `stopwatch_sagger.cc` L27, from the length and the velocity; the product `wave * 2` is an `int`. -/
noncomputable def timeReturn (length velocity : ℝ) (wave : ℤ) : ℝ :=
  rnd (rnd (((wave * 2 : ℤ) : ℝ) * length) / velocity)

end Verif.Double
