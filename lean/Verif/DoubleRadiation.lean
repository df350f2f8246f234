import Verif.DoubleSun
import Verif.DoubleBase
import Verif.Thermal
import Verif.Solar

/-! # Solar radiation and resistance in `double` arithmetic

`SolarRadiationSolver::SolveRadiation` and `ThermalRatingCable::Resistance` again, with the result of every operation
rounded; decimal literals are rounded too.
-/

namespace Verif.Double

namespace Sun

variable (L : SunLibrary)

/-- `c * std::pow(10, i)`. -/
noncomputable def scaled (c : ℝ) (i : ℤ) : ℝ := rnd (rnd c * L.pow 10 i)

/-- `coefficients_atmosphere_`, `solar_radiation_solver.cc` L381-436. -/
noncomputable def atmosphere : UnitSystem → Atmosphere → Option (List ℝ)
  | .imperial, .clear => some [rnd (-3.9241), rnd 5.9276, scaled L (-1.7856) (-1), scaled L 3.223 (-3),
      scaled L (-3.3549) (-5), scaled L 1.8053 (-7), scaled L (-3.7868) (-10)]
  | .imperial, .industrial => some [rnd 4.9408, rnd 1.3202, scaled L 6.1444 (-2), scaled L (-2.9411) (-3),
      scaled L 5.07752 (-5), scaled L (-4.03627) (-7), scaled L 1.22967 (-9)]
  | .metric, .clear => some [rnd (-42.2391), rnd 63.8044, rnd (-1.9220), scaled L 3.46921 (-2),
      scaled L (-3.61118) (-4), scaled L 1.94318 (-6), scaled L (-4.07608) (-9)]
  | .metric, .industrial => some [rnd 53.1821, rnd 14.2110, scaled L 6.6138 (-1), scaled L (-3.1658) (-2),
      scaled L 5.4654 (-4), scaled L (-4.3446) (-6), scaled L 1.3236 (-8)]
  | _, _ => none

/-- `coefficients_elevation_`, L404-406 and L430-432. -/
noncomputable def elevation : UnitSystem → List ℝ
  | .imperial => [1, scaled L 3.500 (-5), scaled L (-1.000) (-9)]
  | .metric => [1, scaled L 1.148 (-4), scaled L (-1.108) (-8)]
  | .null => [0, 0, 0]

/-- `SolveRadiation`, L333-353, given the coefficients and the position of the sun. -/
noncomputable def radiation (cs : List ℝ) (u : UnitSystem) (elevationSite altitude azimuth azimuthCable : ℝ) :
    Option ℝ :=
  (incidence L altitude azimuth azimuthCable).map fun a =>
    rnd (rnd (evalY L.toLibrary cs altitude * L.sin (toRadians L a)) * evalY L.toLibrary (elevation L u) elevationSite)

end Sun

/-- `ThermalRatingCable::Resistance`, `thermal_rating_cable.cc` L70-115; the search compares only. -/
noncomputable def tableResistance (k : Cable) (t : ℝ) : ℝ :=
  match k.resistances with
  | p :: q :: rest =>
    let r := Cable.resistanceSearch t p q rest
    linearY r.1.temperature r.1.resistance r.2.temperature r.2.resistance t
  | _ => -999999

end Verif.Double
