import Mathlib.Analysis.SpecialFunctions.Pow.Real
import Verif.CableModel
import Verif.Helper
import Verif.Vector

/-!
# Model of `thermalrating/thermal_rating_cable.cc`, `thermal_rating_weather.cc`, `cable_heat_transfer_state.cc` and
`cable_heat_transfer_solver.cc`

Exact real arithmetic.  Where the code can produce a NaN or an infinity (a fractional power of a negative number, a
division by zero), the value is an `Option ℝ` and `none` stands for any number that is not finite.

`ThermalRatingCable` is a view of a `Cable` through a pointer (see `Verif/CableModel.lean`): `none` is a view without a
cable.
-/

namespace Verif

open Verif.Units

/-- `ThermalRatingWeather`, `include/models/thermalrating/thermal_rating_weather.h` L32-51. -/
structure ThermalWeather where
  angleWind : ℝ
  elevation : ℝ
  radiationSolar : ℝ
  speedWind : ℝ
  temperatureAir : ℝ

open Classical in
/-- `ThermalRatingWeather::Validate`, `thermal_rating_weather.cc` L17-71: flag and messages. -/
noncomputable def ThermalWeather.validate (w : ThermalWeather) : Bool × List String :=
  let m1 := if w.angleWind < 0 ∨ 90 < w.angleWind then ["Invalid angle between wind and cable"] else []
  let m2 := if w.elevation < 0 then ["Invalid elevation"] else []
  let m3 := if w.radiationSolar < 0 then ["Invalid solar radiation"] else []
  let m4 := if w.speedWind < 0 then ["Invalid wind speed"] else []
  let m5 := if w.temperatureAir < -100 ∨ 100 < w.temperatureAir then ["Invalid air temperature"] else []
  let m := m1 ++ m2 ++ m3 ++ m4 ++ m5
  (m.isEmpty, m)

namespace Cable

open Classical in
/-- The search loop of `ThermalRatingCable::Resistance`, `thermal_rating_cable.cc` L84-108: the pair of points at hand
and the points after it. -/
noncomputable def resistanceSearch (t : ℝ) :
    ResistancePoint → ResistancePoint → List ResistancePoint → ResistancePoint × ResistancePoint
  | low, high, [] => (low, high)
  | low, high, p :: ps =>
    if low.temperature < t ∧ t < high.temperature then (low, high)
    else if low.temperature < t ∧ high.temperature < t then (low, high)
    else resistanceSearch t high p ps

/-- `ThermalRatingCable::Resistance`, `thermal_rating_cable.cc` L70-115.  Two points of equal temperature would divide
by zero; validation rejects them. -/
noncomputable def resistance (k : Cable) (t : ℝ) : ℝ :=
  match k.resistances with
  | p :: q :: rest =>
    let r := resistanceSearch t p q rest
    Helper.linearY r.1.temperature r.1.resistance r.2.temperature r.2.resistance t
  | _ => -999999

open Classical in
/-- The loop over the resistances in `ThermalRatingCable::Validate`, L164-184: one message for each point that is not
above its predecessor. -/
noncomputable def resistanceMessages : List ResistancePoint → List String
  | p :: q :: rest =>
    (if q.temperature ≤ p.temperature then ["Resistances are not ordered by increasing temperature"] else []) ++
      resistanceMessages (q :: rest)
  | _ => []

open Classical in
/-- `ThermalRatingCableComponent::Validate`, `thermal_rating_cable.cc` L15-47, for a view with a component (the call of
`CableComponent::Validate`, L32, does nothing). -/
noncomputable def heatMessages (c : CableComponent) : List String :=
  if c.capacityHeat < 0 then ["Invalid heat capacity"] else []

open Classical in
/-- `ThermalRatingCable::Validate`, `thermal_rating_cable.cc` L117-200, for a view with a cable: flag and messages. -/
noncomputable def validateThermal (k : Cable) : Bool × List String :=
  let m1 := k.validate.2
  let m2 := if k.absorptivity < 0 ∨ 1 < k.absorptivity then ["Invalid absorptivity"] else []
  let m3 := if k.emissivity < 0 ∨ 1 < k.emissivity then ["Invalid emissivity"] else []
  let m4 := if k.resistances.length < 2 then ["Invalid ac resistances"] else resistanceMessages k.resistances
  let m5 := heatMessages k.core ++ heatMessages k.shell
  let m := m1 ++ m2 ++ m3 ++ m4 ++ m5
  (m.isEmpty, m)

end Cable

/-- `CableHeatTransferState`, `include/models/thermalrating/cable_heat_transfer_state.h`. -/
structure HeatState where
  convection : Option ℝ
  radiation : Option ℝ
  resistance : Option ℝ
  solar : Option ℝ
  storage : Option ℝ

/-- Constructor, `cable_heat_transfer_state.cc` L6-12. -/
noncomputable def HeatState.new : HeatState :=
  ⟨some 999999, some 999999, some (-999999), some (-999999), some (-999999)⟩

/-- `std::pow` with a positive exponent that is not an integer. -/
noncomputable def powFraction (x y : ℝ) : Option ℝ := if x < 0 then none else some (x ^ y)

/-- A division; none by zero. -/
noncomputable def divFinite (x y : ℝ) : Option ℝ := if y = 0 then none else some (x / y)

/-! The functions of `CableHeatTransferSolver` for a cable, unit system and weather that are not null
(`Verif/ThermalSolvers.lean` has the pointers). -/

namespace Heat

/-- The film temperature, `cable_heat_transfer_solver.cc` L20-22. -/
noncomputable def film (w : ThermalWeather) (t : ℝ) : ℝ := (t + w.temperatureAir) / 2

/-- The thermal conductivity of air, L23-35. -/
noncomputable def conductivity (u : UnitSystem) (film : ℝ) : ℝ :=
  match u with
  | .imperial => 7.388 * 10 ^ (-3 : ℤ) + 2.279 * 10 ^ (-5 : ℤ) * film - 1.343 * 10 ^ (-9 : ℤ) * film ^ 2
  | .metric => 2.424 * 10 ^ (-2 : ℤ) + 7.477 * 10 ^ (-5 : ℤ) * film - 4.407 * 10 ^ (-9 : ℤ) * film ^ 2
  | .null => -999999

/-- The density of air, L37-49. -/
noncomputable def density (u : UnitSystem) (elevation film : ℝ) : Option ℝ :=
  match u with
  | .imperial => divFinite
      (0.080695 - 2.901 * 10 ^ (-6 : ℤ) * elevation + 3.7 * 10 ^ (-11 : ℤ) * elevation ^ 2) (1 + 0.00367 * film)
  | .metric => divFinite
      (1.293 - 1.525 * 10 ^ (-4 : ℤ) * elevation + 6.379 * 10 ^ (-9 : ℤ) * elevation ^ 2) (1 + 0.00367 * film)
  | .null => some (-999999)

/-- The viscosity of air, L51-65. -/
noncomputable def viscosity (u : UnitSystem) (film : ℝ) : Option ℝ :=
  match u with
  | .imperial => (powFraction (film + 273) 1.5).bind fun p =>
      (divFinite (0.00353 * p) (film + 383.4)).map (· / 3600)
  | .metric => (powFraction (film + 273) 1.5).bind fun p => divFinite (1.458 * 10 ^ (-6 : ℤ) * p) (film + 383.4)
  | .null => some (-999999)

/-- The wind direction factor, L208-216. -/
noncomputable def windFactor (angle : ℝ) : ℝ :=
  1.194 - Real.cos (toRadians angle) + 0.194 * Real.cos (2 * toRadians angle) + 0.368 * Real.sin (2 * toRadians angle)

/-- `HeatConvectionForced`, L199-239, given conductivity, density and viscosity. -/
noncomputable def forced (k : Cable) (w : ThermalWeather) (conductivity density viscosity t : ℝ) : Option ℝ :=
  (divFinite (k.diameter * density * w.speedWind) viscosity).bind fun reynolds =>
  (powFraction reynolds 0.52).bind fun p1 =>
  (powFraction reynolds 0.6).map fun p2 =>
    let f1 := windFactor w.angleWind * (1.01 + 1.35 * p1) * conductivity * (t - w.temperatureAir)
    let f2 := windFactor w.angleWind * 0.754 * p2 * conductivity * (t - w.temperatureAir)
    if f1 ≤ f2 then f2 else f1

/-- The constant of `HeatConvectionNatural`, L244-252. -/
noncomputable def naturalConstant : UnitSystem → ℝ
  | .imperial => 1.825
  | .metric => 3.645
  | .null => -999999

/-- `HeatConvectionNatural`, L241-258, for a unit system. -/
noncomputable def natural (k : Cable) (u : UnitSystem) (w : ThermalWeather) (density t : ℝ) : Option ℝ :=
  (powFraction density 0.5).bind fun p1 =>
  (powFraction k.diameter 0.75).bind fun p2 =>
  (powFraction (t - w.temperatureAir) 1.25).map fun p3 => naturalConstant u * p1 * p2 * p3

/-- The choice at the end of `HeatConvection`, L79-85; a comparison with a NaN is false.
Simplification: an infinite forced convection (viscosity 0, that is a film temperature of exactly -273 degrees Celsius,
which validated weather does not have) is treated like a NaN. -/
noncomputable def larger (natural forced : Option ℝ) : Option ℝ :=
  match natural, forced with
  | none, _ => none
  | some n, none => some (-1 * n)
  | some n, some f => if n < f then some (-1 * f) else some (-1 * n)

/-- `HeatConvection`, `cable_heat_transfer_solver.cc` L17-86.  Without a unit system it returns `false`, that is 0. -/
noncomputable def convection (k : Cable) (u : UnitSystem) (w : ThermalWeather) (t : ℝ) : Option ℝ :=
  if u = .null then some 0
  else
    match density u w.elevation (film w t) with
    | none => none
    | some d => larger (natural k u w d t)
        ((viscosity u (film w t)).bind fun v => forced k w (conductivity u (film w t)) d v t)

/-- The constant of `HeatRadiation`, L90-96. -/
noncomputable def radiationConstant : UnitSystem → ℝ
  | .imperial => 1.656
  | .metric => 17.8
  | .null => -999999

/-- `HeatRadiation`, L88-105. -/
noncomputable def radiation (k : Cable) (u : UnitSystem) (w : ThermalWeather) (t : ℝ) : ℝ :=
  let k1 := radiationConstant u * k.diameter * k.emissivity
  let k2 := ((t + 273) / 100) ^ 4
  let k3 := ((w.temperatureAir + 273) / 100) ^ 4
  (-1) * k1 * (k2 - k3)

/-- `HeatResistance`, L107-115. -/
noncomputable def resistance (k : Cable) (t current : ℝ) : ℝ := current ^ 2 * k.resistance t

/-- `HeatSolar`, L117-122. -/
noncomputable def solar (k : Cable) (w : ThermalWeather) : ℝ := k.absorptivity * w.radiationSolar * (k.diameter * 1)

/-- `HeatStored`, L124-127. -/
noncomputable def stored (heatIn heatOut : ℝ) : ℝ := heatIn + heatOut

end Heat

/-- `CableHeatTransferSolver::Validate`, `cable_heat_transfer_solver.cc` L129-173, the flag, for the pointers to the
cable view and the weather. -/
noncomputable def heatValid (cable : Option (Option Cable)) (u : UnitSystem) (w : Option ThermalWeather) : Bool :=
  (match cable with
    | some (some k) => k.validateThermal.1
    | _ => false) &&
  decide (u ≠ .null) &&
  (match w with
    | some w => w.validate.1
    | none => false)

end Verif
