import Verif.Thermal
import Verif.Outcome

/-!
# Model of `thermalrating/steady_cable_current_solver.cc`, `steady_cable_temperature_solver.cc` and
`transient_cable_temperature_solver.cc`

Objects behind pointers (cable view, weather) are values; `none` is a null pointer.  `none` as a number is a NaN or an
infinity (see `Verif/Thermal.lean`).  Every fresh `SteadyCableCurrentSolver` that the temperature solver makes is
recomputed for every temperature that it is set to, so it is a function here.
-/

namespace Verif

open Verif.Units

/-- A pointer to a `ThermalRatingCable`. -/
abbrev CablePointer := Option (Option Cable)

namespace Heat

open Classical in
/-- `SteadyCableCurrentSolver::SolveHeatTransferState`, `steady_cable_current_solver.cc` L175-186, after validation. -/
noncomputable def steadyState (k : Cable) (u : UnitSystem) (w : ThermalWeather) (t : Option ℝ) : HeatState :=
  let c := t.bind (convection k u w)
  let r := t.map (radiation k u w)
  ⟨c, r, c.bind fun c => r.map fun r => -1 * (c + r + solar k w), some (solar k w), some 0⟩

open Classical in
/-- `SteadyCableCurrentSolver::SolveCurrent`, L150-163, from the resistive heat and the resistance. -/
noncomputable def currentOf (heat r : ℝ) : Option ℝ :=
  if r = 0 then none
  else if |heat| / r < 0 then none
  else some (if heat < 0 then √(|heat| / r) * -1 else √(|heat| / r))

/-- The current of a steady state. -/
noncomputable def steadyCurrent (k : Cable) (u : UnitSystem) (w : ThermalWeather) (t : Option ℝ) : Option ℝ :=
  t.bind fun t => (steadyState k u w (some t)).resistance.bind fun h => currentOf h (k.resistance t)

end Heat

/-! ## Steady current -/

/-- `SteadyCableCurrentSolver`, `include/models/thermalrating/steady_cable_current_solver.h`. -/
structure CurrentSolver where
  cable : CablePointer
  temperature : Option ℝ
  units : UnitSystem
  weather : Option ThermalWeather
  state : HeatState
  current : Option ℝ
  isUpdated : Bool

namespace CurrentSolver

/-- Constructor, `steady_cable_current_solver.cc` L11-21. -/
noncomputable def new : CurrentSolver := ⟨none, some (-999999), .null, none, HeatState.new, some (-999999), false⟩

/-- `set_cable`, L114-117. -/
def setCable (s : CurrentSolver) (c : CablePointer) : CurrentSolver := { s with cable := c, isUpdated := false }

/-- `set_temperature_cable`, L119-123. -/
def setTemperature (s : CurrentSolver) (t : ℝ) : CurrentSolver :=
  { s with temperature := some t, isUpdated := false }

/-- `set_units`, L125-127. -/
def setUnits (s : CurrentSolver) (u : UnitSystem) : CurrentSolver := { s with units := u }

/-- `set_weather`, L129-132. -/
def setWeather (s : CurrentSolver) (w : Option ThermalWeather) : CurrentSolver := { s with weather := w }

/-- `Update`, L191-206, with `SolveHeatTransferState`, L165-189 and `SolveCurrent`, L150-163. -/
noncomputable def update (s : CurrentSolver) : CurrentSolver × Bool :=
  if heatValid s.cable s.units s.weather then
    match s.cable, s.weather with
    | some (some k), some w =>
      ({ s with
          state := Heat.steadyState k s.units w s.temperature
          current := Heat.steadyCurrent k s.units w s.temperature
          isUpdated := true }, true)
    | _, _ => ({ s with isUpdated := false }, false)
  else ({ s with isUpdated := false }, false)

/-- The guard of the queries, L28. -/
noncomputable def refresh (s : CurrentSolver) : CurrentSolver × Bool := if s.isUpdated then (s, true) else s.update

/-- `Current`, L26-33. -/
noncomputable def askCurrent (s : CurrentSolver) : CurrentSolver × Option ℝ :=
  if s.refresh.2 then (s.refresh.1, s.refresh.1.current) else (s.refresh.1, some (-999999))

/-- `StateHeatTransfer`, L35-42. -/
noncomputable def askState (s : CurrentSolver) : CurrentSolver × HeatState :=
  if s.refresh.2 then (s.refresh.1, s.refresh.1.state) else (s.refresh.1, HeatState.new)

open Classical in
/-- `Validate`, L44-108, the flag. -/
noncomputable def validate (s : CurrentSolver) : CurrentSolver × Bool :=
  let b1 := match s.cable with
    | some (some k) => k.validateThermal.1
    | _ => false
  let b2 := match s.temperature with
    | some t => decide (¬ (t < -100 ∨ 500 < t))
    | none => true
  let b3 := decide (s.units ≠ .null)
  let b4 := match s.weather with
    | some w => w.validate.1
    | none => false
  (s.update.1, b1 && b2 && b3 && b4 && s.update.2)

end CurrentSolver

/-! ## Steady temperature -/

/-- The current that the solver inside the temperature solver reports at a temperature. -/
noncomputable def Heat.currentAt (c : CablePointer) (u : UnitSystem) (w : ThermalWeather) (t : Option ℝ) : Option ℝ :=
  ((({ CurrentSolver.new with temperature := t }.setCable c).setUnits u).setWeather (some w)).askCurrent.2

/-- The heat transfer state that the solver inside the temperature solver reports at a temperature. -/
noncomputable def Heat.stateAt (c : CablePointer) (u : UnitSystem) (w : ThermalWeather) (t : Option ℝ) : HeatState :=
  ((({ CurrentSolver.new with temperature := t }.setCable c).setUnits u).setWeather (some w)).askState.2

/-- Variables of the loop in `SteadyCableTemperatureSolver::SolveTemperatureAndState`,
`steady_cable_temperature_solver.cc` L162-180. -/
structure TemperatureSearch where
  leftX : ℝ
  leftY : Option ℝ
  rightX : ℝ
  rightY : Option ℝ
  currentX : Option ℝ
  iter : Nat

namespace TemperatureSearch

/-- The temperature tried next, L183-189.  A slope of zero gives an infinity or a NaN. -/
noncomputable def nextX (target : ℝ) (s : TemperatureSearch) : Option ℝ :=
  match s.leftY, s.rightY with
  | some a, some b =>
    let slope := (b - a) / (s.rightX - s.leftX)
    if slope = 0 then none else some (s.leftX + (target - a) / slope)
  | _, _ => none

open Classical in
/-- The choice of the points, L195-217.  Comparisons with a NaN are false.  An infinity would replace one point for good
and never let the loop end early; leaving the points alone does the same.  Simplification: an infinite current, which is
that of a cable of resistance exactly zero, is treated like a NaN also between the two points, where the code would
move the left one. -/
noncomputable def replace (target : ℝ) (s : TemperatureSearch) (x y : Option ℝ) : TemperatureSearch :=
  match x with
  | none => s
  | some x' =>
    if x' < s.leftX then { s with rightX := s.leftX, rightY := s.leftY, leftX := x', leftY := y }
    else if s.leftX < x' ∧ x' < s.rightX then
      match y with
      | none => s
      | some y' =>
        if y' < target then { s with rightX := x', rightY := y }
        else if target < y' then { s with leftX := x', leftY := y }
        else s
    else if s.rightX < x' then { s with leftX := s.rightX, leftY := s.rightY, rightX := x', rightY := y }
    else s

/-- One pass of the loop, L182-219, for the current as a function of the temperature. -/
noncomputable def step (f : Option ℝ → Option ℝ) (target : ℝ) (s : TemperatureSearch) : TemperatureSearch :=
  let x := nextX target s
  { replace target s x (f x) with currentX := x, iter := s.iter + 1 }

open Classical in
/-- The loop, L182-219, with a bound on the passes left. -/
noncomputable def loop (f : Option ℝ → Option ℝ) (target : ℝ) : Nat → TemperatureSearch → TemperatureSearch
  | 0, s => s
  | n + 1, s => if 0.1 < |s.leftX - s.rightX| then loop f target n (step f target s) else s

end TemperatureSearch

/-- `SteadyCableTemperatureSolver`, `include/models/thermalrating/steady_cable_temperature_solver.h`. -/
structure TemperatureSolver where
  cable : CablePointer
  current : ℝ
  units : UnitSystem
  weather : Option ThermalWeather
  state : HeatState
  temperature : Option ℝ
  isUpdated : Bool

namespace TemperatureSolver

/-- Constructor, `steady_cable_temperature_solver.cc` L11-21. -/
noncomputable def new : TemperatureSolver := ⟨none, -999999, .null, none, HeatState.new, some (-999999), false⟩

/-- `set_cable`, L118-121. -/
def setCable (s : TemperatureSolver) (c : CablePointer) : TemperatureSolver := { s with cable := c, isUpdated := false }

/-- `set_current`, L123-126. -/
def setCurrent (s : TemperatureSolver) (i : ℝ) : TemperatureSolver := { s with current := i, isUpdated := false }

/-- `set_units`, L128-130. -/
def setUnits (s : TemperatureSolver) (u : UnitSystem) : TemperatureSolver := { s with units := u }

/-- `set_weather`, L132-135. -/
def setWeather (s : TemperatureSolver) (w : Option ThermalWeather) : TemperatureSolver := { s with weather := w }

/-- The first two points, L162-180. -/
noncomputable def start (c : CablePointer) (u : UnitSystem) (w : ThermalWeather) : TemperatureSearch :=
  ⟨w.temperatureAir, Heat.currentAt c u w (some w.temperatureAir), w.temperatureAir + 10,
    Heat.currentAt c u w (some (w.temperatureAir + 10)), none, 0⟩

/-- The search, L156-219: at most 101 passes. -/
noncomputable def search (c : CablePointer) (current : ℝ) (u : UnitSystem) (w : ThermalWeather) : TemperatureSearch :=
  TemperatureSearch.loop (Heat.currentAt c u w) current 101 (start c u w)

/-- `Update` with `SolveTemperatureAndState`, L149-242.  The weather is read without a check (L163). -/
noncomputable def update (s : TemperatureSolver) : Outcome TemperatureSolver Bool :=
  match s.weather with
  | none => .ub
  | some w =>
    let r := search s.cable s.current s.units w
    if r.iter < 100 then
      .ok { s with
        state := Heat.stateAt s.cable s.units w r.currentX, temperature := r.currentX, isUpdated := true } true
    else .ok { s with state := HeatState.new, temperature := some (-999999), isUpdated := false } false

/-- The guard of the queries, L28. -/
noncomputable def refresh (s : TemperatureSolver) : Outcome TemperatureSolver Bool :=
  if s.isUpdated then .ok s true else s.update

/-- `TemperatureCable`, L35-42. -/
noncomputable def askTemperature (s : TemperatureSolver) : Outcome TemperatureSolver (Option ℝ) :=
  match s.refresh with
  | .ok s' true => .ok s' s'.temperature
  | .ok s' false => .ok s' (some (-999999))
  | .throws s' => .throws s'
  | .ub => .ub

/-- `StateHeatTransfer`, L26-33. -/
noncomputable def askState (s : TemperatureSolver) : Outcome TemperatureSolver HeatState :=
  match s.refresh with
  | .ok s' true => .ok s' s'.state
  | .ok s' false => .ok s' HeatState.new
  | .throws s' => .throws s'
  | .ub => .ub

open Classical in
/-- `Validate`, L44-108, the flag. -/
noncomputable def validate (s : TemperatureSolver) : Outcome TemperatureSolver Bool :=
  let b1 := match s.cable with
    | some (some k) => k.validateThermal.1
    | _ => false
  let b2 := decide (¬ s.current < 0)
  let b3 := decide (s.units ≠ .null)
  let b4 := match s.weather with
    | some w => w.validate.1
    | none => false
  match s.update with
  | .ok s' b => .ok s' (b1 && b2 && b3 && b4 && b)
  | .throws s' => .throws s'
  | .ub => .ub

end TemperatureSolver

/-! ## Transient temperature -/

/-- `TemperaturePoint`, `include/models/thermalrating/transient_cable_temperature_solver.h`. -/
structure TemperaturePoint where
  time : Int
  temperature : Option ℝ

/-- `TransientCableTemperatureSolver`, the same header (its heat transfer solver is set up anew by every update). -/
structure TransientSolver where
  cable : CablePointer
  currentSteady : ℝ
  currentStep : ℝ
  duration : Int
  units : UnitSystem
  weather : Option ThermalWeather
  points : List TemperaturePoint
  isUpdated : Bool

namespace TransientSolver

/-- Constructor, `transient_cable_temperature_solver.cc` L8-19. -/
noncomputable def new : TransientSolver := ⟨none, -999999, -999999, -9999, .null, none, [], false⟩

/-- `set_cable`, L119-123. -/
def setCable (s : TransientSolver) (c : CablePointer) : TransientSolver := { s with cable := c, isUpdated := false }

/-- `set_current_steady`, L125-129. -/
def setCurrentSteady (s : TransientSolver) (i : ℝ) : TransientSolver :=
  { s with currentSteady := i, isUpdated := false }

/-- `set_current_step`, L131-135. -/
def setCurrentStep (s : TransientSolver) (i : ℝ) : TransientSolver := { s with currentStep := i, isUpdated := false }

/-- `set_duration`, L137-140. -/
def setDuration (s : TransientSolver) (d : Int) : TransientSolver := { s with duration := d, isUpdated := false }

/-- `set_units`, L142-146. -/
def setUnits (s : TransientSolver) (u : UnitSystem) : TransientSolver := { s with units := u, isUpdated := false }

/-- `set_weather`, L148-152. -/
def setWeather (s : TransientSolver) (w : Option ThermalWeather) : TransientSolver :=
  { s with weather := w, isUpdated := false }

/-- `HeatTransferState`, L162-175: the heat stored at a temperature under a current. -/
noncomputable def storage (k : Cable) (u : UnitSystem) (w : ThermalWeather) (current t : ℝ) : Option ℝ :=
  (Heat.convection k u w t).map fun c =>
    Heat.stored (Heat.resistance k t current + Heat.solar k w) (c + Heat.radiation k u w t)

/-- `TemperatureNew`, L181-195, for a time step in seconds. -/
noncomputable def temperatureNew (k : Cable) (t storage : ℝ) (step : Int) : Option ℝ :=
  (divFinite storage (k.core.capacityHeat + k.shell.capacityHeat)).map fun q => t + step * q

/-- The temperature after the next second, L244-251. -/
noncomputable def next (k : Cable) (u : UnitSystem) (w : ThermalWeather) (current : ℝ) (t : Option ℝ) : Option ℝ :=
  t.bind fun t => (storage k u w current t).bind fun h => temperatureNew k t h 1

/-- The loop, L235-259: `n` more points after a point at `time` with a temperature.  The overflow of `time` for a
duration of `INT_MAX` is not modelled. -/
noncomputable def series (k : Cable) (u : UnitSystem) (w : ThermalWeather) (current : ℝ) :
    Nat → Int → Option ℝ → List TemperaturePoint
  | 0, _, _ => []
  | n + 1, time, t => ⟨time, t⟩ :: series k u w current n (time + 1) (next k u w current t)

/-- `TemperatureSteady`, L197-206; the weather has been validated. -/
noncomputable def temperatureSteady (c : CablePointer) (u : UnitSystem) (w : ThermalWeather) (current : ℝ) :
    Option ℝ :=
  match ((((TemperatureSolver.new.setCable c).setCurrent current).setUnits u).setWeather (some w)).askTemperature with
  | .ok _ t => t
  | _ => none

/-- `Update` with `UpdateTemperaturePoints`, L208-262. -/
noncomputable def update (s : TransientSolver) : TransientSolver × Bool :=
  if heatValid s.cable s.units s.weather then
    match s.cable, s.weather with
    | some (some k), some w =>
      ({ s with
          points := series k s.units w s.currentStep (s.duration + 1).toNat 0
            (temperatureSteady s.cable s.units w s.currentSteady)
          isUpdated := true }, true)
    | _, _ => ({ s with points := [], isUpdated := false }, false)
  else ({ s with points := [], isUpdated := false }, false)

/-- `PointsTemperature`, L24-32; `none` is a null pointer. -/
noncomputable def askPoints (s : TransientSolver) : TransientSolver × Option (List TemperaturePoint) :=
  if s.isUpdated then (s, some s.points)
  else if s.update.2 then (s.update.1, some s.update.1.points) else (s.update.1, none)

open Classical in
/-- `Validate`, L34-101, the flag. -/
noncomputable def validate (s : TransientSolver) : TransientSolver × Bool :=
  let b1 := decide (¬ s.currentSteady < 0)
  let b2 := decide (¬ s.currentStep < 0)
  let b3 := decide (¬ s.duration < 0)
  let b4 := decide (s.units ≠ .null)
  let b5 := match s.weather with
    | some w => w.validate.1
    | none => false
  (s.update.1, b1 && b2 && b3 && b4 && b5 && s.update.2)

end TransientSolver

end Verif
