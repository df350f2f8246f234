import Verif.DoubleSun
import Verif.Thermal

/-!
# Model of the heat terms, `thermalrating/cable_heat_transfer_solver.cc`, in `double` arithmetic

The functions of `Verif/Thermal.lean` again, with the result of every operation rounded; decimal literals are rounded
too, also those that are exponents.  The functions of the C library are assumed to be faithful only.  `none` stands for
a NaN, and for an infinity from a division by zero.
-/

namespace Verif.Double

open Verif.Units

/-- A C library with `std::pow` for an exponent that is not integral. -/
structure HeatLibrary extends SunLibrary where
  powr : ℝ → ℝ → ℝ
  powr_faithful : ∀ x y, IsDouble x → IsDouble y → 0 ≤ x → 0 < y → Faithful (powr x y) (x ^ y)

namespace Heat

variable (L : HeatLibrary)

open Classical in
/-- `std::pow` with a positive exponent that is not an integer. -/
noncomputable def powFraction (x y : ℝ) : Option ℝ := if x < 0 then none else some (L.powr x y)

open Classical in
/-- A division; none by zero. -/
noncomputable def divFinite (x y : ℝ) : Option ℝ := if y = 0 then none else some (rnd (x / y))

/-- The film temperature, `cable_heat_transfer_solver.cc` L20-22. -/
noncomputable def film (w : ThermalWeather) (t : ℝ) : ℝ := rnd (rnd (t + w.temperatureAir) / 2)

/-- `a * 10^i + b * 10^j * x - c * 10^k * x^2`, the form of L26-28 and L30-32. -/
noncomputable def fit (a : ℝ) (i : ℤ) (b : ℝ) (j : ℤ) (c : ℝ) (k : ℤ) (x : ℝ) : ℝ :=
  rnd (rnd (rnd (rnd a * L.pow 10 i) + rnd (rnd (rnd b * L.pow 10 j) * x)) -
    rnd (rnd (rnd c * L.pow 10 k) * L.pow x 2))

/-- The thermal conductivity of air, L23-35. -/
noncomputable def conductivity (u : UnitSystem) (film : ℝ) : ℝ :=
  match u with
  | .imperial => fit L 7.388 (-3) 2.279 (-5) 1.343 (-9) film
  | .metric => fit L 2.424 (-2) 7.477 (-5) 4.407 (-9) film
  | .null => -999999

/-- `a - b * 10^j * x + c * 10^k * x^2`, the form of the numerators in L40-41 and L44-45. -/
noncomputable def fall (a b : ℝ) (j : ℤ) (c : ℝ) (k : ℤ) (x : ℝ) : ℝ :=
  rnd (rnd (rnd a - rnd (rnd (rnd b * L.pow 10 j) * x)) + rnd (rnd (rnd c * L.pow 10 k) * L.pow x 2))

/-- The density of air, L37-49. -/
noncomputable def density (u : UnitSystem) (elevation film : ℝ) : Option ℝ :=
  match u with
  | .imperial => divFinite (fall L 0.080695 2.901 (-6) 3.7 (-11) elevation) (rnd (1 + rnd (rnd 0.00367 * film)))
  | .metric => divFinite (fall L 1.293 1.525 (-4) 6.379 (-9) elevation) (rnd (1 + rnd (rnd 0.00367 * film)))
  | .null => some (-999999)

/-- The viscosity of air, L51-65. -/
noncomputable def viscosity (u : UnitSystem) (film : ℝ) : Option ℝ :=
  match u with
  | .imperial => (powFraction L (rnd (film + 273)) 1.5).bind fun p =>
      (divFinite (rnd (rnd 0.00353 * p)) (rnd (film + rnd 383.4))).map fun v => rnd (v / 3600)
  | .metric => (powFraction L (rnd (film + 273)) 1.5).bind fun p =>
      divFinite (rnd (rnd (rnd 1.458 * L.pow 10 (-6)) * p)) (rnd (film + rnd 383.4))
  | .null => some (-999999)

/-- The wind direction factor, L208-216. -/
noncomputable def windFactor (angle : ℝ) : ℝ :=
  let a := Sun.toRadians L.toSunLibrary angle
  rnd (rnd (rnd (rnd 1.194 - L.cos a) + rnd (rnd 0.194 * L.cos (rnd (2 * a)))) +
    rnd (rnd 0.368 * L.sin (rnd (2 * a))))

open Classical in
/-- `HeatConvectionForced`, L199-239, given conductivity, density and viscosity, for a cable of diameter `d`. -/
noncomputable def forced (d : ℝ) (w : ThermalWeather) (conductivity density viscosity t : ℝ) : Option ℝ :=
  (divFinite (rnd (rnd (d * density) * w.speedWind)) viscosity).bind fun reynolds =>
  (powFraction L reynolds (rnd 0.52)).bind fun p1 =>
  (powFraction L reynolds (rnd 0.6)).map fun p2 =>
    let f1 := rnd (rnd (rnd (windFactor L w.angleWind * rnd (rnd 1.01 + rnd (rnd 1.35 * p1))) * conductivity) *
      rnd (t - w.temperatureAir))
    let f2 := rnd (rnd (rnd (rnd (windFactor L w.angleWind * rnd 0.754) * p2) * conductivity) *
      rnd (t - w.temperatureAir))
    if f1 ≤ f2 then f2 else f1

/-- The constant of `HeatConvectionNatural`, L244-252. -/
noncomputable def naturalConstant : UnitSystem → ℝ
  | .imperial => rnd 1.825
  | .metric => rnd 3.645
  | .null => -999999

/-- `HeatConvectionNatural`, L241-258, for a unit system. -/
noncomputable def natural (d : ℝ) (u : UnitSystem) (w : ThermalWeather) (density t : ℝ) : Option ℝ :=
  (powFraction L density 0.5).bind fun p1 =>
  (powFraction L d 0.75).bind fun p2 =>
  (powFraction L (rnd (t - w.temperatureAir)) 1.25).map fun p3 =>
    rnd (rnd (rnd (naturalConstant u * p1) * p2) * p3)

open Classical in
/-- The choice at the end of `HeatConvection`, L79-85, as `Heat.larger` in `Verif/Thermal.lean`. -/
noncomputable def larger (natural forced : Option ℝ) : Option ℝ :=
  match natural, forced with
  | none, _ => none
  | some n, none => some (-1 * n)
  | some n, some f => if n < f then some (-1 * f) else some (-1 * n)

open Classical in
/-- `HeatConvection`, `cable_heat_transfer_solver.cc` L17-86. -/
noncomputable def convection (d : ℝ) (u : UnitSystem) (w : ThermalWeather) (t : ℝ) : Option ℝ :=
  if u = .null then some 0
  else
    match density L u w.elevation (film w t) with
    | none => none
    | some r => larger (natural L d u w r t)
        ((viscosity L u (film w t)).bind fun v => forced L d w (conductivity L u (film w t)) r v t)

/-- The constant of `HeatRadiation`, L90-96. -/
noncomputable def radiationConstant : UnitSystem → ℝ
  | .imperial => rnd 1.656
  | .metric => rnd 17.8
  | .null => -999999

/-- `HeatRadiation`, L88-105, for a cable of diameter `d` and emissivity `e`. -/
noncomputable def radiation (d e : ℝ) (u : UnitSystem) (w : ThermalWeather) (t : ℝ) : ℝ :=
  let k1 := rnd (rnd (radiationConstant u * d) * e)
  let k2 := L.pow (rnd (rnd (t + 273) / 100)) 4
  let k3 := L.pow (rnd (rnd (w.temperatureAir + 273) / 100)) 4
  rnd (-1 * k1 * rnd (k2 - k3))

/-- `HeatSolar`, L117-122, for a cable of diameter `d` and absorptivity `a`. -/
noncomputable def solar (d a : ℝ) (w : ThermalWeather) : ℝ := rnd (rnd (a * w.radiationSolar) * d)

/-- The resistive heat of a current, `HeatResistance`, L107-115, given the resistance. -/
noncomputable def resistance (r current : ℝ) : ℝ := rnd (L.pow current 2 * r)

/-- The heat that the steady current has to make up for, `steady_cable_current_solver.cc` L184-186. -/
noncomputable def balance (convection radiation solar : ℝ) : ℝ := -1 * rnd (rnd (convection + radiation) + solar)

open Classical in
/-- The current, `SolveCurrent`, `steady_cable_current_solver.cc` L150-163, given the resistance. -/
noncomputable def current (heat r : ℝ) : ℝ :=
  if heat < 0 then rnd √(rnd (|heat| / r)) * -1 else rnd √(rnd (|heat| / r))

/-- The steady current of a cable of diameter `d`, emissivity `e`, absorptivity `a` and resistance `r`,
`steady_cable_current_solver.cc` L150-186. -/
noncomputable def steady (d e a r : ℝ) (u : UnitSystem) (w : ThermalWeather) (t : ℝ) : Option ℝ :=
  (convection L d u w t).map fun c => current (balance c (radiation L d e u w t) (solar d a w)) r

end Heat

end Verif.Double
