import Verif.CableModel
import Verif.Vector

/-!
# Model of `sagtension/cable_component_elongation_model.cc`

Exact real arithmetic; a quotient by zero, which C++ turns into an infinity or NaN, is zero here, so theorems
assume the moduli and scales they divide by to be nonzero.

The object keeps pointers to its component, state, stretch state and reference temperature.  The model keeps
the values found there when the pointer was set.  The owner of the pointed-to states
(`cable_elongation_model.cc`) always sets a pointer again before the next query when it has changed the value
behind it, so the difference cannot be seen through it.  The polynomials cache their derivative; as their
answers do not depend on that cache (C34), they are functions here.
-/

namespace Verif

open Verif.Poly

/-- The three points of `PointsRegions()`. -/
@[ext] structure Regions where
  unloaded : V2
  start : V2
  stop : V2

namespace CableComponent

variable (c : CableComponent)

/-- `Polynomial::X(load, 2, 0.1)` as called in `StrainPolynomial` L524-527, for nonempty coefficients. -/
noncomputable def polynomialX (cs : List ℝ) (load : ℝ) : ℝ :=
  match ((Obj.new cs).solveX load 2 0.1).1 with
  | .val x => x
  | _ => 0

/-- `StrainThermal(temperature)`, `cable_component_elongation_model.cc` L533-539. -/
def thermal (reference temperature : ℝ) : ℝ := c.expansion * (temperature - reference)

/-- `StrainPolynomial`, L519-531, with `ConvertToStrain`, L252-259. -/
noncomputable def strainPolynomial (cs : List ℝ) (thermal load : ℝ) : ℝ :=
  polynomialX cs load * c.scaleX + thermal

/-- `LoadPolynomial`, L337-348, with `ConvertToStrainPolynomial`, L261-267. -/
noncomputable def loadPolynomial (cs : List ℝ) (thermal strain : ℝ) : ℝ :=
  evalY cs ((strain - thermal) / c.scaleX) * c.scaleY

/-- `SlopePolynomial`, L437-452. -/
noncomputable def slopePolynomial (cs : List ℝ) (thermal strain : ℝ) : ℝ :=
  evalY (derivCoefficients cs) ((strain - thermal) / c.scaleX) * (c.scaleY / c.scaleX)

open Classical in
/-- `UpdateModulusExtrapolate`, L562-608, for one polynomial.  It is called when the component is set and
depends on nothing else, so it is a function of the component. -/
noncomputable def modulusOf (cs : List ℝ) (limit : ℝ) : ℝ :=
  if cs = [] then -999999
  else
    let slope := c.slopePolynomial cs 0 (c.strainPolynomial cs 0 limit)
    if slope < 100000 then 100000 else slope

/-- The extrapolation modulus of a polynomial type (`nullptr` for `kNull` is never used). -/
noncomputable def modulusExtrapolate : PolynomialType → ℝ
  | .creep => c.modulusOf c.creep c.limitCreep
  | .loadStrain => c.modulusOf c.loadStrain c.limitLoadStrain
  | .null => -999999

/-- `LoadLinearExtension`, L329-335. -/
noncomputable def loadLinear (p : V2) (slope strain : ℝ) : ℝ := p.y + (strain - p.x) * slope

/-- `StrainLinearExtension`, L511-517. -/
noncomputable def strainLinear (p : V2) (slope load : ℝ) : ℝ := p.x + (load - p.y) / slope

/-- `PointsRegions(polynomial, …)`, L350-386, given the thermal strain of the temperature. -/
noncomputable def regions (cs : List ℝ) (thermal limit loadStretch : ℝ) : Regions :=
  let stop : V2 := ⟨c.strainPolynomial cs thermal limit, limit⟩
  let start : V2 := ⟨c.strainPolynomial cs thermal loadStretch, loadStretch⟩
  ⟨⟨strainLinear start c.modulusTension 0, 0⟩, start, stop⟩

open Classical in
/-- `Load(type, points, thermal, strain)`, L273-327. -/
noncomputable def load (type : PolynomialType) (r : Regions) (thermal strain : ℝ) : ℝ :=
  if strain < r.unloaded.x then loadLinear r.unloaded c.modulusCompression strain
  else if r.unloaded.x ≤ strain ∧ strain ≤ r.start.x then loadLinear r.start c.modulusTension strain
  else if r.start.x < strain ∧ strain < r.stop.x then
    match c.coefficients type with
    | some cs => c.loadPolynomial cs thermal strain
    | none => -999999
  else if r.stop.x ≤ strain then
    if type = .null then -999999 else loadLinear r.stop (c.modulusExtrapolate type) strain
  else -999999

open Classical in
/-- `Slope(type, points, thermal, strain)`, L388-435. -/
noncomputable def slope (type : PolynomialType) (r : Regions) (thermal strain : ℝ) : ℝ :=
  if strain < r.unloaded.x then c.modulusCompression
  else if r.unloaded.x ≤ strain ∧ strain ≤ r.start.x then c.modulusTension
  else if r.start.x < strain ∧ strain < r.stop.x then
    match c.coefficients type with
    | some cs => c.slopePolynomial cs thermal strain
    | none => -999999
  else if r.stop.x ≤ strain then
    if type = .null then -999999 else c.modulusExtrapolate type
  else -999999

open Classical in
/-- `Strain(type, points, thermal, load)`, L454-509. -/
noncomputable def strain (type : PolynomialType) (r : Regions) (thermal load : ℝ) : ℝ :=
  if load < r.unloaded.y then strainLinear r.unloaded c.modulusCompression load
  else if r.unloaded.y ≤ load ∧ load ≤ r.start.y then strainLinear r.start c.modulusTension load
  else if r.start.y < load ∧ load < r.stop.y then
    match c.coefficients type with
    | some cs => c.strainPolynomial cs thermal load
    | none => -999999
  else if r.stop.y ≤ load then
    if type = .null then -999999 else strainLinear r.stop (c.modulusExtrapolate type) load
  else -999999

/-- Loop variables of `UpdateStretch`, L723-797. -/
structure StretchSearch where
  left : V2
  right : V2
  current : V2
  loadTo : ℝ
  iter : ℕ

open Classical in
/-- One pass of the loop of `UpdateStretch`, L756-796. -/
noncomputable def StretchSearch.step (loadFrom loadTo : ℝ → ℝ) (s : StretchSearch) : StretchSearch :=
  let slopeLine := (s.right.y - s.left.y) / (s.right.x - s.left.x)
  let x := s.left.x + (0 - s.left.y) / slopeLine
  let current : V2 := ⟨x, loadTo x - loadFrom x⟩
  let s := { s with current := current, loadTo := loadTo x, iter := s.iter + 1 }
  if current.x < s.left.x then { s with right := s.left, left := current }
  else if s.left.x < current.x ∧ current.x < s.right.x then
    if current.y < 0 then { s with right := current }
    else if 0 < current.y then { s with left := current }
    else s
  else if s.right.x < current.x then { s with left := s.right, right := current }
  else s

open Classical in
/-- The loop of `UpdateStretch`, L754-797; `fuel` is `101 - iter`. -/
noncomputable def stretchLoop (loadFrom loadTo : ℝ → ℝ) : ℕ → StretchSearch → StretchSearch
  | 0, s => s
  | fuel + 1, s =>
    if 0.01 < |s.current.y - 0| then stretchLoop loadFrom loadTo fuel (s.step loadFrom loadTo) else s

/-- The transfer of the stretch load between polynomial types, L660-806: the new stretch load, or nothing if
the iteration fails (L803-805). -/
noncomputable def transferStretch (thermal : ℝ) (rFrom rTo : Regions) (tFrom tTo : PolynomialType) (l : ℝ) :
    Option ℝ :=
  let point : V2 := ⟨c.strain tFrom rFrom thermal l, l⟩
  let loadFrom := loadLinear point c.modulusTension
  let loadTo := c.load tTo rTo thermal
  let left : V2 := ⟨point.x, loadTo point.x - loadFrom point.x⟩
  let right : V2 := ⟨point.x + 0.001, loadTo (point.x + 0.001) - loadFrom (point.x + 0.001)⟩
  let s := stretchLoop loadFrom loadTo 101 ⟨left, right, ⟨-999999, -999999⟩, loadTo right.x, 0⟩
  if s.iter < 100 then some s.loadTo else none

end CableComponent

/-- `CableComponentElongationModel`: the values behind its pointers and its cached data
(`include/models/sagtension/cable_component_elongation_model.h`).  `strain_thermal_stretch_` and the stretch
region points are only used within `UpdateStretch`. -/
structure ComponentModel where
  component : Option CableComponent
  state : Option CableState
  stretch : Option CableStretchState
  reference : Option ℝ
  loadStretch : ℝ
  thermalState : ℝ
  points : Regions
  isUpdatedState : Bool
  isUpdatedStretch : Bool

namespace ComponentModel

/-- Three default points, `std::vector<Point2d<double>>(3)`, L44. -/
noncomputable def noRegions : Regions := ⟨⟨-999999, -999999⟩, ⟨-999999, -999999⟩, ⟨-999999, -999999⟩⟩

/-- Constructor, `cable_component_elongation_model.cc` L10-24 (`points_state_` is empty, and not read before
it is filled). -/
noncomputable def new : ComponentModel :=
  ⟨none, none, none, none, -999999, -999999, noRegions, false, false⟩

/-- `set_component_cable`, L192-216. -/
def setComponent (m : ComponentModel) (c : Option CableComponent) : ComponentModel :=
  { m with component := c, isUpdatedStretch := false, isUpdatedState := false }

/-- `set_state`, L218-222. -/
def setState (m : ComponentModel) (s : Option CableState) : ComponentModel :=
  { m with state := s, isUpdatedState := false }

/-- `set_state_stretch`, L224-230. -/
def setStretch (m : ComponentModel) (s : Option CableStretchState) : ComponentModel :=
  { m with stretch := s, isUpdatedStretch := false, isUpdatedState := false }

/-- `set_temperature_reference`, L240-246. -/
def setReference (m : ComponentModel) (t : Option ℝ) : ComponentModel :=
  { m with reference := t, isUpdatedStretch := false, isUpdatedState := false }

open Classical in
/-- `UpdateStretch`, L644-807.  `X` throws on empty coefficients (`.at(0)`). -/
noncomputable def updateStretch (m : ComponentModel) (c : CableComponent) (t : ℝ) (s : CableState)
    (ss : CableStretchState) : Outcome ComponentModel Bool :=
  if ss.load = 0 then .ok { m with loadStretch := 0 } true
  else if s.type = ss.type then .ok { m with loadStretch := ss.load } true
  else if c.creep = [] ∨ c.loadStrain = [] then .throws m
  else
    let thermal := c.thermal t ss.temperature
    let rCreep := c.regions c.creep thermal c.limitCreep 0
    let rLoad := c.regions c.loadStrain thermal c.limitLoadStrain 0
    let rOf : PolynomialType → Option Regions
      | .creep => some rCreep
      | .loadStrain => some rLoad
      | .null => none
    match rOf ss.type, rOf s.type with
    | some rFrom, some rTo =>
      match c.transferStretch thermal rFrom rTo ss.type s.type ss.load with
      | some l => .ok { m with loadStretch := l } true
      | none => .ok { m with loadStretch := -999999 } false
    | _, _ => .ok m false

/-- `UpdateState`, L610-632: a null polynomial is dereferenced for `kNull`. -/
noncomputable def updateState (m : ComponentModel) (c : CableComponent) (t : ℝ) (s : CableState) :
    Outcome ComponentModel Bool :=
  match c.coefficients s.type, c.limit s.type with
  | some cs, some limit =>
    if cs = [] then .throws m
    else
      let thermal := c.thermal t s.temperature
      .ok { m with thermalState := thermal, points := c.regions cs thermal limit m.loadStretch } true
  | _, _ => .ub

/-- The second half of `Update`, L550-559. -/
noncomputable def finishUpdate (m : ComponentModel) (c : CableComponent) (t : ℝ) (s : CableState) :
    Outcome ComponentModel Bool :=
  match m.updateState c t s with
  | .ok m true => .ok { m with isUpdatedStretch := true, isUpdatedState := true } true
  | .ok m false => .ok { m with isUpdatedStretch := true } false
  | .throws m => .throws { m with isUpdatedStretch := true }
  | .ub => .ub

/-- `Update`, L541-560, when no pointer is null. -/
noncomputable def updateWith (m : ComponentModel) (c : CableComponent) (t : ℝ) (s : CableState)
    (ss : CableStretchState) : Outcome ComponentModel Bool :=
  match (if m.isUpdatedStretch = false then m.updateStretch c t s ss else .ok m true) with
  | .ok m true => m.finishUpdate c t s
  | o => o

/-- `IsUpdated`/`Update`, L269-271 and L541-560.  Whenever a pointer is null some flag is not set, and the
pointer is then dereferenced. -/
noncomputable def update (m : ComponentModel) : Outcome ComponentModel Bool :=
  if m.isUpdatedState = true ∧ m.isUpdatedStretch = true then .ok m true
  else
    match m.component, m.reference, m.state, m.stretch with
    | some c, some t, some s, some ss => m.updateWith c t s ss
    | _, _, _, _ => .ub

/-- A query: update, then read; `-999999` if the update fails. -/
noncomputable def query {A : Type} (fail : A) (body : CableComponent → CableState → ComponentModel → A)
    (m : ComponentModel) : Outcome ComponentModel A :=
  match m.update with
  | .ok m' true =>
    match m'.component, m'.state with
    | some c, some s => .ok m' (body c s m')
    | _, _ => .ub
  | .ok m' false => .ok m' fail
  | .throws m' => .throws m'
  | .ub => .ub

/-- `Load(strain)`, L29-38. -/
noncomputable def load (x : ℝ) : ComponentModel → Outcome ComponentModel ℝ :=
  query (-999999) fun c s m => c.load s.type m.points m.thermalState x

/-- `PointsRegions()`, L40-48. -/
noncomputable def pointsRegions : ComponentModel → Outcome ComponentModel Regions :=
  query noRegions fun _ _ m => m.points

/-- `Slope(strain)`, L50-59. -/
noncomputable def slope (x : ℝ) : ComponentModel → Outcome ComponentModel ℝ :=
  query (-999999) fun c s m => c.slope s.type m.points m.thermalState x

/-- `Strain(load)`, L61-70. -/
noncomputable def strain (l : ℝ) : ComponentModel → Outcome ComponentModel ℝ :=
  query (-999999) fun c s m => c.strain s.type m.points m.thermalState l

/-- `StrainThermal()`, L72-79. -/
noncomputable def strainThermal : ComponentModel → Outcome ComponentModel ℝ :=
  query (-999999) fun _ _ m => m.thermalState

open Classical in
/-- `ValidatePolynomialOrigin`, L809-852, one polynomial, with warnings: the strain at zero load must be at
most 0.0001 in size. -/
noncomputable def originOk (c : CableComponent) (cs : List ℝ) : Bool :=
  let strain := c.strainPolynomial cs 0 0
  !(decide (strain < -0.001) || decide (strain < -0.0001) || decide (0.001 < strain) || decide (0.0001 < strain))

open Classical in
/-- `ValidatePolynomialShape`, L854-948, one polynomial, with warnings.  `iter / 50` is an integer division
(L878-879, L916-917), and the upper end of the range is a load (L873, L911). -/
noncomputable def shapeOk (c : CableComponent) (cs : List ℝ) (limit : ℝ) : Bool :=
  (List.range 50).all fun iter =>
    let min := c.strainPolynomial cs 0 0
    let strain := min + ((iter / 50 : ℕ) : ℝ) * (limit - min)
    let slope := c.slopePolynomial cs 0 strain
    !decide (slope < 0) && !decide (c.modulusTension < slope)

open Classical in
/-- `Validate(is_included_warnings)`, L81-185: the flag. -/
noncomputable def validate (warnings : Bool) (m : ComponentModel) : Outcome ComponentModel Bool :=
  match m.component, m.state, m.stretch, m.reference with
  | some c, some s, some ss, some t =>
    if c.validate.1 = true ∧ s.validate.1 = true ∧ ss.validate.1 = true ∧ ¬ t < -100 then
      match m.update with
      | .ok m' true =>
        .ok m' (decide (c.creep.length = 5) && decide (c.loadStrain.length = 5) &&
          (!warnings || (originOk c c.creep && originOk c c.loadStrain)) &&
          (!warnings || (shapeOk c c.creep c.limitCreep && shapeOk c c.loadStrain c.limitLoadStrain)))
      | .ok m' false => .ok m' false
      | .throws m' => .throws m'
      | .ub => .ub
    else .ok m false
  | _, _, _, _ => .ok m false

/-- The calls a user can make. -/
inductive Call where
  | setComponent (c : Option CableComponent)
  | setState (s : Option CableState)
  | setStretch (s : Option CableStretchState)
  | setReference (t : Option ℝ)
  | load (x : ℝ)
  | slope (x : ℝ)
  | strain (l : ℝ)
  | strainThermal
  | pointsRegions
  | validate (warnings : Bool)

/-- The object after a call; nothing after undefined behaviour. -/
noncomputable def Call.next : Call → ComponentModel → Option ComponentModel
  | .setComponent c, m => some (m.setComponent c)
  | .setState s, m => some (m.setState s)
  | .setStretch s, m => some (m.setStretch s)
  | .setReference t, m => some (m.setReference t)
  | .load x, m => (m.load x).state?
  | .slope x, m => (m.slope x).state?
  | .strain l, m => (m.strain l).state?
  | .strainThermal, m => m.strainThermal.state?
  | .pointsRegions, m => m.pointsRegions.state?
  | .validate w, m => (m.validate w).state?

/-- The object after a list of calls, if none of them runs into undefined behaviour. -/
noncomputable def run : ComponentModel → List Call → Option ComponentModel
  | m, [] => some m
  | m, k :: ks => (k.next m).bind fun m' => run m' ks

end ComponentModel

end Verif
