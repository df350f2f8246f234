import Mathlib.Algebra.Order.Group.Abs
import Mathlib.Algebra.Order.Field.Basic
import Verif.LineValidate
import Verif.Thermal

/-!
# Numbers that are not numbers

The other files model a `double` by an element of a linear order, which leaves out NaN.  This file models a `double`
by `Dbl K`: an element of the order, or NaN.  All comparisons with NaN are false, and arithmetic with NaN gives NaN
(IEEE 754).  Modelled again with such numbers: the class `Alignment`, the stations of a `TransmissionLine`, and the
validators of the plain data classes.
-/

namespace Verif.NotANumber

/-- A `double`: `none` is NaN. -/
abbrev Dbl (K : Type) := Option K

section Order
variable {K : Type} [LinearOrder K]

/-- The operator `<` of `double`. -/
def lt : Dbl K → Dbl K → Bool
  | some a, some b => decide (a < b)
  | _, _ => false

/-- The operator `<=` of `double`. -/
def le : Dbl K → Dbl K → Bool
  | some a, some b => decide (a ≤ b)
  | _, _ => false

/-- The operator `==` of `double`. -/
def same : Dbl K → Dbl K → Bool
  | some a, some b => decide (a = b)
  | _, _ => false

/-- The search loop of `Alignment::AddPoint` (`alignment.cc` L64-76) and `TransmissionLine::AddLineStructure`
(`transmission_line.cc` L126-138). -/
def searchPos {α : Type} (key : α → Dbl K) (st : Dbl K) : List α → Option Nat
  | [] => some 0
  | q :: qs =>
    if lt st (key q) then some 0
    else if same st (key q) then none
    else (searchPos key st qs).map (· + 1)

namespace Alignment

/-- `Alignment::AddPoint`, `alignment.cc` L62-83. -/
def addPoint (points : List (AlignmentPoint (Dbl K))) (p : AlignmentPoint (Dbl K)) :
    List (AlignmentPoint (Dbl K)) × Int :=
  match searchPos AlignmentPoint.station p.station points with
  | none => (points, -1)
  | some i => (points.insertIdx i p, ((i + 1 : Nat) : Int) - 1)

/-- `Alignment::DeletePoint`, `alignment.cc` L85-96. -/
def deletePoint (points : List (AlignmentPoint (Dbl K))) (index : Int) :
    List (AlignmentPoint (Dbl K)) × Bool :=
  if validIndex index points.length then (points.eraseIdx index.toNat, true) else (points, false)

/-- `Alignment::ModifyPoint`, `alignment.cc` L133-153. -/
def modifyPoint (points : List (AlignmentPoint (Dbl K))) (index : Int) (p : AlignmentPoint (Dbl K)) :
    List (AlignmentPoint (Dbl K)) × Int :=
  if h : validIndex index points.length then
    let cache := points[index.toNat]'(validIndex_toNat h).1
    let points1 := (deletePoint points index).1
    let points2 := addPoint points1 p
    if points2.2 = -1 then ((addPoint points2.1 cache).1, -1) else points2
  else (points, -1)

/-- `Alignment::IsValidStation`, `alignment.cc` L124-131; undefined for an alignment without points. -/
def isValidStation (points : List (AlignmentPoint (Dbl K))) (s : Dbl K) : Res Bool :=
  match points.head?, points.getLast? with
  | some f, some b => .val (le f.station s && le s b.station)
  | _, _ => .ub

/-- State after one call. -/
def apply (points : List (AlignmentPoint (Dbl K))) : Verif.Alignment.Op (Dbl K) → List (AlignmentPoint (Dbl K))
  | .add p => (addPoint points p).1
  | .delete i => (deletePoint points i).1
  | .modify i p => (modifyPoint points i p).1

/-- State after a history of calls on a newly constructed alignment. -/
def run (ops : List (Verif.Alignment.Op (Dbl K))) : List (AlignmentPoint (Dbl K)) := ops.foldl apply []

end Alignment
end Order

section Line
variable {K : Type} [Field K] [LinearOrder K] [IsStrictOrderedRing K]

/-- The part of a `TransmissionLine` that stations decide: the alignment and the stations of the structures in their
order.  Cables are left out (they only depend on which structures are kept). -/
structure Line (K : Type) where
  points : List (AlignmentPoint (Dbl K))
  stations : List (Dbl K)
  deriving DecidableEq

namespace Line

/-- `TransmissionLine::AddAlignmentPoint`, `transmission_line.cc` L57-61. -/
def addPoint (l : Line K) (p : AlignmentPoint (Dbl K)) : Line K × Int :=
  let r := Alignment.addPoint l.points p
  ({ l with points := r.1 }, r.2)

/-- `TransmissionLine::DeleteInvalidLineStructures`, `transmission_line.cc` L599-618; `front()` and `back()` of an
alignment without points are undefined. -/
def deleteInvalid (l : Line K) : Res (Line K) :=
  match l.points.head?, l.points.getLast? with
  | some f, some b =>
    .val { l with stations := l.stations.filter fun s => !(lt s f.station || lt b.station s) }
  | _, _ => .ub

/-- Whether an alignment point is the first or the last, `transmission_line.cc` L151-156 and L257-262. -/
def isBoundary (l : Line K) (index : Int) : Bool :=
  decide (index = 0) || decide (index = (l.points.length : Int) - 1)

/-- `TransmissionLine::DeleteAlignmentPoint`, `transmission_line.cc` L147-167. -/
def deletePoint (l : Line K) (index : Int) : Res (Line K) :=
  let r := Alignment.deletePoint l.points index
  let l1 := { l with points := r.1 }
  if r.2 && l.isBoundary index then l1.deleteInvalid else .val l1

/-- `TransmissionLine::ModifyAlignmentPoint`, `transmission_line.cc` L252-275. -/
def modifyPoint (l : Line K) (index : Int) (p : AlignmentPoint (Dbl K)) : Res (Line K) :=
  let r := Alignment.modifyPoint l.points index p
  let l1 := { l with points := r.1 }
  if r.2 ≠ -1 && l.isBoundary index then l1.deleteInvalid else .val l1

/-- `TransmissionLine::AddLineStructure`, `transmission_line.cc` L117-145: the new line and the returned index. -/
def addStructure (l : Line K) (s : Dbl K) : Res (Line K × Int) :=
  match Alignment.isValidStation l.points s with
  | .ub => .ub
  | .throws => .throws
  | .val false => .val (l, -1)
  | .val true =>
    match searchPos id s l.stations with
    | none => .val (l, -1)
    | some i => .val ({ l with stations := l.stations.insertIdx i s }, (i : Int))

/-- `TransmissionLine::DeleteLineStructure`, `transmission_line.cc` L184-201. -/
def deleteStructure (l : Line K) (index : Int) : Line K :=
  if validIndex index l.stations.length then { l with stations := l.stations.eraseIdx index.toNat } else l

/-- The station behind, `transmission_line.cc` L311-317. -/
def back (l : Line K) (f : AlignmentPoint (Dbl K)) (i : ℕ) : Dbl K :=
  if i = 0 then f.station.map (· - 1) else (l.stations[i - 1]?).getD none

/-- The station ahead, `transmission_line.cc` L319-326. -/
def ahead (l : Line K) (b : AlignmentPoint (Dbl K)) (i : ℕ) : Dbl K :=
  if i + 1 = l.stations.length then b.station.map (· + 1) else (l.stations[i + 1]?).getD none

/-- `TransmissionLine::ModifyLineStructure`, `transmission_line.cc` L302-346: the new line and the returned flag. -/
def modifyStructure (l : Line K) (index : Int) (s : Dbl K) : Res (Line K × Bool) :=
  if validIndex index l.stations.length then
    match l.points.head?, l.points.getLast? with
    | some f, some b =>
      if le s (l.back f index.toNat) || le (l.ahead b index.toNat) s then .val (l, false)
      else .val ({ l with stations := l.stations.set index.toNat s }, true)
    | _, _ => .ub
  else .val (l, false)

/-- Editing calls. -/
inductive Op (K : Type) where
  | addPoint (p : AlignmentPoint (Dbl K))
  | deletePoint (index : Int)
  | modifyPoint (index : Int) (p : AlignmentPoint (Dbl K))
  | addStructure (s : Dbl K)
  | deleteStructure (index : Int)
  | modifyStructure (index : Int) (s : Dbl K)

/-- The line after one call. -/
def apply (l : Line K) : Op K → Res (Line K)
  | .addPoint p => .val (l.addPoint p).1
  | .deletePoint i => l.deletePoint i
  | .modifyPoint i p => l.modifyPoint i p
  | .addStructure s => match l.addStructure s with | .val r => .val r.1 | .throws => .throws | .ub => .ub
  | .deleteStructure i => .val (l.deleteStructure i)
  | .modifyStructure i s => match l.modifyStructure i s with | .val r => .val r.1 | .throws => .throws | .ub => .ub

/-- The line after a history of calls on a new line; undefined as soon as one call is. -/
def run : Line K → List (Op K) → Res (Line K)
  | l, [] => .val l
  | l, o :: os => match l.apply o with | .val l' => run l' os | .throws => .throws | .ub => .ub

end Line
end Line

/-! ### Validators of the plain data classes -/

section Validators

/-- A message for a failed test. -/
def issue (b : Bool) (m : String) : List String := if b then [m] else []

/-- `AlignmentPoint::Validate`, `alignment.cc` L17-52. -/
noncomputable def validatePoint (p : AlignmentPoint (Dbl ℝ)) : Bool × List String :=
  let m := issue (lt p.elevation (some 0)) "Invalid elevation"
    ++ issue (lt (some 360) (p.rotation.map (|·|))) "Invalid rotation"
    ++ issue (lt p.station (some 0)) "Invalid station"
  (m.isEmpty, m)

/-- `Alignment::Validate`, `alignment.cc` L155-179. -/
noncomputable def validateAlignment (ps : List (AlignmentPoint (Dbl ℝ))) : Bool × List String :=
  (ps.all fun p => (validatePoint p).1, ps.flatMap fun p => (validatePoint p).2)

/-- `WeatherLoadCase`, numeric members. -/
structure Weather where
  densityIce : Dbl ℝ
  pressureWind : Dbl ℝ
  temperatureCable : Dbl ℝ
  thicknessIce : Dbl ℝ

/-- `WeatherLoadCase::Validate`, `weather_load_case.cc` L18-62. -/
noncomputable def Weather.validate (c : Weather) : Bool × List String :=
  let m := issue (lt c.densityIce (some 0)) "Invalid ice density"
    ++ issue (lt c.pressureWind (some 0)) "Invalid wind pressure"
    ++ issue (lt c.temperatureCable (some (-50))) "Invalid cable temperature"
    ++ issue (lt c.thicknessIce (some 0)) "Invalid ice thickness"
  (m.isEmpty, m)

/-- `CableState` and the load of `CableStretchState`. -/
structure State where
  temperature : Dbl ℝ
  type : PolynomialType
  load : Dbl ℝ

/-- `CableState::Validate`, `cable_state.cc` L14-41. -/
noncomputable def State.validateState (s : State) : Bool × List String :=
  let m := issue (lt s.temperature (some (-100))) "Invalid temperature"
    ++ issue (decide (s.type = .null)) "Invalid polynomial type"
  (m.isEmpty, m)

/-- `CableStretchState::Validate`, `cable_state.cc` L50-70. -/
noncomputable def State.validateStretch (s : State) : Bool × List String :=
  let m2 := issue (lt s.load (some 0)) "Invalid stretch load"
  (m2.isEmpty, s.validateState.2 ++ m2)

/-- `CableConstraint` with its weather case. -/
structure Constraint where
  caseWeather : Option Weather
  condition : CableCondition
  limit : Dbl ℝ
  typeLimit : LimitType

/-- `CableConstraint::Validate`, `cable_constraint.cc` L15-63. -/
noncomputable def Constraint.validate (c : Constraint) : Bool × List String :=
  let w := match c.caseWeather with
    | none => (false, ["Invalid weather case"])
    | some w => w.validate
  let m := issue (decide (c.condition = .null)) "Invalid condition"
    ++ issue (lt c.limit (some 0)) "Invalid limit"
    ++ issue (decide (c.typeLimit = .null)) "Invalid limit type"
  (w.1 && m.isEmpty, w.2 ++ m)

/-- `Hardware::Validate`, `hardware.cc` L17-62. -/
noncomputable def validateHardware (type : HardwareType) (area length weight : Dbl ℝ) : Bool × List String :=
  let m := issue (lt area (some 0)) "Invalid cross sectional area"
    ++ issue (lt length (some 0)) "Invalid length"
    ++ issue (decide (type = .null)) "Invalid type"
    ++ issue (lt weight (some 0)) "Invalid weight"
  (m.isEmpty, m)

/-- `Structure::Validate`, `structure.cc` L44-90, with `StructureAttachment::Validate`, L15-33. -/
noncomputable def validateStructure (t : Structure (Dbl ℝ)) : Bool × List String :=
  let m1 := if t.attachments.length = 0 then ["No attachments defined"]
    else t.attachments.flatMap fun a =>
      issue (lt a.offsetVerticalTop (some 0)) "Invalid vertical offset from top of structure"
  let m2 := issue (le t.height (some 0)) "Invalid height"
  let m3 := t.attachments.flatMap fun a => issue (lt t.height a.offsetVerticalTop)
    "Invalid attachment vertical offset. Exceeds structure height"
  (decide (t.attachments.length ≠ 0) && m2.isEmpty && m3.isEmpty, m1 ++ m2 ++ m3)

/-- `ThermalRatingWeather`, numeric members. -/
structure ThermalWeather where
  angleWind : Dbl ℝ
  elevation : Dbl ℝ
  radiationSolar : Dbl ℝ
  speedWind : Dbl ℝ
  temperatureAir : Dbl ℝ

/-- `ThermalRatingWeather::Validate`, `thermal_rating_weather.cc` L17-71. -/
noncomputable def ThermalWeather.validate (w : ThermalWeather) : Bool × List String :=
  let m := issue (lt w.angleWind (some 0) || lt (some 90) w.angleWind) "Invalid angle between wind and cable"
    ++ issue (lt w.elevation (some 0)) "Invalid elevation"
    ++ issue (lt w.radiationSolar (some 0)) "Invalid solar radiation"
    ++ issue (lt w.speedWind (some 0)) "Invalid wind speed"
    ++ issue (lt w.temperatureAir (some (-100)) || lt (some 100) w.temperatureAir) "Invalid air temperature"
  (m.isEmpty, m)

/-- The numbers that `Cable::Validate`, `cable.cc` L48-89, looks at. -/
noncomputable def validateCable (area diameter weight : Dbl ℝ) : Bool × List String :=
  let m := issue (lt area (some 0)) "Invalid physical area"
    ++ issue (le diameter (some 0)) "Invalid diameter"
    ++ issue (le weight (some 0)) "Invalid unit weight"
  (m.isEmpty, m)

end Validators
end Verif.NotANumber
