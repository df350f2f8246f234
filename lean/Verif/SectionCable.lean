import Verif.CableModel
import Verif.CableUnitLoad
import Verif.CatenarySolver
import Verif.LineCable

/-!
# Model of `transmissionline/cable_constraint.cc`, `weather_load_case.cc` and the sag-tension half of `line_cable.cc`

`Verif/LineCable.lean` models the connection list of a `LineCable` and keeps its other members as a token; here
they are spelled out.  Pointers to a cable or weather case are modelled by the contents they point to, `none` being
the null pointer; the pointees are assumed to stay alive and unchanged.  Validators return their flag and the
descriptions appended to the message list.  Exact real arithmetic.
-/

namespace Verif

open Classical in
/-- `WeatherLoadCase::Validate`, `weather_load_case.cc` L18-62. -/
noncomputable def WeatherLoadCase.validate (c : WeatherLoadCase) : Bool × List String :=
  let m1 := if c.densityIce < 0 then ["Invalid ice density"] else []
  let m2 := if c.pressureWind < 0 then ["Invalid wind pressure"] else []
  let m3 := if c.temperatureCable < -50 then ["Invalid cable temperature"] else []
  let m4 := if c.thicknessIce < 0 then ["Invalid ice thickness"] else []
  let m := m1 ++ m2 ++ m3 ++ m4
  (m.isEmpty, m)

/-- `CableConditionType`, `include/models/transmissionline/cable_constraint.h` L16-21. -/
inductive CableCondition where
  | null | creep | initial | load
  deriving DecidableEq, Repr

/-- `CableConstraint::LimitType`, `cable_constraint.h` L31-38. -/
inductive LimitType where
  | null | horizontalTension | catenaryConstant | length | sag | supportTension
  deriving DecidableEq, Repr

/-- `CableConstraint`, `cable_constraint.h` L26-77 (without its note). -/
structure CableConstraint where
  caseWeather : Option WeatherLoadCase
  condition : CableCondition
  limit : ℝ
  typeLimit : LimitType

/-- Constructor, `cable_constraint.cc` L6-11. -/
noncomputable def CableConstraint.new : CableConstraint := ⟨none, .null, -999999, .null⟩

/-- Validation of a weather case that may be missing. -/
noncomputable def validateWeather (c : Option WeatherLoadCase) (missing : String) : Bool × List String :=
  match c with
  | none => (false, [missing])
  | some c => c.validate

open Classical in
/-- `CableConstraint::Validate`, `cable_constraint.cc` L15-63. -/
noncomputable def CableConstraint.validate (c : CableConstraint) : Bool × List String :=
  let w := validateWeather c.caseWeather "Invalid weather case"
  let m2 := if c.condition = .null then ["Invalid condition"] else []
  let m3 := if c.limit < 0 then ["Invalid limit"] else []
  let m4 := if c.typeLimit = .null then ["Invalid limit type"] else []
  let m := m2 ++ m3 ++ m4
  (w.1 && m.isEmpty, w.2 ++ m)

/-- The members of `LineCable`, `include/models/transmissionline/line_cable.h`. -/
structure SectionCable where
  cable : Option Cable
  connections : List Connection
  constraint : CableConstraint
  spacing : V3
  weatherCreep : Option WeatherLoadCase
  weatherLoad : Option WeatherLoadCase

namespace SectionCable

/-- Constructor, `line_cable.cc` L17-21. -/
noncomputable def new : SectionCable :=
  ⟨none, [], CableConstraint.new, ⟨-999999, -999999, -999999⟩, none, none⟩

/-- The unit load under the constraint's weather case, `line_cable.cc` L62-67; a null cable or weather case is
UB. -/
noncomputable def loadUnit (c : SectionCable) : Res V3 :=
  match c.cable, c.constraint.caseWeather with
  | some k, some w => (⟨some k.diameter, some k.weightUnit⟩ : UnitLoadSolver).unitCableLoad w
  | _, _ => .ub

/-- The solver of `CatenaryRulingSpan` before it is asked, `line_cable.cc` L71-98 (the limit types with a
solver). -/
noncomputable def tensionSolver (c : SectionCable) (load : V3) : CatenarySolver :=
  let s := ((CatenarySolver.new.setSpacing c.spacing).setValueTarget c.constraint.limit).setWeight load
  match c.constraint.typeLimit with
  | .catenaryConstant => s.setTypeTarget .constant
  | .length => s.setTypeTarget .length
  | .sag => s.setTypeTarget .sag
  | .supportTension =>
    open Classical in
    if c.spacing.z ≤ 0 then (s.setTypeTarget .tension).setPositionTarget 0
    else (s.setTypeTarget .tension).setPositionTarget 1
  | _ => s

/-- `CatenaryRulingSpan`, `line_cable.cc` L56-103. -/
noncomputable def catenaryRulingSpan (c : SectionCable) : Res Catenary3d :=
  match c.loadUnit with
  | .val load =>
    let k := (Catenary3d.new.setSpacing c.spacing).setWeight load
    .val (if c.constraint.typeLimit = .horizontalTension then k.setTension c.constraint.limit
      else k.setTension (c.tensionSolver load).tensionHorizontal.1)
  | .throws => .throws
  | .ub => .ub

/-- The hardware of a connection, `line_cable.cc` L261-263 and its first use: a dead structure or missing hardware
is UB, `at` throws for a bad index. -/
def hardwareOf (heap : Heap ℝ) (c : Connection) : Res HardwareType :=
  match heap c.ptr with
  | none => .ub
  | some s =>
    if validIndex c.attachment s.hardwares.length then
      match s.hardwares[c.attachment.toNat]? with
      | some (some h) => .val h.type
      | _ => .ub
    else .throws

/-- The loop of `ValidateConnections`, `line_cable.cc` L258-287; `i` is the index of the first connection of the
list and `n` the number of all. -/
def connectionMessages (heap : Heap ℝ) (n : Nat) : Nat → List Connection → Res (List String)
  | _, [] => .val []
  | i, c :: cs =>
    match hardwareOf heap c with
    | .val t =>
      let m := if i = 0 ∨ i = n - 1 then
          if t ≠ .deadEnd then ["Terminal line cable connection does not have dead-end type hardware"] else []
        else if t ≠ .suspension then
          ["Interior line cable connection does not have suspension type hardware"] else []
      match connectionMessages heap n (i + 1) cs with
      | .val ms => .val (m ++ ms)
      | .throws => .throws
      | .ub => .ub
    | .throws => .throws
    | .ub => .ub

/-- `ValidateConnections`, `line_cable.cc` L244-293. -/
def validateConnections (heap : Heap ℝ) (cs : List Connection) : Res (Bool × List String) :=
  if cs.length < 2 then .val (false, ["Not enough connections"])
  else
    match connectionMessages heap cs.length 0 cs with
    | .val m => .val (true, m)
    | .throws => .throws
    | .ub => .ub

/-- Validation of the cable, `line_cable.cc` L155-165. -/
noncomputable def validateCable (c : Option Cable) : Bool × List String :=
  match c with
  | none => (false, ["Invalid cable"])
  | some k => k.validate

open Classical in
/-- The first part of `LineCable::Validate`, `line_cable.cc` L147-224: everything before the early return. -/
noncomputable def validateMembers (c : SectionCable) : Bool × List String :=
  let a := validateCable c.cable
  let b := c.constraint.validate
  let m1 := if c.spacing.x ≤ 0 then ["Invalid horizontal ruling span attachment spacing"] else []
  let m2 := if c.spacing.y ≠ 0 then ["Invalid transverse ruling span attachment spacing"] else []
  let m3 := if 2000 < |c.spacing.z| then ["Invalid vertical ruling span attachment spacing"] else []
  let d := validateWeather c.weatherCreep "Invalid creep stretch weathercase"
  let e := validateWeather c.weatherLoad "Invalid load stretch weathercase"
  (a.1 && b.1 && (m1 ++ m2 ++ m3).isEmpty && d.1 && e.1, a.2 ++ b.2 ++ (m1 ++ m2 ++ m3) ++ d.2 ++ e.2)

/-- `LineCable::Validate`, `line_cable.cc` L147-242: the flag of `ValidateConnections` is dropped (L239). -/
noncomputable def validate (heap : Heap ℝ) (c : SectionCable) : Res (Bool × List String) :=
  let a := c.validateMembers
  if a.1 = false then .val a
  else
    match c.catenaryRulingSpan with
    | .val k =>
      match validateConnections heap c.connections with
      | .val m => .val (k.validate.1, a.2 ++ k.validate.2 ++ m.2)
      | .throws => .throws
      | .ub => .ub
    | .throws => .throws
    | .ub => .ub

end SectionCable
end Verif
