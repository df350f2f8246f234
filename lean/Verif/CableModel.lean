import Verif.Polynomial

/-!
# Model of `transmissionline/cable.cc`, `sagtension/sag_tension_cable.cc` and `sagtension/cable_state.cc`

`SagTensionCable` is a view of a `Cable` through pointers; the pointed-to cable is assumed to stay alive and
unchanged while views of it are in use, so the view is the cable itself.  Not modelled: a view without a
cable.
-/

namespace Verif

/-- `SagTensionCableComponent::PolynomialType`, `include/models/sagtension/sag_tension_cable.h` L20-24. -/
inductive PolynomialType where
  | null
  | creep
  | loadStrain
  deriving DecidableEq, Repr

/-- `CableComponent`, `include/models/transmissionline/cable.h` L37-84. -/
structure CableComponent where
  capacityHeat : ℝ
  expansion : ℝ
  creep : List ℝ
  loadStrain : List ℝ
  limitCreep : ℝ
  limitLoadStrain : ℝ
  modulusCompression : ℝ
  modulusTension : ℝ
  scaleX : ℝ
  scaleY : ℝ

/-- `Cable::ResistancePoint`, `include/models/transmissionline/cable.h` L97-105. -/
structure ResistancePoint where
  resistance : ℝ
  temperature : ℝ

/-- `Cable`, `include/models/transmissionline/cable.h` L126-173 (without its name). -/
structure Cable where
  absorptivity : ℝ
  areaPhysical : ℝ
  core : CableComponent
  shell : CableComponent
  diameter : ℝ
  emissivity : ℝ
  resistances : List ResistancePoint
  strengthRated : ℝ
  temperatureProperties : ℝ
  weightUnit : ℝ

namespace CableComponent

/-- `coefficients_polynomial`, `sag_tension_cable.cc` L127-136; null pointer for `kNull`. -/
def coefficients (c : CableComponent) : PolynomialType → Option (List ℝ)
  | .creep => some c.creep
  | .loadStrain => some c.loadStrain
  | .null => none

/-- `load_limit_polynomial`, `sag_tension_cable.cc` L142-151; null pointer for `kNull`. -/
def limit (c : CableComponent) : PolynomialType → Option ℝ
  | .creep => some c.limitCreep
  | .loadStrain => some c.limitLoadStrain
  | .null => none

/-- `IsEnabled` / `UpdateIsEnabled`, `sag_tension_cable.cc` L13-15 and L183-213: both polynomials have a
coefficient that is not zero. -/
def Enabled (c : CableComponent) : Prop := (∃ a ∈ c.creep, a ≠ 0) ∧ ∃ a ∈ c.loadStrain, a ≠ 0

open Classical in
/-- `SagTensionCableComponent::Validate`, `sag_tension_cable.cc` L17-120, for a non-null component: flag and
messages (the call of `CableComponent::Validate`, L34, does nothing). -/
noncomputable def validate (c : CableComponent) : Bool × List String :=
  let m1 := if c.expansion ≤ -0.005 ∨ 0.005 < c.expansion then ["Invalid thermal expansion coefficient"] else []
  let m2 := if c.creep.length ≠ 5 then ["Invalid creep coefficients"] else []
  let m3 := if c.loadStrain.length ≠ 5 then ["Invalid load-strain coefficients"] else []
  let m4 := if c.limitCreep < 0 then ["Invalid creep polynomial limit"] else []
  let m5 := if c.limitLoadStrain < 0 then ["Invalid load-strain polynomial limit"] else []
  let m6 := if c.modulusCompression < 0 then ["Invalid compression elastic area modulus"] else []
  let m7 := if c.modulusTension < 0 then ["Invalid tension elastic area modulus"] else []
  let m8 := if c.scaleX < 0 then ["Invalid scaling factor for polynomial x-axis"] else []
  let m9 := if c.scaleY < 0 then ["Invalid scaling factor for polynomial y-axis"] else []
  let m := m1 ++ m2 ++ m3 ++ m4 ++ m5 ++ m6 ++ m7 ++ m8 ++ m9
  (m.isEmpty, m)

end CableComponent

namespace Cable

open Classical in
/-- `Cable::Validate`, `cable.cc` L48-89 (its calls of `CableComponent::Validate` do nothing). -/
noncomputable def validate (k : Cable) : Bool × List String :=
  let m1 := if k.areaPhysical < 0 then ["Invalid physical area"] else []
  let m2 := if k.diameter ≤ 0 then ["Invalid diameter"] else []
  let m3 := if k.weightUnit ≤ 0 then ["Invalid unit weight"] else []
  let m := m1 ++ m2 ++ m3
  (m.isEmpty, m)

open Classical in
/-- `SagTensionCable::Validate`, `sag_tension_cable.cc` L239-294, for a non-null cable. -/
noncomputable def validateSagTension (k : Cable) : Bool × List String :=
  let m1 := k.validate.2
  let m2 := if k.strengthRated < 0 then ["Invalid rated strength"] else []
  let m3 := if k.temperatureProperties < 0 then ["Invalid component properties temperature"] else []
  let m4 := if k.core.Enabled then k.core.validate.2 else []
  let m5 := if k.shell.Enabled then k.shell.validate.2 else []
  let m := m1 ++ m2 ++ m3 ++ m4 ++ m5
  (m.isEmpty, m)

end Cable

/-- `CableState`, `include/models/sagtension/cable_state.h`. -/
structure CableState where
  temperature : ℝ
  type : PolynomialType

/-- `CableStretchState`, `include/models/sagtension/cable_state.h`. -/
structure CableStretchState where
  temperature : ℝ
  type : PolynomialType
  load : ℝ

/-- Constructor, `cable_state.cc` L6-9. -/
noncomputable def CableState.new : CableState := ⟨-999999, .null⟩

/-- Constructor, `cable_state.cc` L43-45. -/
noncomputable def CableStretchState.new : CableStretchState := ⟨-999999, .null, -999999⟩

open Classical in
/-- `CableState::Validate`, `cable_state.cc` L14-41: flag and messages. -/
noncomputable def CableState.validate (s : CableState) : Bool × List String :=
  let m1 := if s.temperature < -100 then ["Invalid temperature"] else []
  let m2 := if s.type = .null then ["Invalid polynomial type"] else []
  let m := m1 ++ m2
  (m.isEmpty, m)

/-- The parent part of a stretch state. -/
def CableStretchState.base (s : CableStretchState) : CableState := ⟨s.temperature, s.type⟩

open Classical in
/-- `CableStretchState::Validate`, `cable_state.cc` L50-70: the parent's messages are kept but its flag is
dropped (L58). -/
noncomputable def CableStretchState.validate (s : CableStretchState) : Bool × List String :=
  let m1 := s.base.validate.2
  let m2 := if s.load < 0 then ["Invalid stretch load"] else []
  (m2.isEmpty, m1 ++ m2)

end Verif
