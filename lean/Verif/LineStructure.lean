import Verif.Outcome

/-!
# Model of `transmissionline/line_structure.cc` (and the data of `structure.h`, `hardware.h`)

`Hardware*` and `Structure*` are modelled by the contents they point to, `none` being the null pointer.
This assumes the pointees are not changed while they are referenced.
-/

namespace Verif

/-- `Hardware::HardwareType`, `include/models/transmissionline/hardware.h` L20-24. -/
inductive HardwareType where
  | null
  | deadEnd
  | suspension
  deriving DecidableEq, Repr

/-- `Hardware`, reduced to the member that the line code reads (`type`). -/
structure Hardware where
  type : HardwareType
  deriving DecidableEq, Repr

/-- `StructureAttachment`, `include/models/transmissionline/structure.h` L16-45. -/
structure StructureAttachment (K : Type) where
  offsetLongitudinal : K
  offsetTransverse : K
  offsetVerticalTop : K
  deriving DecidableEq, Repr

/-- `Structure`, `include/models/transmissionline/structure.h` L50-79 (without the name). -/
structure Structure (K : Type) where
  attachments : List (StructureAttachment K)
  height : K
  deriving DecidableEq, Repr

/-- `LineStructure`, `include/models/transmissionline/line_structure.h`: all data members (`base` is
`structure_`). -/
structure LineStructure (K : Type) where
  hardwares : List (Option Hardware)
  heightAdjustment : K
  offset : K
  rotation : K
  station : K
  base : Option (Structure K)
  deriving DecidableEq, Repr

namespace LineStructure

variable {K : Type}

/-- A newly constructed `LineStructure`, `line_structure.cc` L8-14; `d` stands for the numeric default
-999999. -/
def new (d : K) : LineStructure K := ⟨[], d, d, d, d, none⟩

/-- `LineStructure::IsValidIndex`, `line_structure.cc` L152-160. -/
def isValidIndex (s : LineStructure K) (index : Int) : Bool :=
  match s.base with
  | none => false
  | some st => validIndex index st.attachments.length

/-- `hardwares_.at(index) = hardware` for an `int` index: a negative `int` converts to a huge `size_t`,
so everything outside `[0, size)` throws. -/
def putHardware (s : LineStructure K) (index : Int) (h : Option Hardware) :
    Outcome (LineStructure K) Unit :=
  if validIndex index s.hardwares.length then
    .ok { s with hardwares := s.hardwares.set index.toNat h } ()
  else .throws s

/-- `LineStructure::AttachHardware`, `line_structure.cc` L19-28 (`none` is a null argument). -/
def attachHardware (s : LineStructure K) (index : Int) (h : Option Hardware) :
    Outcome (LineStructure K) Unit :=
  if s.isValidIndex index = false then .ok s () else putHardware s index h

/-- `LineStructure::DetachHardware`, `line_structure.cc` L30-38. -/
def detachHardware (s : LineStructure K) (index : Int) : Outcome (LineStructure K) Unit :=
  if s.isValidIndex index = false then .ok s () else putHardware s index none

/-- `std::vector::resize(n, x)`. -/
def resize {α : Type} (l : List α) (n : Nat) (x : α) : List α :=
  l.take n ++ List.replicate (n - l.length) x

/-- `LineStructure::set_structure`, `line_structure.cc` L132-142. -/
def setStructure (s : LineStructure K) (st : Option (Structure K)) : LineStructure K :=
  match st with
  | none => { s with base := none, hardwares := [] }
  | some t => { s with base := some t, hardwares := resize s.hardwares t.attachments.length none }

/-- Calls of the class. The plain setters are `line_structure.cc` L116-130. -/
inductive Op (K : Type) where
  | attach (index : Int) (h : Option Hardware)
  | detach (index : Int)
  | setStructure (st : Option (Structure K))
  | setStation (x : K)
  | setRotation (x : K)
  | setOffset (x : K)
  | setHeightAdjustment (x : K)

/-- Effect of one call. -/
def Op.apply (s : LineStructure K) : Op K → Outcome (LineStructure K) Unit
  | .attach i h => s.attachHardware i h
  | .detach i => s.detachHardware i
  | .setStructure st => .ok (s.setStructure st) ()
  | .setStation x => .ok { s with station := x } ()
  | .setRotation x => .ok { s with rotation := x } ()
  | .setOffset x => .ok { s with offset := x } ()
  | .setHeightAdjustment x => .ok { s with heightAdjustment := x } ()

/-- States reachable through the API from a new object (exceptions caught by the caller included). -/
inductive Reachable : LineStructure K → Prop where
  | new (d : K) : Reachable (LineStructure.new d)
  | step {s s' : LineStructure K} (op : Op K) (h : Reachable s) (e : (op.apply s).state? = some s') :
      Reachable s'

end LineStructure
end Verif
