import Verif.LineGeometry
import Verif.SectionCable
import Verif.StructureValidate

/-!
# Model of the validators of a transmission line and its parts

`alignment.cc`, `hardware.cc`, `line_structure.cc` and `transmission_line.cc`.  The result is the returned flag together
with the descriptions appended to the message list.  Exact real arithmetic.
-/

namespace Verif

open Classical in
/-- `AlignmentPoint::Validate`, `alignment.cc` L17-52. -/
noncomputable def AlignmentPoint.validate (p : AlignmentPoint ℝ) : Bool × List String :=
  let m1 := if p.elevation < 0 then ["Invalid elevation"] else []
  let m2 := if 360 < |p.rotation| then ["Invalid rotation"] else []
  let m3 := if p.station < 0 then ["Invalid station"] else []
  let m := m1 ++ m2 ++ m3
  (m.isEmpty, m)

/-- `Alignment::Validate`, `alignment.cc` L155-179; the message about the sorting (L172) is never appended. -/
noncomputable def Alignment.validate (ps : List (AlignmentPoint ℝ)) : Bool × List String :=
  (ps.all fun p => p.validate.1, ps.flatMap fun p => p.validate.2)

/-- The numeric members of `Hardware`, `include/models/transmissionline/hardware.h` (`LineStructure` keeps the type). -/
structure HardwareNumbers where
  area : ℝ
  length : ℝ
  weight : ℝ

open Classical in
/-- `Hardware::Validate`, `hardware.cc` L17-62. -/
noncomputable def Hardware.validate (h : Hardware) (n : HardwareNumbers) : Bool × List String :=
  let m1 := if n.area < 0 then ["Invalid cross sectional area"] else []
  let m2 := if n.length < 0 then ["Invalid length"] else []
  let m3 := if h.type = .null then ["Invalid type"] else []
  let m4 := if n.weight < 0 then ["Invalid weight"] else []
  let m := m1 ++ m2 ++ m3 ++ m4
  (m.isEmpty, m)

/-- A hardware slot, `line_structure.cc` L49-55: empty slots pass. -/
noncomputable def Hardware.validateSlot (h : Option Hardware) (n : HardwareNumbers) : Bool × List String :=
  match h with
  | none => (true, [])
  | some h => h.validate n

namespace LineStructure

/-- The hardware loop of `LineStructure::Validate`, `line_structure.cc` L48-55; `numbers i` are the members of the
hardware in slot `i`. -/
noncomputable def validateHardware (numbers : ℕ → HardwareNumbers) : ℕ → List (Option Hardware) → Bool × List String
  | _, [] => (true, [])
  | i, h :: hs =>
    let a := Hardware.validateSlot h (numbers i)
    let b := validateHardware numbers (i + 1) hs
    (a.1 && b.1, a.2 ++ b.2)

/-- The base structure, `line_structure.cc` L84-95. -/
noncomputable def validateBase (t : Option (Structure ℝ)) : Bool × List String :=
  match t with
  | none => (false, ["Invalid structure"])
  | some t => t.validate

open Classical in
/-- `LineStructure::Validate`, `line_structure.cc` L40-98. -/
noncomputable def validate (numbers : ℕ → HardwareNumbers) (s : LineStructure ℝ) : Bool × List String :=
  let a := validateHardware numbers 0 s.hardwares
  let m1 := if s.heightAdjustment < 0 then ["Invalid height adjustment"] else []
  let m2 := if 360 < |s.rotation| then ["Invalid rotation"] else []
  let m3 := if s.station < 0 then ["Invalid station"] else []
  let b := validateBase s.base
  (a.1 && (m1 ++ m2 ++ m3).isEmpty && b.1, a.2 ++ (m1 ++ m2 ++ m3) ++ b.2)

end LineStructure

/-- What a line refers to outside of itself: the members of the hardware in the slots of its structures, and the
members of its cables other than the connections (by the token of `LineCable`). -/
structure LineMembers where
  hardware : Ptr → ℕ → HardwareNumbers
  cable : ℕ → SectionCable

/-- A cable of the line with all of its members. -/
noncomputable def LineMembers.whole (m : LineMembers) (k : LineCable) : SectionCable :=
  { m.cable k.rest with connections := k.connections }

namespace GLine

/-- The structures, `transmission_line.cc` L471-478. -/
noncomputable def validateStructures (m : LineMembers) (ss : List (Ptr × LineStructure ℝ)) : Bool × List String :=
  (ss.all fun e => (e.2.validate (m.hardware e.1)).1, ss.flatMap fun e => (e.2.validate (m.hardware e.1)).2)

/-- The cables, `transmission_line.cc` L480-486. -/
noncomputable def validateCables (heap : Heap ℝ) : List SectionCable → Res (Bool × List String)
  | [] => .val (true, [])
  | c :: cs =>
    match c.validate heap with
    | .val a =>
      match validateCables heap cs with
      | .val b => .val (a.1 && b.1, a.2 ++ b.2)
      | .throws => .throws
      | .ub => .ub
    | .throws => .throws
    | .ub => .ub

/-- `TransmissionLine::Validate`, `transmission_line.cc` L459-499. -/
noncomputable def validate (ext : Heap ℝ) (m : LineMembers) (g : GLine) : Outcome GLine (Bool × List String) :=
  let a := Alignment.validate g.line.alignment
  let b := validateStructures m g.line.structures
  match validateCables (g.line.heap ext) (g.line.cables.map m.whole) with
  | .ub => .ub
  | .throws => .throws g
  | .val c =>
    match g.update with
    | .ok g u => .ok g (a.1 && b.1 && c.1 && u, a.2 ++ b.2 ++ c.2 ++ (if u = true then [] else ["Error updating class"]))
    | .throws g => .throws g
    | .ub => .ub

end GLine
end Verif
