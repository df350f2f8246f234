import Mathlib.Data.Real.Basic
import Verif.LineStructure

/-!
# Model of the validators in `transmissionline/structure.cc`

The result is the returned flag together with the descriptions appended to the message list.
-/

namespace Verif

open Classical in
/-- `StructureAttachment::Validate`, `structure.cc` L15-33. -/
noncomputable def StructureAttachment.validate (a : StructureAttachment ℝ) : Bool × List String :=
  if a.offsetVerticalTop < 0 then (false, ["Invalid vertical offset from top of structure"])
  else (true, [])

open Classical in
/-- The last loop of `Structure::Validate`, `structure.cc` L76-87: messages of the attachments that
exceed the height. -/
noncomputable def Structure.exceeding (t : Structure ℝ) : List String :=
  t.attachments.flatMap fun a => if t.height < a.offsetVerticalTop then
    ["Invalid attachment vertical offset. Exceeds structure height"] else []

open Classical in
/-- `Structure::Validate`, `structure.cc` L44-90.  The flag returned by the attachments' own validator
is dropped (L62). -/
noncomputable def Structure.validate (t : Structure ℝ) : Bool × List String :=
  let m1 := if t.attachments.length = 0 then ["No attachments defined"]
    else t.attachments.flatMap fun a => a.validate.2
  let b1 := decide (t.attachments.length ≠ 0)
  let m2 := if t.height ≤ 0 then ["Invalid height"] else []
  let b2 := decide (¬ t.height ≤ 0)
  let m3 := t.exceeding
  (b1 && b2 && m3.isEmpty, m1 ++ m2 ++ m3)

end Verif
