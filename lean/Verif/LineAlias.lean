import Verif.TransmissionLine

/-!
# Arguments by reference into the object itself, and self-assignment

The `Modify` functions of `alignment.cc`, `line_cable.cc` and `transmission_line.cc` take the new element by `const`
reference.  `points()`, `connections()`, `line_cables()` and `line_structures()` hand out the containers, so a caller can
pass a reference to an element of the very container that is modified.  The definitions here follow the code with such
references; the other model files pass arguments by value.
-/

namespace Verif

/-- An argument passed by reference: an object of the caller, or the element at a position (before the call) of the
list that the call works on. -/
inductive RefArg (A : Type) where
  | value (a : A)
  | own (i : Nat)

namespace RefArg

variable {A : Type}

/-- What a reference shows before the call; `none` if it refers to nothing. -/
def before (es : List A) : RefArg A → Option A
  | value a => some a
  | own i => es[i]?

/-- What a reference shows after the element at `index` was erased (`es` is the list before): the nodes of a `std::list`
stay where they are, and a reference to the erased one dangles. -/
def afterErase (es : List A) (index : Nat) : RefArg A → Option A
  | value a => some a
  | own i => if i = index then none else es[i]?

end RefArg

variable {K : Type} [Field K] [LinearOrder K] [IsStrictOrderedRing K]

/-- `Alignment::ModifyPoint`, `alignment.cc` L133-153: the element is erased (L141) before the argument is read by
`AddPoint` (L145). -/
def Alignment.modifyPointRef (points : List (AlignmentPoint K)) (index : Int) (arg : RefArg (AlignmentPoint K)) :
    Outcome (List (AlignmentPoint K)) Int :=
  if h : validIndex index points.length then
    let cache := points[index.toNat]'(validIndex_toNat h).1
    let (points1, deleted) := deletePoint points index
    if deleted = false then .ok points1 (-1)
    else
      match arg.afterErase points index.toNat with
      | none => .ub
      | some p =>
        let (points2, status) := addPoint points1 p
        if status = -1 then .ok (addPoint points2 cache).1 status else .ok points2 status
  else .ok points (-1)

/-- `LineCable::ModifyConnection`, `line_cable.cc` L123-145: erased (L133) before it is read (L137). -/
def LineCable.modifyConnectionRef (heap : Heap K) (cs : List Connection) (index : Int) (arg : RefArg Connection) :
    Outcome (List Connection) Int :=
  if h : validIndex index cs.length then
    let cache := cs[index.toNat]'(validIndex_toNat h).1
    let (cs1, deleted) := deleteConnection cs index
    if deleted = false then .ok cs1 (-1)
    else
      match arg.afterErase cs index.toNat with
      | none => .ub
      | some c =>
        match addConnection heap cs1 c with
        | .ok cs2 status =>
          if status = -1 then
            match addConnection heap cs2 cache with
            | .ok cs3 _ => .ok cs3 status
            | .throws cs3 => .throws cs3
            | .ub => .ub
          else .ok cs2 status
        | .throws cs2 => .throws cs2
        | .ub => .ub
  else .ok cs (-1)

namespace Line

/-- `TransmissionLine::ModifyAlignmentPoint`, `transmission_line.cc` L252-274, for a point of its own alignment. -/
def modifyAlignmentPointRef (ext : Heap K) (l : Line K) (index : Int) (arg : RefArg (AlignmentPoint K)) :
    Outcome (Line K) Int :=
  let boundary := isBoundary index l.alignment.length
  match Alignment.modifyPointRef l.alignment index arg with
  | .ub => .ub
  | .throws points => .throws { l with alignment := points }
  | .ok points indexNew =>
    let l' := { l with alignment := points }
    if decide (indexNew ≠ -1) && boundary then cleanUp ext l' indexNew else .ok l' indexNew

/-- `TransmissionLine::ModifyLineCable`, `transmission_line.cc` L276-300: erased (L288) before it is read (L293). -/
def modifyLineCableRef (ext : Heap K) (l : Line K) (index : Int) (arg : RefArg LineCable) : Outcome (Line K) Int :=
  if h : validIndex index l.cables.length then
    let cache := l.cables[index.toNat]'(validIndex_toNat h).1
    let r := l.deleteLineCable index
    if r.2 = false then .ok r.1 (-1)
    else
      match arg.afterErase l.cables index.toNat with
      | none => .ub
      | some k =>
        match r.1.addLineCable ext k with
        | .ok l2 indexNew =>
          if indexNew = -1 then
            match l2.addLineCable ext cache with
            | .ok l3 _ => .ok l3 indexNew
            | .throws l3 => .throws l3
            | .ub => .ub
          else .ok l2 indexNew
        | .throws l2 => .throws l2
        | .ub => .ub
  else .ok l (-1)

/-- `TransmissionLine::operator=` with the line itself as argument, `transmission_line.cc` L16-52: the members are
assigned to themselves, and each connection is switched to the structure it already refers to.  `none` = UB or
exception. -/
def assignSelf (ext : Heap K) (l : Line K) : Option (Line K) :=
  (copyCables (l.heap ext) l.structures l.structures l.cables).map fun cs => ⟨l.alignment, l.structures, cs⟩

end Line
end Verif
