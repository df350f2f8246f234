import Mathlib.Order.Defs.LinearOrder
import Verif.LineStructure

/-!
# Model of the connection list of `transmissionline/line_cable.cc`

A `LineStructure*` is an abstract address; a heap maps live addresses to structures.
Address 0 is the null pointer.  Reading an address that is not live is undefined behaviour.
-/

namespace Verif

/-- Address of a `LineStructure`; 0 is `nullptr`. -/
abbrev Ptr := Nat

/-- Live line structures.  `none` = null or dangling. -/
abbrev Heap (K : Type) := Ptr → Option (LineStructure K)

/-- `LineCableConnection`, `include/models/transmissionline/line_cable.h`. -/
structure Connection where
  ptr : Ptr
  attachment : Int
  deriving DecidableEq, Repr

/-- `LineCable`: the connection list plus a token `rest` for the other members (cable, constraint,
ruling span spacing, stretch weather cases), which the line code only copies. -/
structure LineCable where
  connections : List Connection
  rest : Nat
  deriving DecidableEq, Repr

namespace LineCable

variable {K : Type} [LinearOrder K]

/-- Search loop of `LineCable::AddConnection`, `line_cable.cc` L34-47.
Outer `Res`: dereferencing a dangling pointer is UB.  Inner `Option`: `none` = duplicate station. -/
def searchConnection (heap : Heap K) (c : Connection) : List Connection → Res (Option Nat)
  | [] => .val (some 0)
  | d :: ds =>
    match heap c.ptr, heap d.ptr with
    | some s, some t =>
      if s.station < t.station then .val (some 0)
      else if s.station = t.station then .val none
      else
        match searchConnection heap c ds with
        | .val r => .val (r.map (· + 1))
        | .throws => .throws
        | .ub => .ub
    | _, _ => .ub

/-- `LineCable::AddConnection`, `line_cable.cc` L26-54. -/
def addConnection (heap : Heap K) (cs : List Connection) (c : Connection) :
    Outcome (List Connection) Int :=
  if c.ptr = 0 then .ok cs (-1)
  else
    match searchConnection heap c cs with
    | .val none => .ok cs (-1)
    | .val (some i) => .ok (cs.insertIdx i c) (((i + 1 : Nat) : Int) - 1)
    | .throws => .throws cs
    | .ub => .ub

/-- `LineCable::DeleteConnection`, `line_cable.cc` L110-121. -/
def deleteConnection (cs : List Connection) (index : Int) : List Connection × Bool :=
  if validIndex index cs.length then (cs.eraseIdx index.toNat, true) else (cs, false)

/-- `LineCable::ModifyConnection`, `line_cable.cc` L123-145. -/
def modifyConnection (heap : Heap K) (cs : List Connection) (index : Int) (c : Connection) :
    Outcome (List Connection) Int :=
  if h : validIndex index cs.length then
    let cache := cs[index.toNat]'(validIndex_toNat h).1
    let (cs1, deleted) := deleteConnection cs index
    if deleted = false then .ok cs1 (-1)
    else
      match addConnection heap cs1 c with
      | .ok cs2 status =>
        if status = -1 then
          match addConnection heap cs2 cache with
          | .ok cs3 _ => .ok cs3 status
          | .throws cs3 => .throws cs3
          | .ub => .ub
        else .ok cs2 status
      | .throws cs2 => .throws cs2
      | .ub => .ub
  else .ok cs (-1)

/-- One iteration of the loop in `LineCable::ValidateConnections`, `line_cable.cc` L262-285: reads the
hardware of the connection.  `.at` with an index outside `[0,size)` throws, reading `hardware->type`
through a null pointer is UB.  The hardware type itself only produces a message, see
`hardwareTypeMessage`. -/
def checkConnection (heap : Heap K) (c : Connection) : Res HardwareType :=
  match heap c.ptr with
  | none => .ub
  | some s =>
    if validIndex c.attachment s.hardwares.length then
      match s.hardwares[c.attachment.toNat]? with
      | some (some h) => .val h.type
      | _ => .ub
    else .throws

/-- Whether the loop body pushes a message (`line_cable.cc` L266-285): terminal connections should have
dead-end hardware, interior ones suspension hardware.  The result value is not changed by this. -/
def hardwareTypeMessage (isTerminal : Bool) (t : HardwareType) : Bool :=
  if isTerminal then t != .deadEnd else t != .suspension

/-- The loop over all connections in `ValidateConnections`, `line_cable.cc` L260-286. -/
def checkConnections (heap : Heap K) : List Connection → Res Unit
  | [] => .val ()
  | c :: cs =>
    match checkConnection heap c with
    | .val _ => checkConnections heap cs
    | .throws => .throws
    | .ub => .ub

/-- `LineCable::ValidateConnections`, `line_cable.cc` L244-290 (messages are in `validateMessages`). -/
def validateConnections (heap : Heap K) (cs : List Connection) : Res Bool :=
  if cs.length < 2 then .val false
  else
    match checkConnections heap cs with
    | .val _ => .val true
    | .throws => .throws
    | .ub => .ub

/-- Number of messages `ValidateConnections` appends to a non-null message list when it returns
(`line_cable.cc` L253-286).  `isFirst` tells whether the head of the list is the first connection. -/
def countMessages (heap : Heap K) : Bool → List Connection → Nat
  | _, [] => 0
  | isFirst, c :: cs =>
    (match checkConnection heap c with
     | .val t => if hardwareTypeMessage (isFirst || cs.isEmpty) t then 1 else 0
     | _ => 0) + countMessages heap false cs

/-- Messages appended by `ValidateConnections`. -/
def validateMessages (heap : Heap K) (cs : List Connection) : Nat :=
  if cs.length < 2 then 1 else countMessages heap true cs

/-- Connection editing calls of `LineCable` (`ClearConnections` is `line_cable.cc` L106-108). -/
inductive Op where
  | add (c : Connection)
  | delete (index : Int)
  | modify (index : Int) (c : Connection)
  | clear

/-- Effect of one call on the connection list. -/
def Op.apply (heap : Heap K) (cs : List Connection) : Op → Outcome (List Connection) Int
  | .add c => addConnection heap cs c
  | .delete i => .ok (deleteConnection cs i).1 (if (deleteConnection cs i).2 then 1 else 0)
  | .modify i c => modifyConnection heap cs i c
  | .clear => .ok [] 0

/-- Connection lists reachable through the API while the structures do not change. -/
inductive Reachable (heap : Heap K) : List Connection → Prop where
  | new : Reachable heap []
  | step {cs cs' : List Connection} (op : Op) (h : Reachable heap cs)
      (e : (op.apply heap cs).state? = some cs') : Reachable heap cs'

end LineCable
end Verif
