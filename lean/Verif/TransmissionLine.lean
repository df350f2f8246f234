import Mathlib.Algebra.Order.Field.Basic
import Verif.Alignment
import Verif.LineCable

/-!
# Model of the editing part of `transmissionline/transmission_line.cc`

The coordinate part (cached points) is in `Verif/LineGeometry.lean`; the flags and cached points that the
editing functions reset are left out here and added there.

A line owns its structures: an ordered list of (address, structure).  Addresses of list nodes do not
change when other nodes are inserted or erased (`std::list`).  `ext` is the rest of memory: live line
structures that do not belong to this line (e.g. of other lines), as seen by the pointers in a cable
argument.
-/

namespace Verif

/-- Data members `alignment_`, `line_structures_`, `line_cables_` of `TransmissionLine`. -/
structure Line (K : Type) where
  alignment : List (AlignmentPoint K)
  structures : List (Ptr × LineStructure K)
  cables : List LineCable
  deriving DecidableEq, Repr

namespace Line

variable {K : Type} [Field K] [LinearOrder K] [IsStrictOrderedRing K]

/-- A newly constructed line (`transmission_line.cc` L6-9). -/
def empty : Line K := ⟨[], [], []⟩

/-- Structure stored at an address of an ordered node list. -/
def lookup (p : Ptr) : List (Ptr × LineStructure K) → Option (LineStructure K)
  | [] => none
  | (q, s) :: rest => if p = q then some s else lookup p rest

/-- What a pointer shows: the line's own node, or memory outside the line. -/
def heap (l : Line K) (ext : Heap K) : Heap K := fun p =>
  match lookup p l.structures with
  | some s => some s
  | none => ext p

/-- Search loop of `IndexLineStructure`, `transmission_line.cc` L234-242. -/
def indexLoop (p : Ptr) : List (Ptr × LineStructure K) → Option Nat
  | [] => none
  | (q, _) :: rest => if p = q then some 0 else (indexLoop p rest).map (· + 1)

/-- `TransmissionLine::IndexLineStructure`, `transmission_line.cc` L231-250. -/
def indexLineStructure (l : Line K) (p : Ptr) : Int :=
  match indexLoop p l.structures with
  | none => -1
  | some i => (i : Int)

/-- `TransmissionLine::HasConnection`, `transmission_line.cc` L203-229.  `std::next(begin, index)`
outside the list and dereferencing the end are UB. -/
def hasConnection (l : Line K) (indexStructure indexAttachment : Int) : Res Bool :=
  if h : validIndex indexStructure l.structures.length then
    let p := (l.structures[indexStructure.toNat]'(validIndex_toNat h).1).1
    .val (l.cables.any fun k => k.connections.any fun c =>
      decide (c.ptr = p) && decide (c.attachment = indexAttachment))
  else .ub

/-- Loop over the connections in `AddLineCable`, `transmission_line.cc` L71-84.  `false` = some
connection is rejected (`return -1`). -/
def checkOpen (l : Line K) : List Connection → Res Bool
  | [] => .val true
  | c :: cs =>
    if l.indexLineStructure c.ptr = -1 then .val false
    else
      match l.hasConnection (l.indexLineStructure c.ptr) c.attachment with
      | .val true => .val false
      | .val false => checkOpen l cs
      | .throws => .throws
      | .ub => .ub

/-- Search loop of `AddLineCable`, `transmission_line.cc` L91-108.  Reading the first connection of a
stored cable without connections would be UB. -/
def cablePos (l : Line K) (indexStructure indexAttachment : Int) : List LineCable → Res Nat
  | [] => .val 0
  | k :: ks =>
    match k.connections.head? with
    | none => .ub
    | some d =>
      if indexStructure ≤ l.indexLineStructure d.ptr ∧ indexAttachment < d.attachment then .val 0
      else
        match cablePos l indexStructure indexAttachment ks with
        | .val i => .val (i + 1)
        | .throws => .throws
        | .ub => .ub

/-- `TransmissionLine::AddLineCable`, `transmission_line.cc` L63-115. -/
def addLineCable (ext : Heap K) (l : Line K) (k : LineCable) : Outcome (Line K) Int :=
  match LineCable.validateConnections (l.heap ext) k.connections with
  | .ub => .ub
  | .throws => .throws l
  | .val false => .ok l (-1)
  | .val true =>
    match l.checkOpen k.connections with
    | .ub => .ub
    | .throws => .throws l
    | .val false => .ok l (-1)
    | .val true =>
      match k.connections.head? with
      | none => .ub
      | some c =>
        match l.cablePos (l.indexLineStructure c.ptr) c.attachment l.cables with
        | .ub => .ub
        | .throws => .throws l
        | .val i => .ok { l with cables := l.cables.insertIdx i k } (i : Int)

/-- `TransmissionLine::AddLineStructure`, `transmission_line.cc` L117-145.  `p` is the address of the
new list node. -/
def addLineStructure (l : Line K) (p : Ptr) (s : LineStructure K) : Outcome (Line K) Int :=
  match Alignment.isValidStation l.alignment s.station with
  | .ub => .ub
  | .throws => .throws l
  | .val false => .ok l (-1)
  | .val true =>
    match searchPos (fun e : Ptr × LineStructure K => e.2.station) s.station l.structures with
    | none => .ok l (-1)
    | some i => .ok { l with structures := l.structures.insertIdx i (p, s) } (i : Int)

/-- The while loop that `DeleteConnectionsFromStructure` (L535-549) and
`DeleteInvalidConnectionsFromStructure` (L568-581) run on one cable: at position `i`, delete the
connection and stay, or advance. -/
def eraseLoop (bad : Connection → Bool) (cs : List Connection) (i : Nat) : List Connection :=
  if h : i < cs.length then
    if bad cs[i] then eraseLoop bad (LineCable.deleteConnection cs (i : Int)).1 i
    else eraseLoop bad cs (i + 1)
  else cs
termination_by cs.length - i
decreasing_by
  · simp only [LineCable.deleteConnection, validIndex_natCast.mpr h, if_true]
    rw [Int.toNat_natCast, List.length_eraseIdx_of_lt h]; omega
  · omega

/-- `DeleteConnectionsFromStructure`, `transmission_line.cc` L523-551, for the node at address `p`. -/
def deleteConnectionsFromStructure (cables : List LineCable) (p : Ptr) : List LineCable :=
  cables.map fun k => LineCable.mk (eraseLoop (fun c => decide (c.ptr = p)) k.connections 0) k.rest

/-- `DeleteInvalidConnectionsFromStructure`, `transmission_line.cc` L553-583, for the node at address
`p` whose structure has `size` attachments. -/
def deleteInvalidConnections (cables : List LineCable) (p : Ptr) (size : Nat) : List LineCable :=
  cables.map fun k => LineCable.mk
    (eraseLoop (fun c => decide (c.ptr = p) && decide ((size : Int) ≤ c.attachment)) k.connections 0)
    k.rest

/-- `DeleteInvalidLineCables`, `transmission_line.cc` L585-597: erases cables whose
`ValidateConnections` is false.  `done` is the part of the list already passed. -/
def deleteInvalidLineCables (h : Heap K) (done : List LineCable) :
    List LineCable → Outcome (List LineCable) Unit
  | [] => .ok done ()
  | k :: ks =>
    match LineCable.validateConnections h k.connections with
    | .val false => deleteInvalidLineCables h done ks
    | .val true => deleteInvalidLineCables h (done ++ [k]) ks
    | .throws => .throws (done ++ k :: ks)
    | .ub => .ub

/-- Runs `DeleteInvalidLineCables` on a line and returns `a`. -/
def finishCables {A : Type} (ext : Heap K) (l : Line K) (a : A) : Outcome (Line K) A :=
  match deleteInvalidLineCables (l.heap ext) [] l.cables with
  | .ok cs _ => .ok { l with cables := cs } a
  | .throws cs => .throws { l with cables := cs }
  | .ub => .ub

/-- Loop of `DeleteInvalidLineStructures`, `transmission_line.cc` L604-617, at position `i`. -/
def invalidStructuresLoop (lo hi : K) (structures : List (Ptr × LineStructure K))
    (cables : List LineCable) (i : Nat) : List (Ptr × LineStructure K) × List LineCable :=
  if h : i < structures.length then
    if structures[i].2.station < lo ∨ hi < structures[i].2.station then
      invalidStructuresLoop lo hi (structures.eraseIdx i)
        (deleteConnectionsFromStructure cables structures[i].1) i
    else invalidStructuresLoop lo hi structures cables (i + 1)
  else (structures, cables)
termination_by structures.length - i
decreasing_by
  · rw [List.length_eraseIdx_of_lt h]; omega
  · omega

/-- `DeleteInvalidLineStructures`, `transmission_line.cc` L599-618.  `none`: `front()`/`back()` of an
empty alignment (UB). -/
def deleteInvalidLineStructures (l : Line K) : Option (Line K) :=
  match l.alignment.head?, l.alignment.getLast? with
  | some f, some b =>
    let (ss, cs) := invalidStructuresLoop f.station b.station l.structures l.cables 0
    some { l with structures := ss, cables := cs }
  | _, _ => none

/-- The clean-up after a change of the alignment bounds, `transmission_line.cc` L161-164, L268-271. -/
def cleanUp {A : Type} (ext : Heap K) (l : Line K) (a : A) : Outcome (Line K) A :=
  match l.deleteInvalidLineStructures with
  | none => .ub
  | some l' => finishCables ext l' a

/-- `TransmissionLine::AddAlignmentPoint`, `transmission_line.cc` L57-61. -/
def addAlignmentPoint (l : Line K) (p : AlignmentPoint K) : Outcome (Line K) Int :=
  .ok { l with alignment := (Alignment.addPoint l.alignment p).1 } (Alignment.addPoint l.alignment p).2

/-- The boundary test of L152-156 and L258-262. -/
def isBoundary (index : Int) (size : Nat) : Bool :=
  decide (index = 0) || decide (index = (size : Int) - 1)

/-- `TransmissionLine::DeleteAlignmentPoint`, `transmission_line.cc` L147-167. -/
def deleteAlignmentPoint (ext : Heap K) (l : Line K) (index : Int) : Outcome (Line K) Bool :=
  let boundary := isBoundary index l.alignment.length
  let r := Alignment.deletePoint l.alignment index
  let l' := { l with alignment := r.1 }
  if r.2 && boundary then cleanUp ext l' r.2 else .ok l' r.2

/-- `TransmissionLine::ModifyAlignmentPoint`, `transmission_line.cc` L252-274. -/
def modifyAlignmentPoint (ext : Heap K) (l : Line K) (index : Int) (p : AlignmentPoint K) :
    Outcome (Line K) Int :=
  let boundary := isBoundary index l.alignment.length
  let r := Alignment.modifyPoint l.alignment index p
  let l' := { l with alignment := r.1 }
  if decide (r.2 ≠ -1) && boundary then cleanUp ext l' r.2 else .ok l' r.2

/-- `TransmissionLine::DeleteLineCable`, `transmission_line.cc` L169-182. -/
def deleteLineCable (l : Line K) (index : Int) : Line K × Bool :=
  if validIndex index l.cables.length then ({ l with cables := l.cables.eraseIdx index.toNat }, true)
  else (l, false)

/-- `TransmissionLine::DeleteLineStructure`, `transmission_line.cc` L184-201: cleans the cables while the
structure is still in the list, then erases the structure. -/
def deleteLineStructure (ext : Heap K) (l : Line K) (index : Int) : Outcome (Line K) Bool :=
  if h : validIndex index l.structures.length then
    let p := (l.structures[index.toNat]'(validIndex_toNat h).1).1
    let l1 := { l with cables := deleteConnectionsFromStructure l.cables p }
    match deleteInvalidLineCables (l1.heap ext) [] l1.cables with
    | .ok cs _ => .ok { l1 with cables := cs, structures := l1.structures.eraseIdx index.toNat } true
    | .throws cs => .throws { l1 with cables := cs }
    | .ub => .ub
  else .ok l false

/-- `TransmissionLine::ModifyLineCable`, `transmission_line.cc` L276-300. -/
def modifyLineCable (ext : Heap K) (l : Line K) (index : Int) (k : LineCable) : Outcome (Line K) Int :=
  if h : validIndex index l.cables.length then
    let cache := l.cables[index.toNat]'(validIndex_toNat h).1
    let r := l.deleteLineCable index
    if r.2 = false then .ok r.1 (-1)
    else
      match r.1.addLineCable ext k with
      | .ok l2 indexNew =>
        if indexNew = -1 then
          match l2.addLineCable ext cache with
          | .ok l3 _ => .ok l3 indexNew
          | .throws l3 => .throws l3
          | .ub => .ub
        else .ok l2 indexNew
      | .throws l2 => .throws l2
      | .ub => .ub
  else .ok l (-1)

/-- Lower station bound of `ModifyLineStructure`, L311-317 (`f` = first alignment station). -/
def stationBack (l : Line K) (f : K) (i : Nat) : K :=
  if i ≠ 0 then
    match l.structures[i - 1]? with
    | some e => e.2.station
    | none => f - 1
  else f - 1

/-- Upper station bound of `ModifyLineStructure`, L319-326 (`b` = last alignment station). -/
def stationAhead (l : Line K) (b : K) (i : Nat) : K :=
  if i + 1 ≠ l.structures.length then
    match l.structures[i + 1]? with
    | some e => e.2.station
    | none => b + 1
  else b + 1

/-- `TransmissionLine::ModifyLineStructure`, `transmission_line.cc` L302-346.
UB: empty alignment (L312, L320) and a null base structure (L558). -/
def modifyLineStructure (ext : Heap K) (l : Line K) (index : Int) (s : LineStructure K) :
    Outcome (Line K) Bool :=
  if h : validIndex index l.structures.length then
    match l.alignment.head?, l.alignment.getLast? with
    | some f, some b =>
      if s.station ≤ l.stationBack f.station index.toNat ∨
          l.stationAhead b.station index.toNat ≤ s.station then .ok l false
      else
        let p := (l.structures[index.toNat]'(validIndex_toNat h).1).1
        let l1 := { l with structures := l.structures.set index.toNat (p, s) }
        match s.base with
        | none => .ub
        | some t =>
          let l2 := { l1 with cables := deleteInvalidConnections l1.cables p t.attachments.length }
          finishCables ext l2 true
    | _, _ => .ub
  else .ok l false

/-- One cable of the copy loop, `transmission_line.cc` L34-48: for `index_connection = i .. n-1`, look up
the structure index in the original (`-1` makes the following `std::next` UB) and switch the connection
to the new list's node with the same index. -/
def copyConnections (h : Heap K) (old new : List (Ptr × LineStructure K)) :
    (i n : Nat) → List Connection → Option (List Connection)
  | _, 0, cs => some cs
  | i, n + 1, cs =>
    match cs[i]? with
    | none => none
    | some c =>
      match indexLoop c.ptr old with
      | none => none
      | some j =>
        match new[j]? with
        | none => none
        | some e =>
          match LineCable.modifyConnection h cs (i : Int) { c with ptr := e.1 } with
          | .ok cs' _ => copyConnections h old new (i + 1) n cs'
          | _ => none

/-- Loop over the cables in the copy assignment. -/
def copyCables (h : Heap K) (old new : List (Ptr × LineStructure K)) :
    List LineCable → Option (List LineCable)
  | [] => some []
  | k :: ks =>
    match copyConnections h old new 0 k.connections.length k.connections with
    | none => none
    | some cs => (copyCables h old new ks).map ({ k with connections := cs } :: ·)

/-- `TransmissionLine::operator=` / copy constructor, `transmission_line.cc` L11-52.  `ptrs` are the
addresses of the copied list nodes.  `none` = UB or exception. -/
def copy (ext : Heap K) (l : Line K) (ptrs : List Ptr) : Option (Line K) :=
  let new := ptrs.zip (l.structures.map Prod.snd)
  let h : Heap K := fun p =>
    match lookup p new with
    | some s => some s
    | none => l.heap ext p
  (copyCables h l.structures new l.cables).map fun cs => ⟨l.alignment, new, cs⟩

/-- Editing calls. -/
inductive Op (K : Type) where
  | addAlignmentPoint (p : AlignmentPoint K)
  | deleteAlignmentPoint (index : Int)
  | modifyAlignmentPoint (index : Int) (p : AlignmentPoint K)
  | addLineStructure (ptr : Ptr) (s : LineStructure K)
  | deleteLineStructure (index : Int)
  | modifyLineStructure (index : Int) (s : LineStructure K)
  | addLineCable (k : LineCable)
  | deleteLineCable (index : Int)
  | modifyLineCable (index : Int) (k : LineCable)

/-- Return value of an editing call, `int` or `bool`. -/
inductive Ret where
  | int (i : Int)
  | bool (b : Bool)
  deriving DecidableEq, Repr

/-- Wraps the return value. -/
def wrap {S A : Type} (f : A → Ret) : Outcome S A → Outcome S Ret
  | .ok s a => .ok s (f a)
  | .throws s => .throws s
  | .ub => .ub

/-- Effect of one call in memory `ext`. -/
def Op.apply (ext : Heap K) (l : Line K) : Op K → Outcome (Line K) Ret
  | .addAlignmentPoint p => wrap .int (l.addAlignmentPoint p)
  | .deleteAlignmentPoint i => wrap .bool (l.deleteAlignmentPoint ext i)
  | .modifyAlignmentPoint i p => wrap .int (l.modifyAlignmentPoint ext i p)
  | .addLineStructure p s => wrap .int (l.addLineStructure p s)
  | .deleteLineStructure i => wrap .bool (l.deleteLineStructure ext i)
  | .modifyLineStructure i s => wrap .bool (l.modifyLineStructure ext i s)
  | .addLineCable k => wrap .int (l.addLineCable ext k)
  | .deleteLineCable i => .ok (l.deleteLineCable i).1 (.bool (l.deleteLineCable i).2)
  | .modifyLineCable i k => wrap .int (l.modifyLineCable ext i k)

/-- A cable argument as the `LineCable` API produces it: its connections are strictly ordered by the
stations its pointers currently show, none is null. -/
def CableArg (h : Heap K) (k : LineCable) : Prop :=
  k.connections.Pairwise (fun c d => ∃ s t, h c.ptr = some s ∧ h d.ptr = some t ∧
    s.station < t.station) ∧ ∀ c ∈ k.connections, c.ptr ≠ 0

/-- What the caller and the allocator guarantee about the arguments of a call: structure arguments were
built through the `LineStructure` API, cable arguments through the `LineCable` API, and a new list node
has a fresh non-null address. -/
def Op.Pre (ext : Heap K) (l : Line K) : Op K → Prop
  | .addLineStructure p s => p ≠ 0 ∧ (∀ e ∈ l.structures, e.1 ≠ p) ∧ LineStructure.Reachable s
  | .modifyLineStructure _ s => LineStructure.Reachable s
  | .addLineCable k => CableArg (l.heap ext) k
  | .modifyLineCable _ k => CableArg (l.heap ext) k
  | _ => True

/-- Lines reachable through the API: editing calls (exceptions caught by the caller included) and
copies.  Each step may happen in a different state `ext` of the rest of memory. -/
inductive Reachable : Line K → Prop where
  | empty : Reachable Line.empty
  | step {l l' : Line K} (op : Op K) (ext : Heap K) (h : Reachable l) (pre : op.Pre ext l)
      (e : (op.apply ext l).state? = some l') : Reachable l'
  | copy {l l' : Line K} (ext : Heap K) (ptrs : List Ptr) (h : Reachable l)
      (hlen : ptrs.length = l.structures.length) (hnodup : ptrs.Nodup) (hnull : 0 ∉ ptrs)
      (hfresh : ∀ e ∈ l.structures, e.1 ∉ ptrs) (e : l.copy ext ptrs = some l') : Reachable l'

end Line
end Verif
