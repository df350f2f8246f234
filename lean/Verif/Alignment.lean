import Mathlib.Order.Defs.LinearOrder
import Mathlib.Data.Nat.Notation
import Verif.Outcome

/-!
# Model of `transmissionline/alignment.cc`

Numbers are elements of an arbitrary linear order `K` (`double` in the code; exact, no NaN).
-/

namespace Verif

variable {K : Type} [LinearOrder K]

/-- `AlignmentPoint` (`include/models/transmissionline/alignment.h`): public fields. -/
structure AlignmentPoint (K : Type) where
  elevation : K
  rotation : K
  station : K
  deriving DecidableEq, Repr

/-- The search loop shared by `Alignment::AddPoint` (`alignment.cc` L64-76) and
`TransmissionLine::AddLineStructure` (`transmission_line.cc` L126-138): walks the list until an element
with a larger key is found (`some` position), and gives up on an equal key (`none`, the C++ `return -1`). -/
def searchPos {α : Type} (key : α → K) (st : K) : List α → Option Nat
  | [] => some 0
  | q :: qs =>
    if st < key q then some 0
    else if st = key q then none
    else (searchPos key st qs).map (· + 1)

namespace Alignment

/-- `Alignment::AddPoint`, `alignment.cc` L62-83.  The C++ inserts before `iter` and returns
`distance(begin, iter) - 1`, where `iter` is now one past the inserted element. -/
def addPoint (points : List (AlignmentPoint K)) (p : AlignmentPoint K) :
    List (AlignmentPoint K) × Int :=
  match searchPos AlignmentPoint.station p.station points with
  | none => (points, -1)
  | some i => (points.insertIdx i p, ((i + 1 : Nat) : Int) - 1)

/-- `Alignment::DeletePoint`, `alignment.cc` L85-96. -/
def deletePoint (points : List (AlignmentPoint K)) (index : Int) : List (AlignmentPoint K) × Bool :=
  if validIndex index points.length then (points.eraseIdx index.toNat, true) else (points, false)

/-- `Alignment::ModifyPoint`, `alignment.cc` L133-153: caches, deletes, adds, re-adds the cached
point on failure. -/
def modifyPoint (points : List (AlignmentPoint K)) (index : Int) (p : AlignmentPoint K) :
    List (AlignmentPoint K) × Int :=
  if h : validIndex index points.length then
    let cache := points[index.toNat]'(validIndex_toNat h).1
    let (points1, deleted) := deletePoint points index
    if deleted = false then (points1, -1)
    else
      let (points2, status) := addPoint points1 p
      if status = -1 then ((addPoint points2 cache).1, status) else (points2, status)
  else (points, -1)

/-- `Alignment::IsValidStation`, `alignment.cc` L124-131.  `front()`/`back()` of an empty list is
undefined behaviour. -/
def isValidStation (points : List (AlignmentPoint K)) (s : K) : Res Bool :=
  match points.head?, points.getLast? with
  | some f, some b => .val (decide (f.station ≤ s) && decide (s ≤ b.station))
  | _, _ => .ub

/-- The search loop of `Alignment::IndexSegment`, `alignment.cc` L110-118: position of the first point
with `station <= point.station`, or the end position. -/
def segmentPos (s : K) : List (AlignmentPoint K) → Nat
  | [] => 0
  | q :: qs => if s ≤ q.station then 0 else segmentPos s qs + 1

/-- `Alignment::IndexSegment`, `alignment.cc` L98-122. -/
def indexSegment (points : List (AlignmentPoint K)) (s : K) : Res Int :=
  match isValidStation points s with
  | .ub => .ub
  | .throws => .throws
  | .val false => .val (-1)
  | .val true =>
    match points.head? with
    | none => .ub
    | some f => if s = f.station then .val 0 else .val ((segmentPos s points : Int) - 1)

/-- Editing calls of the class `Alignment`. -/
inductive Op (K : Type) where
  | add (p : AlignmentPoint K)
  | delete (index : Int)
  | modify (index : Int) (p : AlignmentPoint K)

/-- State after one call (the return value is dropped). -/
def Op.apply (points : List (AlignmentPoint K)) : Op K → List (AlignmentPoint K)
  | .add p => (addPoint points p).1
  | .delete i => (deletePoint points i).1
  | .modify i p => (modifyPoint points i p).1

/-- State after a history of calls on a newly constructed alignment (`alignment.cc` L56-57). -/
def run (ops : List (Op K)) : List (AlignmentPoint K) := ops.foldl Op.apply []

/-- `points` can be produced through the public editing functions. -/
def Reachable (points : List (AlignmentPoint K)) : Prop := ∃ ops : List (Op K), points = run ops

end Alignment
end Verif
