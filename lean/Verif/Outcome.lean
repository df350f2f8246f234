/-!
# Results of C++ calls

A C++ call can return, throw `std::out_of_range` (from `std::vector::at`), or run into undefined
behaviour (null or dangling pointer, `front()` of an empty list, an iterator past the end).
The three cases are kept apart so that undefined behaviour is never silently totalised.
-/

namespace Verif

/-- Result of a `const` member function: a value, an exception, or undefined behaviour. -/
inductive Res (A : Type) where
  | val (a : A)
  | throws
  | ub
  deriving DecidableEq, Repr

/-- Result of a mutating member function on an object with state `S`.
`ok s a`: returned `a`, object is now `s`.  `throws s`: `std::out_of_range` escaped, object is now `s`.
`ub`: undefined behaviour, no statement about the state is possible. -/
inductive Outcome (S A : Type) where
  | ok (s : S) (a : A)
  | throws (s : S)
  | ub
  deriving DecidableEq, Repr

namespace Outcome

/-- The state after the call, if the call left one behind (returned or threw). -/
def state? {S A : Type} : Outcome S A → Option S
  | ok s _ => some s
  | throws s => some s
  | ub => none

end Outcome

/-- C++ `IsValid...Index(index)`: `(0 <= index) && (index < kSize)` with `int` operands.
E.g. `/repo/src/transmissionline/alignment.cc` L185-188. -/
def validIndex (i : Int) (size : Nat) : Bool := decide (0 ≤ i) && decide (i < size)

theorem validIndex_iff {i : Int} {n : Nat} : validIndex i n = true ↔ 0 ≤ i ∧ i < n := by
  simp [validIndex]

theorem validIndex_natCast {i n : Nat} : validIndex (i : Int) n = true ↔ i < n := by
  simp [validIndex]

theorem validIndex_toNat {i : Int} {n : Nat} (h : validIndex i n = true) :
    i.toNat < n ∧ ((i.toNat : Nat) : Int) = i := by
  rw [validIndex_iff] at h
  omega

end Verif
