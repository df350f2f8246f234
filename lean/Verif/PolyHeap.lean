import Verif.Polynomial

/-!
# Model of `base/polynomial.cc` with its pointers

`Verif.Polynomial` identifies a polynomial with its coefficients.  Here the pointers are kept: the coefficient vector
belongs to the caller, the cached derivative is a polynomial on the heap that points back into the object, and objects
are copied memberwise (the class declares a destructor but no copy constructor and no assignment operator,
`include/models/base/polynomial.h` L22-116).

Vectors, polynomials and heap cells have numbers that are not used again; `none` stands for something that is gone.
`none` as the result of a call is undefined behaviour.  An exception is an answer, `threw`: the caller goes on.
The cell made by `UpdateDerivative` is a polynomial of which only `coefficients_` is ever set, so a cell is that pointer.
Copying an object whose `coefficients_` was never set copies an indeterminate pointer; this is taken as harmless.
-/

namespace Verif.PolyHeap

/-- A `const std::vector<double>*`: null, a vector of the caller, or the member `coefficients_derivative_` of the
polynomial `p`. -/
inductive VecPtr where
  | null
  | user (v : ℕ)
  | member (p : ℕ)
  deriving DecidableEq

/-- `Polynomial`, `include/models/base/polynomial.h` L99-115: `coefficients_` (`none`: never set),
`coefficients_derivative_`, `derivative_` (`none`: null) and the flag. -/
structure Obj where
  coefficients : Option VecPtr
  cache : List ℝ
  derivative : Option ℕ
  isUpdated : Bool

/-- The caller's vectors, the polynomials and the heap. -/
structure Mem where
  vectors : List (Option (List ℝ))
  objects : List (Option Obj)
  heap : List (Option VecPtr)

/-- What a call returns. -/
inductive Ans where
  | done
  | threw
  | num (x : ℝ)
  | flag (b : Bool)

/-- Nothing made yet. -/
def Mem.empty : Mem := ⟨[], [], []⟩

namespace Mem

/-- The vector `v`, if it is alive. -/
def vec (m : Mem) (v : ℕ) : Option (List ℝ) := (m.vectors[v]?).join

/-- The polynomial `p`, if it is alive. -/
def obj (m : Mem) (p : ℕ) : Option Obj := (m.objects[p]?).join

/-- The heap cell `a`, if it is allocated. -/
def cell (m : Mem) (a : ℕ) : Option VecPtr := (m.heap[a]?).join

/-- Following a pointer to a vector; `none` is undefined behaviour. -/
def deref (m : Mem) : Option VecPtr → Option (List ℝ)
  | none => none
  | some .null => none
  | some (.user v) => m.vec v
  | some (.member p) => (m.obj p).map Obj.cache

/-- The object `p` replaced. -/
def put (m : Mem) (p : ℕ) (o : Obj) : Mem := { m with objects := m.objects.set p (some o) }

/-- A new object. -/
def add (m : Mem) (o : Obj) : Mem := { m with objects := m.objects ++ [some o] }

/-- `delete derivative_`: nothing for a null pointer, undefined for a cell that is gone. -/
def free (m : Mem) : Option ℕ → Option Mem
  | none => some m
  | some a => match m.cell a with
    | none => none
    | some _ => some { m with heap := m.heap.set a none }

/-- `UpdateDerivative`, `polynomial.cc` L162-181, for the polynomial `o` at `p`, and the assignment of the flag, L152-153.
The member vector is cleared (L166) before the coefficients are read; a polynomial whose coefficients are that vector
finds it empty, and `at` (L169) throws unless there was at most one. -/
def updateDerivative (m : Mem) (p : ℕ) (o : Obj) : Option (Mem × Bool) :=
  match m.deref o.coefficients with
  | none => none
  | some cs =>
    if o.coefficients = some (.member p) ∧ 1 < cs.length then some (m.put p { o with cache := [] }, false)
    else match m.free o.derivative with
      | none => none
      | some m1 =>
        some ({ m1 with
          objects := m1.objects.set p (some ⟨o.coefficients, Poly.derivCoefficients cs, some m1.heap.length, true⟩)
          heap := m1.heap ++ [some (.member p)] }, true)

/-- `IsUpdated() || Update()`, L146-160: the flag tells whether it returned. -/
def update (m : Mem) (p : ℕ) (o : Obj) : Option (Mem × Bool) :=
  if o.isUpdated = true then some (m, true) else m.updateDerivative p o

/-- The coefficients behind `derivative_` of the polynomial `p`. -/
def slopes (m : Mem) (p : ℕ) : Option (List ℝ) :=
  match m.obj p with
  | none => none
  | some o => match o.derivative with
    | none => none
    | some a => match m.cell a with
      | none => none
      | some ptr => m.deref (some ptr)

end Mem

/-- Calls of a program. -/
inductive Op where
  /-- the caller makes, changes and destroys a vector -/
  | newVector (cs : List ℝ)
  | editVector (v : ℕ) (cs : List ℝ)
  | freeVector (v : ℕ)
  /-- `Polynomial()`, L10-13 -/
  | construct
  /-- `Polynomial(coefficients)`, L15-19 -/
  | constructWith (ptr : VecPtr)
  /-- a new polynomial from the polynomial `p` -/
  | copy (p : ℕ)
  /-- `q = p` -/
  | assign (q p : ℕ)
  /-- `~Polynomial()`, L21-23 -/
  | destroy (p : ℕ)
  | setCoefficients (p : ℕ) (ptr : VecPtr)
  | y (p : ℕ) (x : ℝ)
  | slope (p : ℕ) (x : ℝ)
  | solveX (p : ℕ) (target : ℝ) (d : ℤ) (guess : ℝ)
  | validate (p : ℕ)
  /-- a new polynomial from `p.Derivative()` -/
  | derivative (p : ℕ)

open Classical in
/-- A call, `polynomial.cc`; `none` is undefined behaviour. -/
noncomputable def Op.run (m : Mem) : Op → Option (Mem × Ans)
  | .newVector cs => some ({ m with vectors := m.vectors ++ [some cs] }, .done)
  | .editVector v cs => match m.vec v with
    | none => none
    | some _ => some ({ m with vectors := m.vectors.set v (some cs) }, .done)
  | .freeVector v => match m.vec v with
    | none => none
    | some _ => some ({ m with vectors := m.vectors.set v none }, .done)
  | .construct => some (m.add ⟨none, [], none, false⟩, .done)
  | .constructWith ptr => some (m.add ⟨some ptr, [], none, false⟩, .done)
  | .copy p => match m.obj p with
    | none => none
    | some o => some (m.add o, .done)
  | .assign q p => match m.obj p, m.obj q with
    | some o, some _ => some (m.put q o, .done)
    | _, _ => none
  | .destroy p => match m.obj p with
    | none => none
    | some o => match m.free o.derivative with
      | none => none
      | some m1 => some ({ m1 with objects := m1.objects.set p none }, .done)
  -- L140-144
  | .setCoefficients p ptr => match m.obj p with
    | none => none
    | some o => some (m.put p { o with coefficients := some ptr, isUpdated := false }, .done)
  -- L124-134
  | .y p x => match m.obj p with
    | none => none
    | some o => match m.deref o.coefficients with
      | none => none
      | some cs => some (m, .num (Poly.evalY cs x))
  -- L41-48
  | .slope p x => match m.obj p with
    | none => none
    | some o => match m.update p o with
      | none => none
      | some (m1, false) => some (m1, .threw)
      | some (m1, true) => match m1.slopes p with
        | none => none
        | some ds => some (m1, .num (Poly.evalY ds x))
  -- L83-122: the derivative is looked at in the loop only
  | .solveX p target d guess => match m.obj p with
    | none => none
    | some o => match m.update p o with
      | none => none
      | some (m1, false) => some (m1, .threw)
      | some (m1, true) => match m1.deref o.coefficients with
        | none => none
        | some [] => some (m1, .threw)
        | some (c :: cs) =>
          if 1 / (10 : ℝ) ^ d < 999999 then match m1.slopes p with
            | none => none
            | some ds => some (m1, .num (Poly.Obj.newton ((c - target) :: cs) ds (1 / (10 : ℝ) ^ d) 100 guess (-999999)))
          else some (m1, .num guess)
  -- L50-79
  | .validate p => match m.obj p with
    | none => none
    | some o => match o.coefficients with
      | none => none
      | some .null => some (m, .flag false)
      | some _ => match m.update p o with
        | none => none
        | some (m1, false) => some (m1, .threw)
        | some (m1, true) => some (m1, .flag true)
  -- L25-35: a memberwise copy of the cell
  | .derivative p => match m.obj p with
    | none => none
    | some o => match m.update p o with
      | none => none
      | some (m1, false) => some (m1, .threw)
      | some (m1, true) => match m1.obj p with
        | none => none
        | some o1 => match o1.derivative with
          | none => none
          | some a => match m1.cell a with
            | none => none
            | some ptr => some (m1.add ⟨some ptr, [], none, false⟩, .done)

/-- A program: the memory at its end and the last answer; `none` once a call is undefined. -/
noncomputable def exec (m : Mem) : List Op → Option Mem
  | [] => some m
  | op :: ops => match op.run m with
    | none => none
    | some (m1, _) => exec m1 ops

/-- What a caller has to take care of: polynomials and vectors are used while they are alive, and calls that read the
coefficients are made when there are some, or, for `Validate`, when the pointer was set. -/
def Op.Live (m : Mem) : Op → Prop
  | .newVector _ | .construct | .constructWith _ => True
  | .editVector v _ | .freeVector v => m.vec v ≠ none
  | .copy p | .destroy p | .setCoefficients p _ => m.obj p ≠ none
  | .assign q p => m.obj q ≠ none ∧ m.obj p ≠ none
  | .y p _ | .slope p _ | .solveX p _ _ _ | .derivative p =>
      ∃ o, m.obj p = some o ∧ m.deref o.coefficients ≠ none
  | .validate p => ∃ o, m.obj p = some o ∧ (o.coefficients = some .null ∨ m.deref o.coefficients ≠ none)

/-- Every call of the program is made on live objects. -/
def Legal (m : Mem) : List Op → Prop
  | [] => True
  | op :: ops => op.Live m ∧ ∀ m1 a, op.run m = some (m1, a) → Legal m1 ops

/-- The polynomial that a call looks up the derivative of. -/
def Op.uses : Op → Option ℕ
  | .slope p _ | .solveX p _ _ _ | .validate p | .derivative p => some p
  | _ => none

/-- The polynomial that a call copies. -/
def Op.copies : Op → Option ℕ
  | .copy p | .assign _ p => some p
  | _ => none

/-- Only polynomials are copied that have not been asked for a slope, an x, a validation or a derivative before. -/
def CopiesUnused (past : List Op) : List Op → Prop
  | [] => True
  | op :: ops => (∀ p, op.copies = some p → ∀ o ∈ past, o.uses ≠ some p) ∧ CopiesUnused (op :: past) ops

end Verif.PolyHeap
