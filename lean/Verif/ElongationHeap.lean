import Verif.PolyHeapLemmas

/-!
# Elongation models and their polynomials

A `CableElongationModel` owns four `Polynomial` members: creep and load-strain of the core and of the shell
(`include/models/sagtension/cable_elongation_model.h`, members `model_core_` and `model_shell_`;
`include/models/sagtension/cable_component_elongation_model.h` L424-430).  Neither class declares a copy constructor or
an assignment operator, so models are copied memberwise, down to the pointers inside the polynomials.  Here a model is
only its polynomials: model `j` owns the polynomials `4 j` to `4 j + 3` of `Verif.PolyHeap`, in that order.

The numbers that are computed do not matter for the memory; the arguments of the polynomial calls are left open.
The same holds for the reloaders and unloaders of line cables, which have such models as members.
-/

namespace Verif.ElongationHeap

open PolyHeap

/-- What the member functions of a model ask of one of its polynomials. -/
inductive Ask where
  | y (x : ℝ)
  | slope (x : ℝ)
  | solve (target guess : ℝ)

/-- The call on the polynomial `p`.  `StrainPolynomial` asks for `X` with two decimals,
`cable_component_elongation_model.cc` L517-529. -/
def Ask.op (p : ℕ) : Ask → Op
  | .y x => .y p x
  | .slope x => .slope p x
  | .solve t g => .solveX p t 2 g

/-- The vectors that hold the creep and the load-strain coefficients of a component. -/
structure Coefficients where
  creep : ℕ
  loadStrain : ℕ

/-- Calls of a program. -/
inductive Call where
  /-- the caller makes or destroys a coefficient vector -/
  | newVector (cs : List ℝ)
  | freeVector (v : ℕ)
  /-- `CableElongationModel()` -/
  | construct
  /-- a new model from the model `j` -/
  | copy (j : ℕ)
  /-- `j = i` -/
  | assign (j i : ℕ)
  /-- `~CableElongationModel()` -/
  | destroy (j : ℕ)
  /-- `set_cable` with a cable whose core and shell are enabled (`some`) or not; the limits of its polynomials and the
  strains at them -/
  | setCable (j : ℕ) (core shell : Option Coefficients) (limit strain : ℝ)
  /-- a query or a validation: calls on the polynomials `4 j + k` -/
  | query (j : ℕ) (asks : List (Fin 4 × Ask))

open Classical in
/-- One half of `UpdateModulusExtrapolate`, `cable_component_elongation_model.cc` L562-584 and L586-606: nothing for an
empty polynomial. -/
noncomputable def modulus (m : Mem) (p v : ℕ) (limit strain : ℝ) : List Op :=
  if m.vec v = some [] then [] else [.solveX p limit 2 0.1, .slope p strain]

/-- A component of `set_cable`, `cable_elongation_model.cc` L187-206.  An enabled component is set with
`set_component_cable`, `cable_component_elongation_model.cc` L192-216.  A disabled one is overwritten by a new component
model: memberwise, so the old pointer to a derivative is lost; the temporary object is left out. -/
noncomputable def setPart (m : Mem) (p : ℕ) (limit strain : ℝ) : Option Coefficients → Option Mem
  | some c => exec m ([.setCoefficients p (.user c.creep), .setCoefficients (p + 1) (.user c.loadStrain)] ++
      modulus m p c.creep limit strain ++ modulus m (p + 1) c.loadStrain limit strain)
  | none => match m.obj p, m.obj (p + 1) with
    | some _, some _ => some ((m.put p ⟨none, [], none, false⟩).put (p + 1) ⟨none, [], none, false⟩)
    | _, _ => none

/-- A call; `none` is undefined behaviour.  Members are destroyed in reverse order. -/
noncomputable def Call.run (m : Mem) : Call → Option Mem
  | .newVector cs => exec m [.newVector cs]
  | .freeVector v => exec m [.freeVector v]
  | .construct => exec m [.construct, .construct, .construct, .construct]
  | .copy j => exec m [.copy (4 * j), .copy (4 * j + 1), .copy (4 * j + 2), .copy (4 * j + 3)]
  | .assign j i => exec m [.assign (4 * j) (4 * i), .assign (4 * j + 1) (4 * i + 1), .assign (4 * j + 2) (4 * i + 2),
      .assign (4 * j + 3) (4 * i + 3)]
  | .destroy j => exec m [.destroy (4 * j + 3), .destroy (4 * j + 2), .destroy (4 * j + 1), .destroy (4 * j)]
  | .setCable j core shell limit strain =>
    (setPart m (4 * j) limit strain core).bind fun m => setPart m (4 * j + 2) limit strain shell
  | .query j asks => exec m (asks.map fun a => a.2.op (4 * j + a.1))

/-- A program; `none` once a call is undefined. -/
noncomputable def run (m : Mem) : List Call → Option Mem
  | [] => some m
  | c :: cs => (c.run m).bind fun m => run m cs

/-- The model `j` is alive. -/
def Alive (m : Mem) (j : ℕ) : Prop := m.obj (4 * j) ≠ none

/-- The vectors of a component are alive. -/
def Coefficients.Alive (m : Mem) (c : Coefficients) : Prop := m.vec c.creep ≠ none ∧ m.vec c.loadStrain ≠ none

/-- What a caller has to take care of: models and vectors are used while they are alive. -/
def Call.Live (m : Mem) : Call → Prop
  | .newVector _ | .construct => True
  | .freeVector v => m.vec v ≠ none
  | .copy j | .destroy j => Alive m j
  | .assign j i => Alive m j ∧ Alive m i
  | .setCable j core shell _ _ => Alive m j ∧ (∀ c, core = some c → c.Alive m) ∧ ∀ c, shell = some c → c.Alive m
  | .query j asks => Alive m j ∧ ∀ a ∈ asks, ∃ o v, m.obj (4 * j + a.1) = some o ∧ o.coefficients = some (.user v) ∧
      m.vec v ≠ none

/-- Every call of the program is made on live objects. -/
def Legal (m : Mem) : List Call → Prop
  | [] => True
  | c :: cs => c.Live m ∧ ∀ m1, c.run m = some m1 → Legal m1 cs

/-- The model that a call gives a cable with an enabled component to, or asks. -/
def Call.uses : Call → Option ℕ
  | .setCable j core shell _ _ => if core.isSome || shell.isSome then some j else none
  | .query j _ => some j
  | _ => none

/-- The model that a call copies. -/
def Call.copies : Call → Option ℕ
  | .copy j | .assign _ j => some j
  | _ => none

/-- The model in which a call overwrites component models. -/
def Call.overwrites : Call → Option ℕ
  | .assign j _ => some j
  | .setCable j core shell _ _ => if core.isSome && shell.isSome then none else some j
  | _ => none

/-- Only models are copied that have not been used before. -/
def CopiesUnused (past : List Call) : List Call → Prop
  | [] => True
  | c :: cs => (∀ j, c.copies = some j → ∀ o ∈ past, o.uses ≠ some j) ∧ CopiesUnused (c :: past) cs

/-- Component models are overwritten only in models that have not been used before (or in the same call). -/
def OverwritesUnused (past : List Call) : List Call → Prop
  | [] => True
  | c :: cs => (∀ j, c.overwrites = some j → ∀ o ∈ past, o.uses ≠ some j) ∧ OverwritesUnused (c :: past) cs

end Verif.ElongationHeap
