import Mathlib.Algebra.Order.Field.Basic
import Mathlib.Data.List.ProdSigma
/-
Model of the optimizer set-ups
(trunk/SUAVE/Optimization/Package_Setups/{scipy,ipopt,pyopt,pyoptsparse,pyopt_surrogate}_setup.py)
as far as they translate the constraint table.

Simplifications
* A constraint row is its comparison symbol, bound, scale, unit factor and the physical value
  of its quantity as a function of the design point (how that value is obtained is modelled in
  Verif.Nexus).
* Numbers are elements of a linearly ordered field; NaN appears only in the failure flag, as
  `none`.
-/

namespace Verif.Optim

variable {K : Type} [Field K] [LinearOrder K] {X : Type}

/-- Column 1 of the constraint table. -/
inductive Cmp where
  | lt | gt | eq
deriving DecidableEq, Repr

/-- A row of the constraint table with the quantity it constrains. -/
structure Con (K X : Type) where
  cmp : Cmp
  bound : K
  scale : K
  units : K
  value : X → K

/-- `help_fun.scale_const_bnds` (helper_functions.py:319-346), one row. -/
def Con.bnd (c : Con K X) : K := c.bound * c.units

/-- `help_fun.scale_const_values` (293-316), one row. -/
def Con.scaled (c : Con K X) (v : K) : K := v / c.scale

/-- `Nexus.all_constraints` (Nexus.py:265-292), one row: the number the optimizer sees. -/
def Con.seen (c : Con K X) (x : X) : K := c.scaled (c.value x)

/-- Lower and upper limit handed to an optimizer; `none` is infinite or absent. -/
abbrev Limits (K : Type) := Option K × Option K

/-- The solver's reading of the limits. -/
def Limits.ok (l : Limits K) (v : K) : Prop :=
  (∀ a, l.1 = some a → a ≤ v) ∧ (∀ b, l.2 = some b → v ≤ b)

/-- `Pyopt_Solve` (pyopt_setup.py:73-74, 87-96) and `Pyoptsparse_Solve`
(pyoptsparse_setup.py:78-79, 92-101): limits on `Nexus.all_constraints`. -/
def Con.pyopt (c : Con K X) : Limits K :=
  let edge := c.scaled c.bnd
  match c.cmp with
  | .lt => (none, some edge)
  | .gt => (some edge, none)
  | .eq => (some edge, some edge)

/-- `Ipopt_Solve` (ipopt_setup.py:73-84): limits on `Nexus.all_constraints` (eval_g, 217). -/
def Con.ipopt (c : Con K X) : Limits K :=
  let edge := c.bound
  match c.cmp with
  | .lt => (none, some edge)
  | .gt => (some edge, none)
  | .eq => (some edge, some edge)

/-- `pyopt_surrogate_setup` (pyopt_surrogate_setup.py:57-59, 71-79): `none` when no constraint
is added at all (the branch of line 78 repeats the test of line 75). -/
def Con.surrogate (c : Con K X) : Option (Limits K) :=
  let edge := c.scaled c.bnd * c.units
  if c.cmp = .lt then some (none, some edge)
  else if c.cmp = .gt then some (some edge, none)
  else if c.cmp = .gt then some (some edge, some edge)
  else none

/-! ### SciPy differential evolution (scipy_setup.py:81-104)

`fun` is a closure over the local variable `de_constraint`, so it reads the value the variable
has when it is called, i.e. after the loop.  A closure is therefore represented by what it
captures: the variable, not its value. -/

/-- A `NonlinearConstraint` object: its limits; its function is the shared closure. -/
structure NLC (K : Type) where
  limits : Limits K

/-- The local variables of the loop. -/
structure DELoop (K X : Type) where
  deConstraint : Option (Con K X)
  nlc : Option (NLC K)
  out : List (NLC K)

/-- One pass of the loop (83-102); `none` is the `NameError` of an unassigned `nlc`. -/
def deStep (s : DELoop K X) (c : Con K X) : Option (DELoop K X) :=
  let nlc : Option (NLC K) :=
    match c.cmp with
    | .gt => some ⟨(some c.bnd, none)⟩
    | .lt => some ⟨(none, some c.bnd)⟩
    | .eq => s.nlc
  match nlc with
  | none => none
  | some o => some { deConstraint := some c, nlc := some o, out := s.out ++ [o] }

/-- The loop over the table. -/
def deLoop : DELoop K X → List (Con K X) → Option (DELoop K X)
  | s, [] => some s
  | s, c :: cs => (deStep s c).bind fun s' => deLoop s' cs

/-- The constraint objects handed to SciPy: limits and the function each one evaluates, read
from the variable's value after the loop (85-88). -/
def deConstraints (cs : List (Con K X)) : Option (List (Limits K × (X → K))) :=
  (deLoop ⟨none, none, []⟩ cs).bind fun s =>
    match s.deConstraint with
    | none => some []
    | some last => some (s.out.map fun o => (o.limits, last.value))

/-! ### IPOPT structure -/

/-- `make_structure` (ipopt_setup.py:223-264): row and column arrays. -/
def makeStructure (ncon nvar : Nat) : List Nat × List Nat :=
  ((List.range (nvar * ncon)).map fun nn => nn / nvar, (List.range (nvar * ncon)).map fun nn => nn % nvar)

/-- `np.reshape(jac_g, np.size(jac_g))` (167) of the `ncon × nvar` array. -/
def flatten {V : Type} {ncon nvar : Nat} (jac : Fin ncon → Fin nvar → V) : List V :=
  (List.ofFn fun i => List.ofFn (jac i)).flatten

/-! ### Failure flag (pyopt_setup.py:187, pyoptsparse_setup.py:192) -/

/-- A float that may be NaN. -/
abbrev MaybeNaN (K : Type) := Option K

/-- `array.any()`: NaN counts as true. -/
def anyTruthy (l : List (MaybeNaN K)) : Bool := l.any fun v => match v with
  | none => true
  | some a => decide (a ≠ 0)

/-- `np.isnan` of a Python/NumPy bool. -/
def isnanBool (_ : Bool) : Bool := false

/-- `np.isnan(obj.tolist()) or np.isnan(np.array(const).any())` for a single objective. -/
def failFlag (obj : MaybeNaN K) (con : List (MaybeNaN K)) : Bool := obj.isNone || isnanBool (anyTruthy con)

end Verif.Optim
