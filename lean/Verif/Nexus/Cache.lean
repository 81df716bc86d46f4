/-
Model of the evaluation cache of the optimization framework
(trunk/SUAVE/Optimization/Nexus.py, `evaluate` 75-103 and `_really_evaluate` 106-139).

Simplifications
* `I` is the input table, `F` the fidelity level, `S` everything else the Nexus holds
  (vehicle configurations, missions, results, summary, ...).
* `unpack x i` is the table after `scale_input_values`/`limit_input_values`
  (`unpack_inputs`, lines 315-321; modelled concretely in `Verif/Nexus/Table.lean`);
  `put i s` is `set_values` (line 329, modelled in `Verif/Nexus/Alias.lean`).
* A step is a function on the state that can raise after having changed it; it does not
  change the input table, the fidelity level or the cache fields.  A step with an
  `evaluate` method and a plain function step (lines 131-134) are both of this form; a
  plain step is assumed to return the Nexus it was given.
* `inputs == last_inputs` is equality of tables (no NaN, no broadcasting between tables of
  different shapes); `last_inputs is None` compares unequal.
-/

namespace Verif.Nexus

/-- What is fixed for one optimization problem. -/
structure Problem (X I F S : Type) where
  /-- lines 315-321 -/
  unpack : Option X → I → I
  /-- line 329; the flag is `false` when it raises -/
  put : I → S → S × Bool
  /-- the steps of `procedure` in order, lines 130-135 -/
  steps : List (I → F → S → S × Bool)

/-- The Nexus object. -/
structure Nx (I F S : Type) where
  inputs : I
  fidelity : F
  force : Bool
  lastInputs : Option I
  lastFidelity : Option F
  count : Nat
  st : S

variable {X I F S : Type}

/-- Run the steps in order, stopping at the first one that raises (lines 130-135). -/
def runSteps (steps : List (I → F → S → S × Bool)) (i : I) (f : F) (s : S) : S × Bool :=
  match steps with
  | [] => (s, true)
  | p :: ps =>
    let r := p i f s
    if r.2 then runSteps ps i f r.1 else (r.1, false)

/-- How an `evaluate` call ended. -/
inductive Outcome where
  | ran | skipped | raised
deriving DecidableEq, Repr

/-- `_really_evaluate` (lines 126-139). -/
def reallyEvaluate (P : Problem X I F S) (n : Nx I F S) : Nx I F S × Outcome :=
  let r := runSteps P.steps n.inputs n.fidelity n.st
  let n := { n with count := n.count + 1, st := r.1 }
  if r.2 then
    ({ n with lastInputs := some n.inputs, lastFidelity := some n.fidelity }, .ran)
  else (n, .raised)

/-- `evaluate` (lines 95-103). -/
def evaluate [DecidableEq I] [DecidableEq F] (P : Problem X I F S) (n : Nx I F S) (x : Option X) :
    Nx I F S × Outcome :=
  let i := P.unpack x n.inputs
  let r := P.put i n.st
  let n := { n with inputs := i, st := r.1 }
  if !r.2 then (n, .raised)
  else if n.lastInputs = some n.inputs ∧ n.lastFidelity = some n.fidelity ∧ n.force = false then
    (n, .skipped)
  else reallyEvaluate P n

/-- What a user does with a Nexus between evaluations. -/
inductive Op (X I F : Type) where
  | eval (x : Option X)
  | editInputs (g : I → I)
  | setFidelity (f : F)
  | setForce (b : Bool)

/-- One operation; evaluations report their outcome. -/
def step [DecidableEq I] [DecidableEq F] (P : Problem X I F S) (n : Nx I F S) :
    Op X I F → Nx I F S × Option Outcome
  | .eval x => let r := evaluate P n x; (r.1, some r.2)
  | .editInputs g => ({ n with inputs := g n.inputs }, none)
  | .setFidelity f => ({ n with fidelity := f }, none)
  | .setForce b => ({ n with force := b }, none)

/-- A history; the list holds the state after each operation and its outcome. -/
def trace [DecidableEq I] [DecidableEq F] (P : Problem X I F S) :
    Nx I F S → List (Op X I F) → List (Nx I F S × Option Outcome)
  | _, [] => []
  | n, op :: ops => step P n op :: trace P (step P n op).1 ops

/-- The state after a history. -/
def final [DecidableEq I] [DecidableEq F] (P : Problem X I F S) (n : Nx I F S)
    (ops : List (Op X I F)) : Nx I F S := ops.foldl (fun n op => (step P n op).1) n

/-- A new Nexus (`__defaults__`, lines 61-73) on a given problem and state. -/
def fresh (i : I) (f : F) (s : S) : Nx I F S :=
  { inputs := i, fidelity := f, force := false, lastInputs := none, lastFidelity := none,
    count := 0, st := s }

/-- The evaluations `finite_difference` makes (Nexus.py:373-392): objective and constraints
at `x`, then objective and constraints at each perturbed point. -/
def fdOps (x : X) (pert : List X) : List (Op X I F) :=
  [.eval (some x), .eval (some x)] ++ pert.flatMap fun y => [.eval (some y), .eval (some y)]

end Verif.Nexus
