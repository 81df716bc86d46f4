/-
Model of `Process` (trunk/SUAVE/Analyses/Process.py:18-96) and of `Analysis.Container`
(trunk/SUAVE/Analyses/Analysis.py:163-299).

Simplifications
* A step is either a callable, an object with an `evaluate` method (and possibly callable), or
  another process.  Calling it is an arbitrary function of the arguments and of a state `S`
  (everything mutable the steps can reach), giving the new state and a result or an exception.
* The steps do not add steps to or remove steps from the process that is being evaluated.
* `items()` yields the (tag, step) pairs in insertion order; that is C08 for `DataOrdered`,
  the class behind `ContainerOrdered`.
* The verbose printing is left out.
-/

namespace Verif.Mission

/-- Calling something: arguments, state before; state after, result or exception. -/
abbrev Call (A S E R : Type) := A → S → S × Except E R

/-- An entry of a process. -/
inductive Step (A S E R : Type) where
  /-- something with an optional `evaluate` method and an optional `__call__` -/
  | leaf (evaluate : Option (Call A S E R)) (call : Call A S E R)
  | proc (steps : List (String × Step A S E R))

/-- Results: a leaf's result or the `Data` returned by a nested process. -/
inductive Res (R : Type) where
  | val (r : R)
  | data (l : List (String × Res R))

variable {A S E R : Type}

/-- `results[tag] = result` on the `Data` of line 52. -/
def putKey {V : Type} : List (String × V) → String → V → List (String × V)
  | [], t, v => [(t, v)]
  | (k, w) :: l, t, v => if k = t then (k, v) :: l else (k, w) :: putKey l t v

mutual
/-- One step: lines 64-67. -/
def Step.eval (a : A) : Step A S E R → S → S × Except E (Res R)
  | .leaf (some f) _, s => match f a s with
    | (s', .ok r) => (s', .ok (.val r))
    | (s', .error e) => (s', .error e)
  | .leaf none f, s => match f a s with
    | (s', .ok r) => (s', .ok (.val r))
    | (s', .error e) => (s', .error e)
  | .proc l, s => match evalSteps a l s [] with
    | (s', .ok rs) => (s', .ok (.data rs))
    | (s', .error e) => (s', .error e)
/-- `Process.evaluate`, the loop 57-69; the accumulator is `results`. -/
def evalSteps (a : A) : List (String × Step A S E R) → S → List (String × Res R) →
    S × Except E (List (String × Res R))
  | [], s, acc => (s, .ok acc)
  | (t, st) :: l, s, acc => match Step.eval a st s with
    | (s', .ok r) => evalSteps a l s' (putKey acc t r)
    | (s', .error e) => (s', .error e)
end

/-! ### Analysis containers -/

/-- An analysis: its optional `compile`, `initialize` and `finalize` methods. -/
structure AnalysisObj (A S E R : Type) where
  compile : Option (Call A S E R)
  init : Option (Call A S E R)
  finalize : Option (Call A S E R)

/-- The loop of `compile` (194-196) and `finalize` (269-271): call the method where present. -/
def visit (pick : AnalysisObj A S E R → Option (Call A S E R)) (a : A) :
    List (String × AnalysisObj A S E R) → S → S × Except E Unit
  | [], s => (s, .ok ())
  | (_, o) :: l, s => match pick o with
    | none => visit pick a l s
    | some f => match f a s with
      | (s', .ok _) => visit pick a l s'
      | (s', .error e) => (s', .error e)

/-- `Container.compile` (175-196). -/
def containerCompile (a : A) (l : List (String × AnalysisObj A S E R)) (s : S) := visit (·.compile) a l s

/-- `Container.finalize` (249-271). -/
def containerFinalize (a : A) (l : List (String × AnalysisObj A S E R)) (s : S) := visit (·.finalize) a l s

/-- `Container.initialize` (198-219): line 217 iterates over the bound method `self.items`
instead of its result, a `TypeError` whatever the container holds. -/
def containerInitialize (typeError : E) (_ : A) (_ : List (String × AnalysisObj A S E R)) (s : S) : S × Except E Unit :=
  (s, .error typeError)

end Verif.Mission
