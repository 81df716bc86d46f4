import Verif.Optim.SurrogateFail
import Mathlib.Tactic.NormNum
/-
C406: failures of surrogates.
-/

namespace Verif.Optim

/-- **C406, partial.** The values are those of the surrogates, the constraints in order; a failure is reported exactly if the objective is not a number. -/
theorem C406_objective_partial {X : Type} (obj : X → Option ℝ) (cons : List (X → Option ℝ)) (x : X) :
    (surrogateCompute obj cons x).f = obj x ∧ (surrogateCompute obj cons x).g.length = cons.length
      ∧ (∀ i (h : i < cons.length), (surrogateCompute obj cons x).g[i]? = some (cons[i] x))
      ∧ ((surrogateCompute obj cons x).fail = true ↔ obj x = none) := by
  refine ⟨rfl, by simp [surrogateCompute], fun i h => by simp [surrogateCompute, h], ?_⟩
  simp [surrogateCompute, isNan, boolNumber]

/-- **C406, false of the code.** Constraints that are no numbers are not reported, however many. -/
theorem C406_constraints_counterexample {X : Type} (obj : X → Option ℝ) (x : X) (v : ℝ) (h : obj x = some v) (n : ℕ) :
    (surrogateCompute obj (List.replicate n fun _ => none) x).fail = false := by
  simp [surrogateCompute, isNan, boolNumber, h]

/-- One objective, two constraints, one of them not a number. -/
example : (surrogateCompute (fun x : ℝ => some (x + 1)) [fun x => some x, fun _ => none] 2).fail = false
    ∧ none ∈ (surrogateCompute (fun x : ℝ => some (x + 1)) [fun x => some x, fun _ => none] 2).g := by
  constructor
  · simp [surrogateCompute, isNan, boolNumber]
  · simp [surrogateCompute]

end Verif.Optim
