import Mathlib.Data.Real.Basic
/-
`compute` of trunk/SUAVE/Surrogate/Surrogate_Problem.py (27-48) at one point.

Simplifications
* A number that is not a number is `none`. The surrogates are functions; each gives one value.
-/

namespace Verif.Optim

/-- What an optimizer gets of a surrogate problem: objective, constraints, failure. -/
structure Answer where
  f : Option ℝ
  g : List (Option ℝ)
  fail : Bool

/-- `np.isnan` of a number. -/
def isNan (x : Option ℝ) : Bool := x.isNone

open Classical in
/-- `np.array(g).any()`: something in it is not zero; nan counts as true. -/
noncomputable def anyTrue (g : List (Option ℝ)) : Bool := g.any fun x => decide (x ≠ some 0)

/-- A truth value as a number. -/
def boolNumber (b : Bool) : Option ℝ := some (if b then 1 else 0)

/-- `compute` (39-48). The bracket of line 46 closes after `any()`. -/
noncomputable def surrogateCompute {X : Type} (obj : X → Option ℝ) (cons : List (X → Option ℝ)) (x : X) : Answer :=
  let f := obj x
  let g := cons.map fun c => c x
  ⟨f, g, isNan f || isNan (boolNumber (anyTrue g))⟩

end Verif.Optim
