import Mathlib.Analysis.SpecialFunctions.Log.Basic

/-!
# The carpet plot of the expected improvement

Model of `expected_improvement_carpet` (`trunk/SUAVE/Optimization/Package_Setups/additive_setup.py`).

Simplifications
* The expected improvement at a grid point is an arbitrary non-negative function of the two indices
  (its formula is that of `expected_improvement`, modelled in `Verif.Optim.Additive`).
* `none` is a number that is not one (the logarithm of a negative number); the logarithm of zero is minus
  infinity, replaced by the code.  Drawing itself is not modelled, only the numbers drawn and printed.
-/

namespace Verif.Optim

open Real

/-- What the method leaves on the screen: the field of the first and of the second figure, by row and
column, and the printed numbers with their two indices. -/
structure ImprovementCarpet where
  field : ℕ → ℕ → ℝ
  printed : List (ℕ × ℕ × ℝ)

open Classical in
/-- Lines 527-529: the logarithm, with minus infinity replaced. -/
noncomputable def logOrFloor (e : ℝ) : ℝ := if e = 0 then -1000 else log e

/-- One pass of the inner loop (520-535): the entry is stored by `[jj,ii]`, `[ii,jj]` is printed. -/
noncomputable def carpetPoint (ei : ℕ → ℕ → ℝ) (c : ImprovementCarpet) (p : ℕ × ℕ) : ImprovementCarpet :=
  let field := Function.update c.field p.2 (Function.update (c.field p.2) p.1 (logOrFloor (ei p.1 p.2)))
  ⟨field, c.printed ++ [(p.1, p.2, field p.1 p.2)]⟩

/-- The two loops (518-535) over an `n` by `n` grid, from the zeros of line 516. -/
noncomputable def improvementCarpet (n : ℕ) (ei : ℕ → ℕ → ℝ) : ImprovementCarpet :=
  ((List.range n).flatMap fun i => (List.range n).map fun j => (i, j)).foldl (carpetPoint ei) ⟨fun _ _ => 0, []⟩

open Classical in
/-- The field of the second figure (line 549): the logarithm of the first. -/
noncomputable def secondFigure (c : ImprovementCarpet) (r k : ℕ) : Option ℝ :=
  if c.field r k ≤ 0 then none else some (log (c.field r k))

end Verif.Optim
