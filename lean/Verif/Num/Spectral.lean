import Mathlib.LinearAlgebra.Matrix.NonsingularInverse
import Mathlib.Analysis.SpecialFunctions.Trigonometric.Basic
/-
Model of `chebyshev_data` (trunk/SUAVE/Methods/Utilities/Chebyshev/chebyshev_data.py:13-90) and
`linear_data` (…/linear_data.py:13-91).

Simplifications: real arithmetic; `np.linalg.inv` returns the exact inverse and raises exactly
when the matrix is singular.  The number of points is `N = n+2`; for `N ≤ 0` both functions
raise (`specSize`), for `N = 1` the source divides zero by zero and is not modelled.
-/

namespace Verif.Num

open Real

/-- Lines 45-46 of both functions: rejected sizes. -/
def specSize (N : Int) : Option Nat := if N ≤ 0 then none else some N.toNat

/-- Line 52: Chebyshev control points on [0,1]. -/
noncomputable def chebNode (n : Nat) (i : Fin (n + 2)) : ℝ := 1 / 2 * (1 - cos (π * (i : ℕ) / (n + 1 : ℕ)))

/-- linear_data.py:53: equally spaced points on [0,1]. -/
noncomputable def linNode (n : Nat) (i : Fin (n + 2)) : ℝ := (i : ℕ) / (n + 1 : ℕ)

/-- Lines 58-59: `[2,1,…,1,2]` with alternating signs. -/
noncomputable def specC (n : Nat) (i : Fin (n + 2)) : ℝ := (if (i : ℕ) = 0 ∨ (i : ℕ) = n + 1 then 2 else 1) * (-1) ^ (i : ℕ)

/-- Lines 60-71: `cs.T / (A - A.T + I)`. -/
noncomputable def specRaw (n : Nat) (x : Fin (n + 2) → ℝ) (i j : Fin (n + 2)) : ℝ :=
  (specC n i * (1 / specC n j)) / (x i - x j + (if i = j then 1 else 0))

/-- Line 74: subtract the row sums from the diagonal. -/
noncomputable def specD (n : Nat) (x : Fin (n + 2) → ℝ) : Matrix (Fin (n + 2)) (Fin (n + 2)) ℝ :=
  fun i j => specRaw n x i j - (if i = j then ∑ k, specRaw n x i k else 0)

/-- `D[1:,1:]` (80). -/
noncomputable def specSub (n : Nat) (x : Fin (n + 2) → ℝ) : Matrix (Fin (n + 1)) (Fin (n + 1)) ℝ :=
  (specD n x).submatrix Fin.succ Fin.succ

open Classical in
/-- Lines 80-84: the inverse of `D[1:,1:]` bordered by a zero row and column; `none` when the
matrix is singular (LinAlgError). -/
noncomputable def specI (n : Nat) (x : Fin (n + 2) → ℝ) : Option (Matrix (Fin (n + 2)) (Fin (n + 2)) ℝ) :=
  if IsUnit (specSub n x) then
    some fun i j => Fin.cases 0 (fun i' => Fin.cases 0 (fun j' => (specSub n x)⁻¹ i' j') j) i
  else none

end Verif.Num
