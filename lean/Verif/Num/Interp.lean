import Mathlib.Algebra.Order.Field.Basic
/-
Model of `interp2d` (trunk/SUAVE/Core/Utilities.py:11-56), one query at a time.

Simplifications: exact arithmetic; a grid axis is its length `n` and its points `xs 0 … xs (n-1)`;
`np.searchsorted(xp, x, side="right")` is the number of points `≤ x`, which is what binary
search returns on the sorted axes the function requires.
-/

namespace Verif.Num

variable {K : Type} [Field K] [LinearOrder K]

/-- `np.searchsorted(…, side="right")`. -/
def searchRight (n : Nat) (xs : Nat → K) (x : K) : Nat := (List.range n).countP fun i => decide (xs i ≤ x)

/-- Line 30 (31): `np.clip(…, 1, len - 1)`. -/
def cellIdx (n : Nat) (xs : Nat → K) (x : K) : Nat := min (max (searchRight n xs x) 1) (n - 1)

/-- A table: two axes and the values `zp[i,j]`. -/
structure Grid (K : Type) where
  nx : Nat
  ny : Nat
  xs : Nat → K
  ys : Nat → K
  z : Nat → Nat → K

/-- Lines 30-48. -/
def Grid.raw (g : Grid K) (x y : K) : K :=
  let ix := cellIdx g.nx g.xs x
  let iy := cellIdx g.ny g.ys y
  let z11 := g.z (ix - 1) (iy - 1)
  let z21 := g.z ix (iy - 1)
  let z12 := g.z (ix - 1) iy
  let z22 := g.z ix iy
  let xy1 := (g.xs ix - x) / (g.xs ix - g.xs (ix - 1)) * z11 + (x - g.xs (ix - 1)) / (g.xs ix - g.xs (ix - 1)) * z21
  let xy2 := (g.xs ix - x) / (g.xs ix - g.xs (ix - 1)) * z12 + (x - g.xs (ix - 1)) / (g.xs ix - g.xs (ix - 1)) * z22
  (g.ys iy - y) / (g.ys iy - g.ys (iy - 1)) * xy1 + (y - g.ys (iy - 1)) / (g.ys iy - g.ys (iy - 1)) * xy2

/-- The whole function with the optional fill value (50-54). -/
def Grid.interp (g : Grid K) (fill : Option K) (x y : K) : K :=
  match fill with
  | none => g.raw x y
  | some v => if x < g.xs 0 ∨ x > g.xs (g.nx - 1) ∨ y < g.ys 0 ∨ y > g.ys (g.ny - 1) then v else g.raw x y

end Verif.Num
