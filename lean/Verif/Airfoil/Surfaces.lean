import Verif.Airfoil.BoundaryLayer

/-!
# Joining the parts of a boundary layer

Model of how `trunk/SUAVE/Methods/Aerodynamics/Airfoil_Panel_Method/airfoil_analysis.py` tells the two surfaces of a section apart (99-114, 239-254), joins
the laminar and the turbulent part of each (146-149, 158-159, 175-234) and joins the surfaces (492-524), for one case and one Reynolds number.  Panels are numbered from
the lower trailing edge around the nose; on the lower surface the arrays are turned round (101).  An array with a mask is a function with a predicate.  Not
modelled: the computation of the values, and sections where a surface has no panels.
-/

namespace Verif.Airfoil

/-- Panels of the lower surface that are left out before the difference (99-101): those with a velocity greater than zero, in flow order. -/
noncomputable def lowerRaw (n : ℕ) (vt : ℕ → ℝ) (j : ℕ) : Prop := 0 < vt (n - 1 - j)

/-- Panels of the upper surface that are left out (239-241): those with a velocity less than zero. -/
noncomputable def upperRaw (vt : ℕ → ℝ) (j : ℕ) : Prop := vt j < 0

open Classical in
/-- The panels of the arc length that count (104-114, 244-254): the difference leaves out the panel behind one left out, and the last of the panels left out
is taken in again. -/
noncomputable def counted (n : ℕ) (raw : ℕ → Prop) (j : ℕ) : Bool :=
  let mask := fun i => decide (raw i) || (decide (0 < i) && decide (raw (i - 1)))
  let count := ((List.range n).filter mask).length
  if j = count - 1 then true else !mask j

/-- One surface (175-234): the panels that do not meet the criterion with the laminar value, then those that do with the turbulent one. -/
def joinParts {α : Type} (n : ℕ) (met : ℕ → Bool) (lam turb : ℕ → α) : List α :=
  ((List.range n).filter fun j => !met j).map lam ++ ((List.range n).filter met).map turb

/-- `concatenate_surfaces` (518-524): `none` for the error when the number of panels does not come out. -/
noncomputable def joinSurfaces {α : Type} (n : ℕ) (vt : ℕ → ℝ) (bot top : List α) : Option (List α) :=
  let low := (bot.zipIdx.filter fun p => counted n (lowerRaw n vt) p.2).map Prod.fst
  let up := (top.zipIdx.filter fun p => counted n (upperRaw vt) p.2).map Prod.fst
  if (low.reverse ++ up).length = n then some (low.reverse ++ up) else none

open Classical in
/-- Arc length of the turbulent part as put back on the surface (158-159, 195, 298-299, 334), for the arc lengths `x` and the transition panel `k`: panels
before the transition are left at zero by `heads_method`. -/
noncomputable def turbulentX (x : ℕ → ℝ) (k j : ℕ) : ℝ := (if x j - x k < 0 then 0 else x j - x k) + x k

end Verif.Airfoil
