import Verif.Airfoil.BoundaryLayer

/-!
# Start of the turbulent layer

Model of the entrainment shape factor with which the turbulent part of a boundary layer starts: `getH1` and its use in
`trunk/SUAVE/Methods/Aerodynamics/Airfoil_Panel_Method/heads_method.py` (82-88, 189-206), for one surface at one condition, over the reals.
A number that is not finite is kept as numpy has it.
-/

namespace Verif.Airfoil

/-- A float that may be infinite or not a number. -/
inductive Num where
  | nan
  | inf
  | val (x : ℝ)

open Classical in
/-- `getH1` (203-206): a negative number to a broken power is not a number, zero to a negative power is infinite. -/
noncomputable def headH1 (h : ℝ) : Num :=
  if 1.6 < h then .val (3.3 + 1.5501 * (h - 0.6778) ^ (-3.064 : ℝ))
  else if h < 1.1 then .nan
  else if h = 1.1 then .inf
  else .val (3.3 + 0.8234 * (h - 1.1) ^ (-1.287 : ℝ))

/-- Lines 83-87: the entrainment shape factor at transition from the three thicknesses of the laminar layer. -/
noncomputable def headStart (del delStar theta : ℝ) : Num :=
  match headH1 (delStar / theta) with
  | .nan => .val ((del - delStar) / theta)
  | r => r

end Verif.Airfoil
