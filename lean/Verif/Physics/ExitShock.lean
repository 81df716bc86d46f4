import Mathlib.Analysis.SpecialFunctions.Pow.Real

/-!
# The Mach number leaving a nozzle that has a shock inside

Model of `exit_Mach_shock` (`trunk/SUAVE/Methods/Propulsion/nozzle_calculations.py`).

Arrays are modelled row by row.  `fsolve` is an external solver: its result is any number that makes
the function given to it zero.
-/

namespace Verif.Physics.ExitShock

/-- The function given to `fsolve` by `exit_Mach_shock` (nozzle_calculations.py:36). -/
noncomputable def exitFun (areaRatio γ Pt P0 Me : ℝ) : ℝ :=
  (Pt / P0) * (1 / areaRatio) -
    (((γ + 1) / 2) ^ ((γ + 1) / (2 * (γ - 1)))) * Me * ((1 + (γ - 1) / 2 * Me ^ (2 : ℝ)) ^ (1 / 2 : ℝ))

/-- What `exit_Mach_shock` returns (nozzle_calculations.py:44-46): any root found by the solver. -/
def IsExitMach (areaRatio γ Pt P0 Me : ℝ) : Prop := exitFun areaRatio γ Pt P0 Me = 0

end Verif.Physics.ExitShock
