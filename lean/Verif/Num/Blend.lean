import Mathlib.Analysis.SpecialFunctions.Log.Basic
import Mathlib.Analysis.SpecialFunctions.Exp
/-
Model of `Cubic_Spline_Blender` (trunk/SUAVE/Methods/Utilities/Cubic_Spline_Blender.py:18-100)
and `soft_max` (trunk/SUAVE/Methods/Utilities/soft_max.py:16-39), one number at a time, over the
reals (no rounding, no overflow).
-/

namespace Verif.Num

open Real

/-- `eta_transform` (77-100). -/
noncomputable def eta (xs xe x : ℝ) : ℝ := (x - xs) / (xe - xs)

/-- `compute` (52-75): polynomial, then the two masked assignments. -/
noncomputable def blend (xs xe x : ℝ) : ℝ :=
  let e := eta xs xe x
  let y := 2 * e * e * e - 3 * e * e + 1
  let y := if e < 0 then 1 else y
  if e > 1 then 0 else y

/-- `soft_max` (35-39). -/
noncomputable def softMax (x1 x2 : ℝ) : ℝ :=
  let mx := max x1 x2
  let mn := min x1 x2
  mx + log (1 + exp (mn - mx))

end Verif.Num
