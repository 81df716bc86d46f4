import Verif.Weights.Common
import Mathlib.Analysis.SpecialFunctions.Complex.Log
/-
Bending weight of tapered panels: trunk/SUAVE/Methods/Weights/Correlations/Common/wing_main.py, lines 76-109 and `big_integral` (132-178).

Simplifications
* Real and complex numbers stand for floats; `none` is a division by zero.
-/

namespace Verif.Weights

open Real

/-- `np.sqrt` of a real number given the type of a complex one (`0j + …`). -/
noncomputable def csqrt (r : ℝ) : ℂ := if 0 ≤ r then (√r : ℂ) else Complex.I * (√(-r) : ℂ)

/-- `big_integral` (156-176). -/
noncomputable def bigIntegral (x A B C : ℝ) : ℂ :=
  (1 / (4 * B ^ 3) : ℝ) * (((2 * A ^ 2 * π * x + 4 * A * B * C * π * x + B ^ 2 * (-1 + 2 * C ^ 2) * π * x
    - 2 * (2 * A ^ 2 + 4 * A * B * C + B ^ 2 * (-1 + 2 * C ^ 2)) * √(1 - x ^ 2)
    + 2 / 3 * B * √(1 - x ^ 2) * (3 * A * x + B * (-1 + 3 * C * x + x ^ 2))
    + 2 * B * (A + B * C) * arcsin x
    - 2 * (2 * A ^ 2 + 4 * A * B * C + B ^ 2 * (-1 + 2 * C ^ 2)) * x * arcsin x : ℝ) : ℂ)
    - (4 * (A + B * C) ^ 2 : ℝ) * csqrt (-A ^ 2 - 2 * A * B * C - B ^ 2 * (-1 + C ^ 2)) * (log (A + B * C - B * x) : ℝ) / (B : ℂ)
    - (4 * (A ^ 3 + 3 * A ^ 2 * B * C + B ^ 3 * C * (-1 + C ^ 2) + A * B ^ 2 * (-1 + 3 * C ^ 2)) * x * log (A + B * C - B * x) : ℝ)
      / csqrt (-A ^ 2 - 2 * A * B * C - B ^ 2 * (-1 + C ^ 2))
    + (8 * (A + B * C) ^ 2 : ℝ) * csqrt (-A ^ 2 - 2 * A * B * C - B ^ 2 * (-1 + C ^ 2)) * Complex.log ((-A - B * C + B * x : ℝ) : ℂ) / (B : ℂ)
    + (4 * (A ^ 3 + 3 * A ^ 2 * B * C + B ^ 3 * C * (-1 + C ^ 2) + A * B ^ 2 * (-1 + 3 * C ^ 2)) * x : ℝ)
      * Complex.log (((-B + A * x + B * C * x : ℝ) : ℂ) - csqrt (-A ^ 2 + B ^ 2 - 2 * A * B * C - B ^ 2 * C ^ 2) * (√(1 - x ^ 2) : ℝ))
      / csqrt (-A ^ 2 - 2 * A * B * C - B ^ 2 * (-1 + C ^ 2))
    - ((1 / B) * 4 * (A + B * C) ^ 2 : ℝ) * csqrt (-A ^ 2 - 2 * A * B * C - B ^ 2 * (-1 + C ^ 2))
      * Complex.log (((-B + A * x + B * C * x : ℝ) : ℂ) + csqrt (-A ^ 2 + B ^ 2 - 2 * A * B * C - B ^ 2 * C ^ 2) * (√(1 - x ^ 2) : ℝ))
    + ((1 / B) * 4 * (A + B * C) : ℝ) * csqrt (-(A ^ 2 + 2 * A * B * C + B ^ 2 * (-1 + C ^ 2)) ^ 2)
      * Complex.log (((A ^ 2 * x + 2 * A * B * C * x + B ^ 2 * (-1 + C ^ 2) * x : ℝ) : ℂ)
        + csqrt (-(A ^ 2 + 2 * A * B * C + B ^ 2 * (-1 + C ^ 2)) ^ 2) * (√(1 - x ^ 2) : ℝ)))

/-- What the computation reads of a segment: station, chord fraction, thickness and sweep. -/
structure BendSeg where
  y : ℝ
  chord : ℝ
  tc : ℝ
  sweep : ℝ

/-- Thickness of a wing of root chord `RC` at a segment. -/
def BendSeg.thick (s : BendSeg) (RC : ℝ) : ℝ := RC * s.chord * s.tc

open Classical in
/-- `np.real(WB)` of the panel between two segments (76-109). -/
noncomputable def panelBend (RC : ℝ) (a b : BendSeg) : Option ℝ :=
  if a.chord = b.chord ∧ a.tc = b.tc then some (panelConst b.tc (b.chord * RC) a.sweep a.y b.y)
  else
    let A := a.thick RC
    let B := (A - b.thick RC) / (b.y - a.y)
    if b.y - a.y = 0 ∨ B = 0 then none
    else some ((bigIntegral b.y A B a.y - bigIntegral a.y A B a.y) / ((cos a.sweep ^ 2 : ℝ) : ℂ)).re

end Verif.Weights
