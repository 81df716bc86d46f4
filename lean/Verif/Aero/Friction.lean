import Mathlib.Analysis.SpecialFunctions.Log.Base
import Mathlib.Analysis.SpecialFunctions.Pow.Real

/-!
Skin friction of flat plates, `Methods/Aerodynamics/Common/Fidelity_Zero/Helper_Functions`, one row.
-/

namespace Verif.Aero
open Real

/-- Friction coefficient, compressibility factor, Reynolds factor. -/
structure Friction where
  cf : ℝ
  kComp : ℝ
  kReyn : ℝ

/-- `Td` (compressible_turbulent_flat_plate.py:47-48, compressible_mixed_flat_plate.py:73-74). -/
noncomputable def filmTemp (M T : ℝ) : ℝ :=
  let Tw := T * (1 + 0.178 * M ^ 2)
  T * (1 + 0.035 * M ^ 2 + 0.45 * (Tw / T - 1))

/-- Compressible value from the incompressible (compressible_turbulent_flat_plate.py:47-58,
compressible_mixed_flat_plate.py:73-84). -/
noncomputable def compressible (cfInc Re M T : ℝ) : Friction :=
  let Td := filmTemp M T
  let kComp := T / Td
  let Rdw := Re * (Td / T) ^ (1.5 : ℝ) * ((Td + 216) / (T + 216))
  let kReyn := (Re / Rdw) ^ (0.2 : ℝ)
  ⟨cfInc * kComp * kReyn, kComp, kReyn⟩

/-- `0.455/(np.log10(Re)**2.58)`; real for `Re` at least one (compressible_turbulent_flat_plate.py:44,
compressible_mixed_flat_plate.py:62, 66). -/
noncomputable def turbulent (Re : ℝ) : ℝ := 0.455 / (logb 10 Re) ^ (2.58 : ℝ)

/-- `compressible_turbulent_flat_plate` (compressible_turbulent_flat_plate.py:44-58). -/
noncomputable def turbulentPlate (Re M T : ℝ) : Friction := compressible (turbulent Re) Re M T

/-- `cf_inc` of the mixed plate (compressible_mixed_flat_plate.py:55-70). -/
noncomputable def mixed (Re xt : ℝ) : ℝ :=
  let Rex := if Re * xt = 0 then 0.0001 else Re * xt
  let theta := 0.671 * xt / Rex ^ (0.5 : ℝ)
  let xeff := (27.78 * theta * Re ^ (0.2 : ℝ)) ^ (1.25 : ℝ)
  let Rext := Re * (1 - xt + xeff)
  let cfTurb := turbulent Rext
  let cfLam := 1.328 / Rex ^ (0.5 : ℝ)
  let cfStart := if 0 < xt then turbulent (Re * xeff) else 0
  cfLam * xt + cfTurb * (1 - xt + xeff) - cfStart * xeff

/-- `compressible_mixed_flat_plate` (compressible_mixed_flat_plate.py:48-84). -/
noncomputable def mixedPlate (Re M T xt : ℝ) : Option Friction :=
  if xt < 0 ∨ 1 < xt then none else some (compressible (mixed Re xt) Re M T)

end Verif.Aero
