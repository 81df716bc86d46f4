import Verif.Noise.Tools

/-!
Weighted levels handed back by the noise models of jet aircraft.

Sources: trunk/SUAVE/Methods/Noise/Fidelity_One/Airframe/noise_airframe_Fink.py (155, 201-205, 292),
trunk/SUAVE/Methods/Noise/Fidelity_One/Engine/noise_SAE.py (195, 384-386, 453).

Simplifications: the total spectra of the time steps are given as lists of band levels.
-/

namespace Verif.Noise

/-- `airframe_noise.SPL_dBA` (292): the sum over the bands of the variable `SPLt_dBA` left by the loop over all steps but the last (155);
`none` when the loop never ran and the name is unknown. -/
noncomputable def airframeDba (totals : List (List ℝ)) : Option (List (Option ℝ)) :=
  totals.dropLast.getLast?.map fun s => splArithmetic (.rows [dbANoise s])

/-- `engine_noise.SPL_dBA` (386, 453): for each step the largest weighted band level; `none` for a spectrum without bands. -/
noncomputable def engineDba (totals : List (List ℝ)) : List (Option ℝ) := totals.map fun s => (dbANoise s).max?

end Verif.Noise
