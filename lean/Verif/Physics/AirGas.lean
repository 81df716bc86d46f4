import Mathlib.Analysis.SpecialFunctions.Pow.Real

/-!
# Properties of air

Model of `Air` (`trunk/SUAVE/Attributes/Gases/Air.py`), one temperature at a time, over the reals.
The pressure argument of these functions is not used by the code.
-/

namespace Verif.Physics.AirGas

open Real

/-- `gas_specific_constant` (Air.py:52). -/
noncomputable def airR : ℝ := 287.0528742

/-- `specific_heat_capacity` (Air.py:53). -/
noncomputable def airCp0 : ℝ := 1006

/-- `compute_density` (Air.py:80). -/
noncomputable def densityOf (T p : ℝ) : ℝ := p / (airR * T)

/-- `compute_cp` (Air.py:139-142). -/
noncomputable def airCpAt (T : ℝ) : ℝ :=
  -7.357e-7 * T * T * T + 0.001307 * T * T + -0.5558 * T + 1074

/-- `compute_gamma` (Air.py:171-174). -/
noncomputable def airGammaAt (T : ℝ) : ℝ :=
  1.629e-10 * T * T * T + -3.588e-7 * T * T + 0.0001418 * T + 1.386

/-- `compute_speed_of_sound` (Air.py:104-109). -/
noncomputable def airSound (varies : Bool) (T : ℝ) : ℝ :=
  sqrt ((if varies then airGammaAt T else 1.4) * airR * T)

/-- `compute_absolute_viscosity` (Air.py:195-198). -/
noncomputable def airViscosity (T : ℝ) : ℝ := 1.458e-6 * T ^ (1.5 : ℝ) / (T + 110.4)

/-- `compute_thermal_conductivity` (Air.py:218). -/
noncomputable def airConductivity (T : ℝ) : ℝ :=
  3.99e-4 + 9.89e-5 * T - 4.57e-8 * T ^ 2 + 1.4e-11 * T ^ 3

/-- `compute_prandtl_number` (Air.py:241-244). -/
noncomputable def airPrandtl (T : ℝ) : ℝ := airViscosity T * airCp0 / airConductivity T

end Verif.Physics.AirGas
