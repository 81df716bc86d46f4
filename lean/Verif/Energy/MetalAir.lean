import Mathlib.MeasureTheory.Integral.IntervalIntegral.Basic

/-!
# Batteries that gain mass

`Methods/Power/Battery/Variable_Mass/find_mass_gain_rate.py` (26-28), `find_total_mass_gain.py` (30-32) and
`Components/Energy/Storages/Batteries/Variable_Mass/Aluminum_Air.py` (34-36, 42-48).  Energies are in joules; a watt-hour
has 3600 of them.
-/

namespace Verif.Energy.MetalAir

/-- `find_mass_gain_rate`: negative where mass is gained, as a rate of fuel flow. -/
def gainRate (factor power : ℝ) : ℝ := -power * factor

/-- `find_total_mass_gain`. -/
def totalGain (factor maxEnergy : ℝ) : ℝ := maxEnergy * factor

/-- `mass_gain_factor` of an aluminium-air battery (34). -/
noncomputable def alGain : ℝ := 0.000110145 / 3600

/-- `water_mass_gain_factor` (35). -/
noncomputable def alWater : ℝ := 0.000123913 / 3600

/-- `aluminum_mass_factor` (36). -/
noncomputable def alMetal : ℝ := 0.000123828 / 3600

/-- `find_water_mass` (42-44). -/
noncomputable def waterMass (energy : ℝ) : ℝ := energy * alWater

/-- `find_aluminum_mass` (46-48). -/
noncomputable def metalMass (energy : ℝ) : ℝ := energy * alMetal

end Verif.Energy.MetalAir
