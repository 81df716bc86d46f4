import Mathlib.Analysis.SpecialFunctions.Pow.Real

/-!
# Steam and carbon dioxide

`Attributes/Gases/Steam.py` (50-53, 55-157) and the constants of `Attributes/Gases/CO2.py` (44-47).
-/

namespace Verif.Physics.SteamGas

/-- `molecular_mass` and `gas_specific_constant` of a gas. -/
structure Constants where
  mass : ℝ
  gas : ℝ

/-- `Steam.__defaults__` (50-53). -/
noncomputable def steam : Constants := ⟨18, 461.889⟩

/-- `CO2.__defaults__` (44-47). -/
noncomputable def carbonDioxide : Constants := ⟨44.01, 188.9⟩

/-- `compute_density` (74). -/
noncomputable def steamDensity (T p : ℝ) : ℝ := p / (steam.gas * T)

/-- `compute_cp` (132-135). -/
noncomputable def steamHeat (T : ℝ) : ℝ := 5e-9 * T ^ 3 + (-0.0001) * T ^ 2 + 0.9202 * T + 1524.7

/-- `compute_gamma` (155-157). -/
noncomputable def steamGamma (_T _p : ℝ) : ℝ := 1.33

/-- `compute_speed_of_sound` (97-102). -/
noncomputable def steamSound (T p : ℝ) (changing : Bool) : ℝ :=
  √((if changing then steamGamma T p else 1.33) * steam.gas * T)

end Verif.Physics.SteamGas
