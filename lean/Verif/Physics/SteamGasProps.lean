import Verif.Physics.SteamGas
import Mathlib.Tactic.Linarith
import Mathlib.Tactic.NormNum
import Mathlib.Tactic.LinearCombination
import Mathlib.Tactic.FieldSimp

/-!
# One gas behind the properties of steam

The specification: an ideal gas with specific gas constant `R` has `p = ρ R T`, `R` times its molecular mass is the
universal constant, `cp (1 - 1 / γ) = R`, and the speed of sound is the root of the slope of pressure over density.
-/

namespace Verif.Physics.SteamGas

/-- The universal constant in J/(kmol K). -/
noncomputable def universal : ℝ := 8314.46

/-- C431: molecular mass and gas constant of both gases fit the universal constant to a thousandth. -/
theorem C431_constants :
    |steam.mass * steam.gas - universal| ≤ universal / 1000 ∧
    |carbonDioxide.mass * carbonDioxide.gas - universal| ≤ universal / 1000 := by
  constructor <;> rw [abs_le] <;> constructor <;> norm_num [steam, carbonDioxide, universal]

/-- C431: pressure is density times gas constant times temperature. -/
theorem C431_density (T p : ℝ) (hT : 0 < T) : steamDensity T p * steam.gas * T = p := by
  have hg : steam.gas ≠ 0 := by norm_num [steam]
  unfold steamDensity
  field_simp

/-- C431: the square of the speed of sound is `γ p / ρ`, with the same `γ` whether it is to change or not. -/
theorem C431_sound (T p : ℝ) (changing : Bool) (hT : 0 < T) (hp : 0 < p) :
    steamSound T p changing ^ 2 = steamGamma T p * (p / steamDensity T p) := by
  have hg : 0 < steam.gas := by norm_num [steam]
  have e : steamSound T p changing = √(steamGamma T p * steam.gas * T) := by
    cases changing <;> simp [steamSound, steamGamma]
  have hpos : 0 ≤ steamGamma T p * steam.gas * T := by
    have : (0 : ℝ) ≤ steamGamma T p := by norm_num [steamGamma]
    positivity
  rw [e, Real.sq_sqrt hpos]
  unfold steamDensity
  field_simp

/-- C431: the specific heat rises with temperature over the range of its fit. -/
theorem C431_heat (T U : ℝ) (hT : 300 ≤ T) (hTU : T < U) (hU : U ≤ 1500) : steamHeat T < steamHeat U := by
  have hd : steamHeat U - steamHeat T = (U - T) * (5e-9 * (U ^ 2 + U * T + T ^ 2) - 0.0001 * (U + T) + 0.9202) := by
    unfold steamHeat; ring
  have hf : 0 < 5e-9 * (U ^ 2 + U * T + T ^ 2) - 0.0001 * (U + T) + 0.9202 := by
    have : 0 ≤ U ^ 2 + U * T + T ^ 2 := by
      have h1 : 0 ≤ T := by linarith
      have h2 : 0 ≤ U := by linarith
      positivity
    linarith
  have : 0 < (U - T) * (5e-9 * (U ^ 2 + U * T + T ^ 2) - 0.0001 * (U + T) + 0.9202) := mul_pos (by linarith) hf
  linarith

/-- C431: up to 550 K specific heat, ratio of specific heats and gas constant belong to one gas to within a tenth; full
claim: over the whole range of the fit. -/
theorem C431_one_gas_partial (T p : ℝ) (hT : 300 ≤ T) (hU : T ≤ 550) :
    |steamHeat T * (1 - 1 / steamGamma T p) - steam.gas| ≤ steam.gas / 10 := by
  have mono : ∀ a b : ℝ, 300 ≤ a → a ≤ b → b ≤ 1500 → steamHeat a ≤ steamHeat b := by
    intro a b h1 h2 h3
    rcases h2.eq_or_lt with h | h
    · rw [h]
    · exact (C431_heat a b h1 h h3).le
  have lo := mono 300 T le_rfl hT (by linarith)
  have hi := mono T 550 hT hU (by norm_num)
  have e1 : steamHeat 300 = 1791.895 := by norm_num [steamHeat]
  have e2 : steamHeat 550 ≤ 2001.4 := by norm_num [steamHeat]
  have e3 : (1 - 1 / steamGamma T p) = 33 / 133 := by norm_num [steamGamma]
  have e4 : steam.gas = 461.889 := rfl
  rw [e3, e4, abs_le]
  constructor <;> linarith

/-- C431: at the upper end of the range of the fit they differ by two fifths. -/
theorem C431_one_gas_counterexample (p : ℝ) :
    steam.gas * (2 / 5) < steamHeat 1500 * (1 - 1 / steamGamma 1500 p) - steam.gas := by
  norm_num [steamHeat, steamGamma, steam]

example : steamSound 400 101325 true = steamSound 400 101325 false := by simp [steamSound, steamGamma]

example : steamHeat 300 < steamHeat 1500 := C431_heat 300 1500 le_rfl (by norm_num) le_rfl

example : steamDensity 400 101325 * steam.gas * 400 = 101325 := C431_density 400 101325 (by norm_num)

end Verif.Physics.SteamGas
