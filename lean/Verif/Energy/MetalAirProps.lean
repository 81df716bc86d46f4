import Verif.Energy.MetalAir
import Mathlib.MeasureTheory.Integral.IntervalIntegral.FundThmCalculus
import Mathlib.Tactic.Linarith
import Mathlib.Tactic.NormNum
import Mathlib.Tactic.FieldSimp

/-!
# The mass gained by a discharge

Specification: the mass gained is the integral of what the rate takes from the fuel flow; the reaction is
`4 Al + 6 H₂O + 3 O₂ → 4 Al(OH)₃` with the masses of the elements in g/mol.
-/

namespace Verif.Energy.MetalAir

open MeasureTheory

/-- C433: whatever the course of the power, a discharge that takes the whole energy gains the total mass. -/
theorem C433_discharge (factor maxEnergy T : ℝ) (power : ℝ → ℝ) (h : ∫ t in (0 : ℝ)..T, power t = maxEnergy) :
    ∫ t in (0 : ℝ)..T, -gainRate factor (power t) = totalGain factor maxEnergy := by
  have e : (fun t => -gainRate factor (power t)) = fun t => power t * factor := by
    funext t; unfold gainRate; ring
  rw [e, intervalIntegral.integral_mul_const, h, totalGain]

/-- C433: drawing power gains mass and charging loses it. -/
theorem C433_sign (factor power : ℝ) (hf : 0 < factor) :
    (0 < power ↔ gainRate factor power < 0) ∧ (power < 0 ↔ 0 < gainRate factor power) := by
  unfold gainRate
  constructor
  · constructor
    · intro h; nlinarith
    · intro h; by_contra hc; push Not at hc; nlinarith
  · constructor
    · intro h; nlinarith
    · intro h; by_contra hc; push Not at hc; nlinarith

/-- Molar masses. -/
noncomputable def aluminium : ℝ := 26.982
/-- Water. -/
noncomputable def water : ℝ := 18.015
/-- Oxygen, the molecule. -/
noncomputable def oxygen : ℝ := 31.998

/-- C433: metal, water and the oxygen taken from the air fit the reaction to a thousandth for any energy. -/
theorem C433_reaction (energy : ℝ) (he : 0 < energy) :
    |waterMass energy / metalMass energy - 6 * water / (4 * aluminium)| ≤ 0.001 ∧
    |totalGain alGain energy / metalMass energy - 3 * oxygen / (4 * aluminium)| ≤ 0.001 := by
  have e1 : waterMass energy / metalMass energy = 0.000123913 / 0.000123828 := by
    unfold waterMass metalMass alWater alMetal
    field_simp
  have e2 : totalGain alGain energy / metalMass energy = 0.000110145 / 0.000123828 := by
    unfold totalGain metalMass alGain alMetal
    field_simp
  rw [e1, e2, abs_le, abs_le]
  norm_num [aluminium, water, oxygen]

/-- C433: per watt-hour an aluminium-air battery uses 0.124 g of metal to three digits, which is three electrons per atom at
2.71 V, the potential of the cell. -/
theorem C433_potential : |metalMass 3600 * 1000 * (3 * 96485 * 2.71) / 3600 - aluminium| ≤ 0.05 := by
  rw [abs_le]
  norm_num [metalMass, alMetal, aluminium]

example : ∫ t in (0 : ℝ)..2, -gainRate 3 ((fun _ => 5) t) = totalGain 3 10 :=
  C433_discharge 3 10 2 (fun _ => 5) (by norm_num)

end Verif.Energy.MetalAir
