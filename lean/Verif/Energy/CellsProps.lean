import Verif.Energy.Cells
import Mathlib.Tactic.FieldSimp
import Mathlib.Tactic.Positivity
import Mathlib.Tactic.Linarith

/-!
Properties of the battery cells supplied with the code (C443).
-/

namespace Verif.Energy.Cells

open Real

/-- **C443, geometry and energy.** A cell is a closed cylinder filled with its mass; its specific energy is capacity times
nominal voltage over mass, and a pack stores the ratings of its cells. -/
theorem C443_cell (d h m vmax cap v r factor : ℝ) (s p : ℕ) (hd : 0 < d) (hh : 0 < h) (hm : 0 < m) :
    let c := mkCell d h m vmax cap v r
    c.density * (π * d ^ 2 / 4 * h) = m ∧ c.surface = 2 * (π * d ^ 2 / 4) + π * d * h ∧
    c.specificEnergy * m = cap * 3600 * v ∧
    (pack c factor s p).maxEnergy = (s * p : ℕ) * (cap * 3600 * v) ∧ (pack c factor s p).specificEnergy = c.specificEnergy ∧
    (pack c factor s p).mass = factor * (s * p : ℕ) * m := by
  have hpi := Real.pi_pos
  refine ⟨?_, ?_, ?_, ?_, ?_, ?_⟩
  · simp only [mkCell]
    norm_num
    field_simp
    norm_num
  · simp only [mkCell]; ring
  · simp only [mkCell]; field_simp
  · simp only [pack, mkCell, Sizing.fromCircuit]; push_cast; field_simp
  · simp only [pack, mkCell, Sizing.fromCircuit]; field_simp
  · simp only [pack, mkCell, Sizing.fromCircuit]; push_cast; ring

/-- The most a source of voltage `v` behind a resistance `r` can deliver: `i (v - i r)` over all currents `i`. -/
theorem circuit_power (v r i : ℝ) (hr : 0 < r) : i * (v - i * r) ≤ v ^ 2 / (4 * r) := by
  rw [le_div_iff₀ (by positivity)]
  nlinarith [sq_nonneg (v - 2 * i * r)]

/-- **C443, power, partial.** The specific power of a cell is its nominal voltage times 3600 A over its mass, whatever the
capacity: it is within the power of the circuit only for cells of very low resistance.  Missing: the cells supplied, see the
counterexample. -/
theorem C443_power_partial (d h m vmax cap v r : ℝ) (hm : 0 < m) (hr : 0 < r) (hcap : 0 < cap) (hv : 0 ≤ v)
    (hvmax : v ≤ vmax) (hlow : r * (4 * 3600) ≤ v) :
    (mkCell d h m vmax cap v r).specificPower * m = 3600 * v ∧
    (mkCell d h m vmax cap v r).specificPower * m ≤ vmax ^ 2 / (4 * r) := by
  have e : (mkCell d h m vmax cap v r).specificPower * m = 3600 * v := by
    simp only [mkCell]; field_simp
  refine ⟨e, ?_⟩
  rw [e, le_div_iff₀ (by positivity)]
  nlinarith [mul_le_mul hvmax hvmax hv (hv.trans hvmax)]

/-- **C443**, refuted: no current lets a pack of the cells supplied deliver even a fiftieth of the power it is given as its
maximum. -/
theorem C443_power_counterexample (c : Cell) (hc : c = lfp ∨ c = nmc) (factor : ℝ) (hf : 1 ≤ factor) (s p : ℕ) (hs : 0 < s)
    (hp : 0 < p) (i : ℝ) :
    50 * ((s * p : ℕ) * (i * (c.maxVoltage - i * c.resistance))) < (pack c factor s p).maxPower := by
  have hn : (0 : ℝ) < s * p := by positivity
  rcases hc with rfl | rfl
  · have h := circuit_power 3.6 0.022 i (by norm_num)
    have e : (pack lfp factor s p).maxPower = (s * p) * factor * 12960 := by
      simp only [pack, lfp, mkCell, Sizing.fromCircuit]; norm_num; ring
    rw [e]
    simp only [lfp, mkCell]
    push_cast
    have : i * (3.6 - i * 0.022) < 150 := lt_of_le_of_lt h (by norm_num)
    nlinarith [mul_pos hn (sub_pos.2 this), mul_nonneg hn.le (sub_nonneg.2 hf)]
  · have h := circuit_power 4.2 0.025 i (by norm_num)
    have e : (pack nmc factor s p).maxPower = (s * p) * factor * 12960 := by
      simp only [pack, nmc, mkCell, Sizing.fromCircuit]; norm_num; ring
    rw [e]
    simp only [nmc, mkCell]
    push_cast
    have : i * (4.2 - i * 0.025) < 180 := lt_of_le_of_lt h (by norm_num)
    nlinarith [mul_pos hn (sub_pos.2 this), mul_nonneg hn.le (sub_nonneg.2 hf)]

example : (0 : ℝ) < 0.0185 ∧ (0 : ℝ) < 0.0653 ∧ (0 : ℝ) < 0.03 := by norm_num

/-- A cell of resistance so low that the power given can be delivered. -/
example : (0.0001 : ℝ) * (4 * 3600) ≤ 3.6 := by norm_num

end Verif.Energy.Cells
