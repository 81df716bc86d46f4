import Verif.Energy.Copper
/-
C398: current leads and the units of the conductivities of copper.
-/

namespace Verif.Energy.Cryo

/-- **C398, heat.** The heat of a lead at its design current does not depend on the units of the conductivities, as long as they are the same
for both. -/
theorem C398_heat (m : Material) (s cold hot current : ℝ) : qMin (m.inUnits s) cold hot current = qMin m cold hot current := rfl

/-- **C398, section.** The cross section and the mass of a lead do: with conductivities in units a factor `s` smaller they come out `s` times
too small. -/
theorem C398_section (m : Material) (s density cond cold hot current length : ℝ) :
    initLead (m.inUnits s) density (s * cond) cold hot current length = (initLead m density cond cold hot current length).map fun l =>
      { l with area := l.area / s, mass := l.mass / s, stored := s * cond * (l.area / s) / length } := by
  unfold initLead
  rw [C398_heat, Option.map_map]
  congr 1
  funext q
  have h : laRatio (m.inUnits s) cold hot current q = s * laRatio m cold hot current q := by unfold laRatio Material.inUnits; ring
  simp only [Function.comp, h, Lead.mk.injEq, true_and]
  have e : length / (s * laRatio m cold hot current q) = length / laRatio m cold hot current q / s := by rw [div_div, mul_comm]
  rw [e]
  refine ⟨rfl, ?_⟩
  constructor
  · ring
  · rfl

/-- **C398, unpowered.** The heat conducted without current is the same in either units. -/
theorem C398_unpowered (m : Material) (s density cond cold hot current length : ℝ) (hs : s ≠ 0) :
    (initLead (m.inUnits s) density (s * cond) cold hot current length).map (·.stored) = (initLead m density cond cold hot current length).map (·.stored) := by
  rw [C398_section, Option.map_map]
  unfold initLead
  rw [Option.map_map, Option.map_map]
  congr 1
  funext q
  simp only [Function.comp]
  field_simp

/-- **C398, false of the code.** The tables of copper are in other units than its constants: at 300 K the thermal conductivity comes
out a hundred times smaller than the constant, and the electrical one more than ninety times. -/
theorem C398_table_counterexample (k σ : ℝ → ℝ) (hk : Through thermalTable k) (hσ : Through electricalTable σ) :
    k 300 = copperThermal / 100 ∧ σ 300 < copperElectrical / 90 := by
  have h1 := hk (300.0, 3.924) (by unfold thermalTable; simp)
  have h2 := hσ (300.0, 628729.7528) (by unfold electricalTable; simp)
  simp only at h1 h2
  norm_num at h1 h2
  rw [h1, h2]
  unfold copperThermal copperElectrical
  norm_num

/-- **C398, consequence.** A lead computed from tables in W/(cm K) and S/cm has a hundred times the section and mass that the same copper has
in SI units. -/
theorem C398_mass_counterexample (m : Material) (density cond cold hot current length : ℝ) (l : Lead)
    (h : initLead m density cond cold hot current length = some l) :
    ∃ l', initLead (m.inUnits (1 / 100)) density (1 / 100 * cond) cold hot current length = some l' ∧ l'.area = 100 * l.area ∧ l'.mass = 100 * l.mass ∧
      l'.minimum = l.minimum := by
  rw [C398_section, h]
  exact ⟨_, rfl, by simp; ring, by simp; ring, rfl⟩

/-- A material with constant conductivities. -/
example : qMin ⟨fun _ => 5, fun a b => (b - a) * 2, fun _ _ => 0⟩ 20 70 3 ≠ none := by
  unfold qMin; norm_num; exact Option.some_ne_none _
example : ∃ k, Through thermalTable k := by
  refine ⟨fun t => ((thermalTable.find? fun p => @decide (p.1 = t) (Classical.propDecidable _)).map (·.2)).getD 0, ?_⟩
  unfold Through thermalTable
  simp only [List.forall_mem_cons]
  norm_num [List.find?]

end Verif.Energy.Cryo
