import Verif.Energy.Sizing
import Mathlib.Analysis.Real.Pi.Bounds

/-!
Model of the battery cells supplied with the code
(`trunk/SUAVE/Components/Energy/Storages/Batteries/Constant_Mass/Lithium_Ion_LiFePO4_18650.py`, lines 57 to 87;
`Lithium_Ion_LiNiMnCoO2_18650.py`, lines 65 to 94).

Not modelled: the thermal data and the discharge map.
-/

namespace Verif.Energy.Cells

open Real

/-- Data of a cell set by `__defaults__`. -/
structure Cell where
  diameter : ℝ
  height : ℝ
  mass : ℝ
  surface : ℝ
  volume : ℝ
  density : ℝ
  maxVoltage : ℝ
  capacity : ℝ
  voltage : ℝ
  rating : ℝ
  specificEnergy : ℝ
  specificPower : ℝ
  resistance : ℝ

/-- Lines 60 to 75 (LFP) and 68 to 83 (NMC): what follows from size, mass, voltages, capacity and resistance. -/
noncomputable def mkCell (diameter height mass maxVoltage capacity voltage resistance : ℝ) : Cell :=
  let volume := π * (0.5 * diameter) ^ 2 * height
  let rating := capacity * voltage
  let se := rating * 3600 / mass
  { diameter := diameter
    height := height
    mass := mass
    surface := π * height * diameter + 0.5 * π * diameter ^ 2
    volume := volume
    density := mass / volume
    maxVoltage := maxVoltage
    capacity := capacity
    voltage := voltage
    rating := rating
    specificEnergy := se
    specificPower := se / capacity
    resistance := resistance }

/-- The lithium iron phosphate cell (60 to 80). -/
noncomputable def lfp : Cell := mkCell 0.0185 0.0653 0.03 3.6 1.5 3.6 0.022

/-- The lithium nickel manganese cobalt cell (68 to 84). -/
noncomputable def nmc : Cell := mkCell 0.0185 0.0653 0.048 4.2 3.55 3.6 0.025

/-- A pack of such cells (`initialize_from_circuit_configuration.py` 49-61). -/
noncomputable def pack (c : Cell) (factor : ℝ) (series parallel : ℕ) : Sizing.Pack :=
  Sizing.fromCircuit c.capacity c.voltage c.mass factor series parallel

end Verif.Energy.Cells
