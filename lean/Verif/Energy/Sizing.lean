import Mathlib.Analysis.SpecialFunctions.Log.Basic
import Mathlib.Analysis.SpecialFunctions.Pow.Real
import Verif.Num.Blend

/-!
# Sizing of fuel cells and batteries

Model of `trunk/SUAVE/Methods/Power/Fuel_Cell/**` and `trunk/SUAVE/Methods/Power/Battery/{Sizing,Ragone}/*.py`.  Real numbers stand
for floats; the result of `fminbound` enters as an argument.
-/

namespace Verif.Energy.Sizing

/-- Cell constants (`setup_larminie.py` 45-56). -/
structure Cell where
  area : ℝ
  r : ℝ
  Eoc : ℝ
  A1 : ℝ
  m : ℝ
  n : ℝ
  ideal : ℝ
  wall : ℝ
  density : ℝ
  porosity : ℝ

/-- `find_voltage_larminie` (`find_voltage_larminie.py` 43-50); a kilo-ohm square centimetre is 0.1 and a milliampere per square
centimetre 10 in base units. -/
noncomputable def Cell.voltage (c : Cell) (j : ℝ) : ℝ :=
  c.Eoc - c.r / 0.1 * (j / 10) - c.A1 * Real.log (j / 10) - c.m * Real.exp (c.n * (j / 10))

/-- `find_power_larminie` with sign one (`find_power_larminie.py` 40-43). -/
noncomputable def Cell.power (c : Cell) (j : ℝ) : ℝ := c.voltage j * j * c.area

/-- What `initialize_larminie_from_power` sets (`initialize_larminie_from_power.py` 52-59). -/
structure Stack where
  cells : ℝ
  maxPower : ℝ
  volume : ℝ
  mass : ℝ
  massDensity : ℝ
  specificPower : ℝ

/-- `initialize_larminie_from_power`, for the current density found by `fminbound`. -/
noncomputable def sizeStack (c : Cell) (power j : ℝ) : Stack :=
  let p := c.power j
  let N : ℝ := (⌈power / p⌉ : ℤ)
  let vol := N * c.area * c.wall
  let mass := vol * c.density * c.porosity
  ⟨N, N * p, vol, mass, mass / vol, N * p / mass⟩

/-- Function minimised for a demand (`find_power_diff_larminie.py` 37-40). -/
noncomputable def Cell.mismatch (c : Cell) (power j : ℝ) : ℝ := (power - c.power j) ^ 2

/-- `larminie` (`larminie.py` 44-60) for one point and the current density found; the number of cells is not used. -/
noncomputable def larminieFlow (c : Cell) (specificEnergy power j : ℝ) : ℝ := power / (specificEnergy * (c.voltage j / c.ideal))

/-- `zero_fidelity` (`zero_fidelity.py` 32-37). -/
noncomputable def zeroFidelityFlow (specificEnergy efficiency power : ℝ) : ℝ := power / (specificEnergy * efficiency)

/-- Battery mass of `initialize_from_energy_and_power` (`initialize_from_energy_and_power.py` 44-51). -/
noncomputable def massFor (soft : Bool) (se sp energy power : ℝ) : ℝ :=
  if soft then Verif.Num.softMax (energy / se) (power / sp) else max (energy / se) (power / sp)

/-- Specific power on the Ragone line (`find_specific_power.py` 33-35). -/
noncomputable def ragonePower (c1 c2 se : ℝ) : ℝ := c1 * (10 : ℝ) ^ (c2 * se)

/-- Mass minimised by `find_ragone_optimum` (`find_ragone_properties.py` 56-60). -/
noncomputable def ragoneMass (c1 c2 energy power se : ℝ) : ℝ := massFor false se (ragonePower c1 c2 se) energy power

/-- Pack of cells (fields set by the two other methods). -/
structure Pack where
  mass : ℝ
  specificEnergy : ℝ
  specificPower : ℝ
  maxEnergy : ℝ
  minEnergy : Option ℝ
  maxPower : ℝ
  series : ℕ
  parallel : ℕ
  total : ℕ

/-- `initialize_from_circuit_configuration` (`initialize_from_circuit_configuration.py` 49-61): capacity in ampere-hours, a
watt-hour being 3600 joules. -/
noncomputable def fromCircuit (capacity voltage cellMass factor : ℝ) (series parallel : ℕ) : Pack :=
  let cells := cellMass * series * parallel
  let se := capacity * voltage / cellMass * 3600
  let sp := se / capacity
  ⟨cells * factor, se, sp, cells * se, none, sp * (cells * factor), series, parallel, series * parallel⟩

/-- `initialize_from_mass` (`initialize_from_mass.py` 33-52); `none` is the `ZeroDivisionError` of line 42.  `int` of a
non-negative number is its floor. -/
noncomputable def fromMass (mass se sp maxVoltage factor : ℝ) (cell : Option (ℝ × ℝ)) : Option Pack :=
  let m := mass / factor
  match cell with
  | none => some ⟨mass, se, sp, m * se, some (m * se), m * sp, 1, 1, 1⟩
  | some (cellMass, cellVoltage) =>
    let n := ⌊m / cellMass⌋₊
    let s := ⌊maxVoltage / cellVoltage⌋₊
    if s = 0 then none else some ⟨mass, se, sp, m * se, some (m * se), m * sp, s, n / s, n⟩

end Verif.Energy.Sizing
