import Verif.Energy.Cryo
/-
Conductivities of copper: trunk/SUAVE/Attributes/Solids/Copper.py (lines 62-99), for the current leads of
trunk/SUAVE/Methods/Cryogenics/Leads/lead_calculations.py.

Simplifications
* `interp1d(..., kind='cubic')` is any function through the points of its table; what it does between them is not
  modelled.
-/

namespace Verif.Energy.Cryo

/-- Lines 62-64, in kg/m³, S/m and W/(m K) (the comments there). -/
def copperDensity : ℝ := 8960
def copperElectrical : ℝ := 58391886.09
def copperThermal : ℝ := 392.4

/-- Lines 68-69. -/
def thermalTable : List (ℝ × ℝ) :=
  [(4.0, 3.204), (6.0, 4.668), (8.0, 6.223), (10.0, 7.781), (12.0, 9.273), (14.0, 10.64), (16.0, 11.85), (18.0, 12.87), (20.0, 13.68),
   (30.0, 14.44), (40.0, 11.63), (50.0, 8.636), (60.0, 6.7), (70.0, 5.611), (80.0, 5.003), (90.0, 4.651), (100.0, 4.439), (120.0, 4.218),
   (140.0, 4.116), (160.0, 4.06), (180.0, 4.026), (200.0, 4.001), (220.0, 3.982), (240.0, 3.965), (260.0, 3.95), (280.0, 3.936), (300.0, 3.924)]

/-- Lines 76-77, from 200 K on. -/
def electricalTable : List (ℝ × ℝ) :=
  [(200.0, 1025134.636), (210.0, 963654.7402), (220.0, 909308.7026), (230.0, 860944.9011), (240.0, 817561.3102), (250.0, 778513.0909),
   (260.0, 742977.6209), (270.0, 710652.6341), (273.16, 701058.8235), (280.0, 681102.5197), (290.0, 653862.9927), (300.0, 628729.7528),
   (310.0, 605483.2867), (320.0, 583918.8609)]

/-- `thermal_conductivity` and `electrical_conductivity` (84-99). -/
def Through (t : List (ℝ × ℝ)) (f : ℝ → ℝ) : Prop := ∀ p ∈ t, f p.1 = p.2

/-- The same material with both conductivities in other units: `s` times the numbers. -/
noncomputable def Material.inUnits (m : Material) (s : ℝ) : Material := ⟨fun t => s * m.sigma t, m.ratio, fun a b => s * m.slopeTerm a b⟩

end Verif.Energy.Cryo
