import Mathlib.Data.Real.Basic
import Mathlib.Data.List.Basic
import Mathlib.Algebra.BigOperators.Group.List.Basic

/-!
Compositions of gases and the data of propellants.

Source: trunk/SUAVE/Attributes/Constants/Composition.py 52-86; trunk/SUAVE/Attributes/Gases/Gas.py 45-49, Air.py 50-58, CO2.py 44-47,
Steam.py 50-53; trunk/SUAVE/Attributes/Propellants: Propellant.py 46-56, Aviation_Gasoline.py 45-47, Gaseous_H2.py 44-58, JP7.py 45-55,
Jet_A.py 46-57, Jet_A1.py 46-55, Liquid_H2.py 48-54, Liquid_Natural_Gas.py 44-48.

Simplifications: real numbers. Objects get the defaults of their classes from the most general to the most special one
(Core/Data.py 165-174).
-/

namespace Verif.Physics.Compositions

/-- A composition: names with fractions, in their order. -/
abbrev Composition := List (String × ℝ)

/-- Setting a name: its value is replaced where it stands, or it is added at the end. -/
def put (c : Composition) (k : String) (v : ℝ) : Composition :=
  match c with
  | [] => [(k, v)]
  | (k', v') :: t => if k' = k then (k, v) :: t else (k', v') :: put t k v

/-- Defaults of `Gas` (Gas.py 48-49). -/
def gas : Composition := put [] "gas" 1

/-- What a class built on `Gas` sets of its own, on top of the defaults of `Gas`. -/
def onGas (own : List (String × ℝ)) : Composition := own.foldl (fun c kv => put c kv.1 kv.2) gas

/-- Air.py 54-58. -/
noncomputable def airOwn : List (String × ℝ) := [("O2", 20946 / 100000), ("Ar", 934 / 100000), ("CO2", 36 / 100000), ("N2", 78084 / 100000), ("other", 0)]

/-- CO2.py 47. -/
def co2Own : List (String × ℝ) := [("CO2", 1)]

/-- Steam.py 53. -/
def steamOwn : List (String × ℝ) := [("H2O", 1)]

/-- `for v in self.values(): total += v` (Composition.py 72-74). -/
def total (c : Composition) : ℝ := c.foldl (fun s kv => s + kv.2) 0

/-- What `__check__` leaves: the composition, whether an exception is raised, and whether there is a warning. -/
structure Checked where
  composition : Composition
  raises : Bool
  warns : Bool

open Classical in
/-- `__check__` (Composition.py 72-86). There is no method `swap` (82) in `Data` or its bases. -/
noncomputable def check (c : Composition) : Checked :=
  let other := 1 - total c
  if other ≠ 0 then
    let other := other + (c.lookup "Other").getD 0
    ⟨put c "Other" other, true, false⟩
  else ⟨c, false, decide (other < 0)⟩

/-- `Composition( H2 = 1.0 )` and the like: the fractions given are stored; nothing calls `__check__`. -/
def make (given : List (String × ℝ)) : Composition := given.foldl (fun c kv => put c kv.1 kv.2) []

/-! ### Propellants -/

/-- A propellant: density, energy of a kilogram, energy of a cubic metre, and temperatures, with what `Propellant` sets (Propellant.py
48-56). -/
structure Propellant where
  density : ℝ := 0
  specificEnergy : ℝ := 0
  energyDensity : ℝ := 0
  flash : ℝ := 0
  autoignition : ℝ := 0
  freeze : ℝ := 0

/-- Aviation_Gasoline.py 46-47. -/
noncomputable def avgas : Propellant := { density := 721, specificEnergy := 4371 * 10 ^ 4 }

/-- Gaseous_H2.py 46-58. -/
noncomputable def gaseousH2 : Propellant := { density := 394116 / 10000, specificEnergy := 14186 * 10 ^ 4, energyDensity := 559113 * 10 ^ 4 }

/-- JP7.py 47-55. -/
noncomputable def jp7 : Propellant :=
  { density := 803, specificEnergy := 4350 * 10 ^ 4, energyDensity := 349305 * 10 ^ 5, flash := 33315 / 100, autoignition := 55515 / 100, freeze := 51415 / 100 }

/-- Jet_A.py 48-56. -/
noncomputable def jetA : Propellant :=
  { density := 820, specificEnergy := 4302 * 10 ^ 4, energyDensity := 352764 * 10 ^ 5, flash := 31115 / 100, autoignition := 48315 / 100, freeze := 23315 / 100 }

/-- Jet_A1.py 48-54. -/
noncomputable def jetA1 : Propellant :=
  { density := 804, specificEnergy := 4315 * 10 ^ 4, energyDensity := 346926 * 10 ^ 5, flash := 31115 / 100, autoignition := 48315 / 100, freeze := 22615 / 100 }

/-- Liquid_H2.py 50-54. -/
noncomputable def liquidH2 : Propellant := { density := 599 / 10, specificEnergy := 14186 * 10 ^ 4, energyDensity := 8491 * 10 ^ 6, autoignition := 84515 / 100 }

/-- Liquid_Natural_Gas.py 46-48. -/
noncomputable def lng : Propellant := { density := 4142 / 10, specificEnergy := 536 * 10 ^ 5, energyDensity := 22200 * 10 ^ 6 }

end Verif.Physics.Compositions
