import Mathlib.Data.Real.Basic
import Mathlib.Data.List.Sort

/-!
# Mass roll-up, centres of gravity, placement of components

Models of
* `trunk/SUAVE/Components/Physical_Component.py` (`Container.sum_mass`, `Container.total_moment`),
* `trunk/SUAVE/Vehicle.py` (`sum_mass`, `center_of_gravity`, `find_component_root`, `append_component`),
* `trunk/SUAVE/Methods/Center_of_Gravity/compute_fuel_center_of_gravity_longitudinal_range.py`,
* parts of `trunk/SUAVE/Methods/Center_of_Gravity/compute_component_centers_of_gravity.py`.

Real numbers stand for floats.
-/

namespace Verif.Vehicle

/-- A point or vector. -/
structure P where
  x : ℝ
  y : ℝ
  z : ℝ

namespace P
def add (a b : P) : P := ⟨a.x + b.x, a.y + b.y, a.z + b.z⟩
def smul (k : ℝ) (a : P) : P := ⟨k * a.x, k * a.y, k * a.z⟩
noncomputable def div (a : P) (k : ℝ) : P := ⟨a.x / k, a.y / k, a.z / k⟩
def zero : P := ⟨0, 0, 0⟩
/-- `np.sum(..., axis=0)`. -/
def sum (l : List P) : P := l.foldl add zero
end P

/-- The objects found in containers: a physical component (mass, list of origins, centre of gravity
relative to the origin, and the objects stored inside it), a `Physical_Component.Container`, or
anything else. -/
inductive Node where
  | comp (mass : ℝ) (origin : List P) (cg : P) (inner : List Node)
  | box (items : List Node)
  | other

/-- `np.sum(np.array(Comp.origin),axis=0)/len(Comp.origin)+Comp.mass_properties.center_of_gravity`
(`Physical_Component.py` 117). -/
noncomputable def position (origin : List P) (cg : P) : P := ((P.sum origin).div origin.length).add cg

mutual
/-- `Container.sum_mass` (`Physical_Component.py` 65-91): the contribution of one item. -/
noncomputable def itemMass : Node → ℝ
  | .box l => sumMass l
  | .comp m _ _ _ => m
  | .other => 0
/-- `Container.sum_mass` (`Physical_Component.py` 65-91) of a container with these items. -/
noncomputable def sumMass : List Node → ℝ
  | [] => 0
  | a :: l => itemMass a + sumMass l
end

mutual
/-- `Container.total_moment` (`Physical_Component.py` 93-119): the contribution of one item. -/
noncomputable def itemMoment : Node → P
  | .box l => totalMoment l
  | .comp m o c _ => P.smul m (position o c)
  | .other => P.zero
/-- `Container.total_moment` (`Physical_Component.py` 93-119). -/
noncomputable def totalMoment : List Node → P
  | [] => P.zero
  | a :: l => (itemMoment a).add (totalMoment l)
end

/-- `Vehicle.sum_mass` (`Vehicle.py` 180-206): only containers count at the top. -/
noncomputable def vehicleMass : List Node → ℝ
  | [] => 0
  | .box l :: r => sumMass l + vehicleMass r
  | _ :: r => vehicleMass r

/-- The moment summed in `Vehicle.center_of_gravity` (`Vehicle.py` 228-233). -/
noncomputable def vehicleMoment : List Node → P
  | [] => P.zero
  | .box l :: r => (totalMoment l).add (vehicleMoment r)
  | _ :: r => vehicleMoment r

open Classical in
/-- `Vehicle.center_of_gravity` (`Vehicle.py` 209-243). -/
noncomputable def vehicleCg (v : List Node) : P :=
  (vehicleMoment v).div (if vehicleMass v = 0 then 1 else vehicleMass v)

/-! ### Placing components -/

/-- Kinds of objects offered to `append_component`; subclasses count as their base. -/
inductive Kind where
  | fuselage | wing | system | network | nacelle | envelope | landingGear | massProperties | payload | otherData
  deriving DecidableEq

/-- The containers of a vehicle (`Vehicle.py` 59-68). -/
inductive Root where
  | fuselages | wings | systems | networks | nacelles | envelope | landingGear | massProperties | payload
  deriving DecidableEq

/-- `_component_root_map` (`Vehicle.py` 96-105), in order. -/
def rootMap : List (Kind × Root) :=
  [(.fuselage, .fuselages), (.wing, .wings), (.system, .systems), (.network, .networks), (.nacelle, .nacelles),
   (.envelope, .envelope), (.landingGear, .landingGear), (.massProperties, .massProperties)]

/-- `find_component_root` (`Vehicle.py` 111-139): the first entry the object is an instance of;
`none` for the exception. -/
def findRoot (k : Kind) : Option Root := (rootMap.find? fun e => e.1 = k).map (·.2)

/-- `append_component` (`Vehicle.py` 142-178) on the contents of all containers; renaming is the
subject of C06, here only the place matters.  `none` for the exceptions. -/
def appendComponent {α : Type} (contents : Root → List α) (k : Kind) (c : α) : Option (Root → List α) :=
  (findRoot k).map fun r r' => if r' = r then contents r ++ [c] else contents r'

/-! ### Fuel centre of gravity -/

/-- A fuel tank: `center_of_gravity[0][0]` and `fuel_mass_when_full`. -/
structure Tank where
  cg : ℝ
  cap : ℝ

/-- The filling loops (`compute_fuel_center_of_gravity_longitudinal_range.py` 153-163 and 166-176):
the moment after filling the tanks in this order with `remaining`. -/
noncomputable def fill : List Tank → ℝ → ℝ
  | [], _ => 0
  | t :: ts, remaining =>
    if remaining = 0 then 0
    else if remaining > t.cap then t.cg * t.cap + fill ts (remaining - t.cap)
    else t.cg * remaining + fill ts 0

open Classical in
/-- `fuel_tanks.sort(key=…)` (131). -/
noncomputable def sortTanks (l : List Tank) : List Tank := l.insertionSort fun a b => a.cg ≤ b.cg

/-- `tank_masses` summed (140). -/
def capacity (l : List Tank) : ℝ := (l.map Tank.cap).sum

/-- `np.linspace(1e-6,max_mass)` (142): fifty masses. -/
noncomputable def fuelMass (l : List Tank) (j : Fin 50) : ℝ := 1e-6 + j * ((capacity l - 1e-6) / 49)

/-- `min_cg[j]` (155-164) for the fuel mass `m`. -/
noncomputable def minCg (l : List Tank) (m : ℝ) : ℝ := fill (sortTanks l) m / m

/-- `max_cg[j]` (168-177). -/
noncomputable def maxCg (l : List Tank) (m : ℝ) : ℝ := fill (sortTanks l).reverse m / m

/-! ### Component positions -/

/-- An energy component or a network in the eyes of lines 78-90: mass, sum of the origins' first
coordinates, number of origins, first coordinate of the centre of gravity. -/
structure Part where
  mass : ℝ
  originSum : ℝ
  origins : ℕ
  cg : ℝ

/-- A network: itself and its energy components. -/
structure NetMass where
  self : Part
  parts : List Part

/-- Accumulated moment and mass of one network (`compute_component_centers_of_gravity.py` 80-90);
the running total mass multiplies the network's own position. -/
noncomputable def netStep (a : ℝ × ℝ) (n : NetMass) : ℝ × ℝ :=
  let mass := a.2 + n.self.mass
  let moment := a.1 + mass * (n.self.originSum + n.self.cg)
  n.parts.foldl (fun b p => (b.1 + p.mass * (p.originSum + p.cg), b.2 + p.mass * p.origins)) (moment, mass)

open Classical in
/-- `propulsion_cg[0][0]` (78-95). -/
noncomputable def propulsionCg (nets : List NetMass) : ℝ :=
  let a := nets.foldl netStep (0, 0)
  if a.2 ≠ 0 then a.1 / a.2 else 0

/-- A wing: whether it is the main wing, origin and centre of gravity, mean chord. -/
structure WingPos where
  main : Bool
  origin : ℝ
  cg : ℝ
  mac : ℝ

/-- `vehicle.wings.main_wing`: `none` (an `AttributeError`) without a main wing. -/
def mainWing? (wings : List WingPos) : Option WingPos := wings.find? (·.main)

/-- `hydraulics.origin[0][0]` (177-179): `wing` is the variable left over from the last loop over
the wings, whose bodies have set the centres of gravity already. -/
noncomputable def hydraulicsX (wings : List WingPos) (length : ℝ) : Option ℝ := do
  let m ← mainWing? wings
  let wing ← wings.getLast?
  some (0.75 * (m.origin + wing.cg) + 0.25 * length * 0.95)

/-- `fuel` position (166-167). -/
noncomputable def fuelX (wings : List WingPos) : Option ℝ := (mainWing? wings).map fun m => m.origin + m.cg

/-- `control_systems` position (169-171). -/
noncomputable def controlX (wings : List WingPos) : Option ℝ :=
  (mainWing? wings).map fun m => m.origin + (m.cg + 0.1 * m.mac)

end Verif.Vehicle
