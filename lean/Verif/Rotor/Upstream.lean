import Verif.Rotor.VortexWake
import Verif.Noise.Microphones
import Verif.Energy.Battery

/-!
A rotor in the wake of a wing or of another rotor, and the network that cycles a battery cell.

Sources: trunk/SUAVE/Methods/Aerodynamics/Common/Fidelity_Zero/Lift/generate_propeller_grid.py,
trunk/SUAVE/Methods/Aerodynamics/Common/Fidelity_Zero/Lift/compute_propeller_nonuniform_freestream.py,
trunk/SUAVE/Components/Energy/Networks/Battery_Cell_Cycler.py.

Simplifications: arrays are functions of their indices; `scipy.interpolate.griddata` is any function that gives a weighted mean
of the values at given points, or nothing outside of them.
-/

namespace Verif.Rotor.Upstream

open Real Verif.Noise.Mic Verif.Energy

/-! ### Grid -/

/-- A point of the plane of a rotor. -/
structure Point where
  y : ℝ
  z : ℝ

/-- The grid asked for (32-33, 41, 46-47, 61-62). -/
inductive Grid where
  | radial (R hub : ℝ) (Na Nr : ℕ)
  | cartesian (R : ℝ) (Ny Nz : ℕ)

/-- `psi_360[i]` (42). -/
noncomputable def psi (Na i : ℕ) : ℝ := linspace 0 (2 * π) (Na + 1) i

open Classical in
/-- Points of the grid about the centre of the rotor (44-72). -/
noncomputable def Grid.points : Grid → List Point
  | .radial R hub Na Nr => (List.range Na).flatMap fun i => (List.range Nr).map fun j =>
      ⟨linspace hub (0.99 * R) Nr j * cos (psi Na i), linspace hub (0.99 * R) Nr j * sin (psi Na i)⟩
  | .cartesian R Ny Nz => ((List.range Ny).flatMap fun i => (List.range Nz).map fun j =>
      (⟨linspace (-R) R Ny i, linspace (-R) R Nz j⟩ : Point)).filter fun p => √(p.y ^ 2 + p.z ^ 2) < R

/-- `generate_propeller_grid` (34-38, 76-77): the points relative to the influencing rotor, the first of the origins; the second is
the influenced one. -/
noncomputable def grid (g : Grid) (origins : List Point) : Option (List Point) :=
  match origins with
  | a :: b :: _ => some (g.points.map fun p => ⟨p.y + (b.y - a.y), p.z + (b.z - a.z)⟩)
  | _ => none

/-! ### Nonuniform free stream -/

/-- What a wake adds at a station (89-91). -/
structure Added where
  ua : ℝ
  ut : ℝ
  ur : ℝ

/-- The velocities of the wake over the speed at a point, from its three components. -/
structure Wake where
  u : ℝ
  v : ℝ
  w : ℝ

/-- The point of a station (72-74): `r` its radius. -/
noncomputable def station (origin : Point) (r ψ : ℝ) : Point := ⟨origin.y + r * cos ψ, origin.z + r * sin ψ⟩

/-- Velocities at a station (84-86), for the rotor speed `V` that broadcasting gives this station. -/
noncomputable def added (rot V ψ : ℝ) (k : Wake) : Added :=
  ⟨V * k.u, rot * V * (-k.w * cos ψ + k.v * sin ψ), V * (-k.w * sin ψ - k.v * cos ψ)⟩

/-- The speed that station `(i, j)` is multiplied with (84-86): a row of as many speeds as there are control points against a
matrix of radial and azimuthal stations.  `none` is the exception of broadcasting. -/
def broadcast (V : List ℝ) (Na j : ℕ) : Option ℝ :=
  match V with
  | [v] => some v
  | _ => if V.length = Na then V[j]? else none

/-- `compute_propeller_nonuniform_freestream` (61-91) at a station; `look` interpolates in the wake. -/
noncomputable def nonuniform (rot : ℝ) (V : List ℝ) (Na : ℕ) (origin : Point) (look : Point → Option Wake) (r : ℝ) (j : ℕ) :
    Option Added :=
  match broadcast V Na j, look (station origin r (psi Na j)) with
  | some v, some k => some (added rot v (psi Na j) k)
  | _, _ => none

/-! ### Cell cycler -/

/-- Inputs of the battery and results of `Battery_Cell_Cycler.evaluate_thrust` (111-138): the avionics draw a given current, or
the cell is charged with given current and voltage. -/
structure Cycle where
  avionicsCurrent : ℝ
  chargeCurrent : ℝ
  chargeVoltage : ℝ

/-- Battery inputs (113-127). -/
noncomputable def Cycle.inputs {n : ℕ} (c : Cycle) (b : BatIn n) (volts : Col n) : BatIn n :=
  if b.discharge then { b with current := fun _ => 1 * c.avionicsCurrent, power := fun i => -(1 * c.avionicsCurrent * volts i) }
  else { b with current := fun _ => -c.chargeCurrent * 1, power := fun _ => -(-c.chargeCurrent * 1) * (c.chargeVoltage * 1) * 1 }

/-- Battery state, thrust and mass rate (122, 128, 136-143). -/
noncomputable def Cycle.evaluate {n : ℕ} (c : Cycle) (I D : Mat n) (b : BatIn n) (volts : Col n) : BatOut n × (Col n × Col n) :=
  (energyCalc I D (c.inputs b volts), fun _ => 0, fun _ => 0)

end Verif.Rotor.Upstream
