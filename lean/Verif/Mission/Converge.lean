import Verif.Mission.Frames

/-!
Convergence of a segment and single point segments.

Sources: trunk/SUAVE/Methods/Missions/Segments/converge_root.py:21-103;
trunk/SUAVE/Methods/Missions/Segments/Single_Point/{Set_Speed_Set_Altitude,Set_Speed_Set_Altitude_No_Propulsion,Set_Speed_Set_Throttle}.py;
trunk/SUAVE/Analyses/Mission/Segments/Single_Point/{Set_Speed_Set_Altitude,Set_Speed_Set_Altitude_No_Propulsion,Set_Speed_Set_Throttle}.py.

Simplifications: the root finder (`scipy.optimize.fsolve` or one given by the user) is any program that asks for residuals
at points of its choice and ends with a point and a success flag; packing of unknowns and residuals is the identity; a
segment with one control point is treated without the array dimension; aerodynamic forces and thrust are any numbers.
-/

namespace Verif.Mission.Converge

open Verif.Mission.Frames

/-- A root finder: asks for residuals and ends with a point and whether it is content (`ier == 1`). -/
inductive Solver (X R : Type) where
  | done (x : X) (ok : Bool)
  | ask (x : X) (k : R → Solver X R)

/-- The state of a segment: unknowns, conditions, residuals and the flag `converged`. -/
structure State (X C R : Type) where
  unknowns : X
  conditions : C
  residuals : R
  converged : Option Bool

variable {X C R : Type}

/-- `iterate` (74-103): stores the unknowns and runs the process of the segment, which updates conditions and residuals. -/
def iterate (p : X → C → C × R) (x : X) (s : State X C R) : State X C R :=
  { s with unknowns := x, conditions := (p x s.conditions).1, residuals := (p x s.conditions).2 }

/-- The root finder at work on the segment (50-56). -/
def drive (p : X → C → C × R) : Solver X R → State X C R → State X C R × X × Bool
  | .done x ok, s => (s, x, ok)
  | .ask x k, s => drive p (k (iterate p x s).residuals) (iterate p x s)

/-- `converge_root` (21-67): the solution returned by the root finder is only held in a local variable. -/
def convergeRoot (solver : X → Solver X R) (p : X → C → C × R) (s : State X C R) : State X C R :=
  let r := drive p (solver s.unknowns) s
  { r.1 with converged := some r.2.2 }

/-! ### Single point segments -/

/-- Settings of the segment `Set_Speed_Set_Altitude`. -/
structure Point where
  altitude : Option ℝ
  speed : ℝ
  ax : ℝ
  az : ℝ

/-- What a point takes from the segment before it: last position and mass. -/
structure Prev where
  pos : V3
  mass : ℝ

/-- What `initialize_conditions` sets. -/
structure Start where
  altitude : ℝ
  pos : V3
  vel : V3
  acc : V3

/-- `initialize_conditions` (Set_Speed_Set_Altitude.py:47-62): raises without altitude and previous segment. -/
def Point.start (g : Point) (prev : Option Prev) : Option Start :=
  let alt : Option ℝ := match g.altitude with
    | some h => some h
    | none => prev.map fun p => -1 * p.pos 2
  alt.map fun h =>
    { altitude := h, pos := ![0, 0, -h], vel := ![g.speed, 0, 0], acc := ![g.ax, 0, g.az] }

/-- `initialize_inertial_position` (Frames.py:45-58) for one control point: the last position of the segment before is given
the altitude of the point and becomes its position. -/
def Point.place (g : Point) (prev : Option Prev) (r : V3) : V3 :=
  match prev with
  | none => r
  | some p =>
    let r0 : V3 := match g.altitude with
      | some h => ![p.pos 0, p.pos 1, -h]
      | none => p.pos
    fun i => r i + (r0 i - r i)

/-- `initialize_weights` (Weights.py:41-49). -/
def Point.mass (prev : Option Prev) (takeoff m : ℝ) : ℝ :=
  m + ((match prev with
    | none => takeoff
    | some p => p.mass) - m)

/-- `residual_total_forces` (Climb/Common.py:75-80). -/
noncomputable def residualForces (F acc : V3) (m : ℝ) : ℝ × ℝ := (F 0 / m - acc 0, F 2 / m - acc 2)

/-- `residual_total_force` (Set_Speed_Set_Altitude_No_Propulsion.py:120-124). -/
noncomputable def residualForce (F acc : V3) (m : ℝ) : ℝ := F 2 / m - acc 2

/-- One iteration of the point for a body angle `θ` and forces `lift`, `drag` and `thrust`: orientations, weight
(`update_weights`, 88-96) and forces. -/
noncomputable def Point.forces (g : Point) (θ lift drag thrust m grav : ℝ) : V3 :=
  (updateForces (updateOrientations ![g.speed, 0, 0] ![0, θ, 0]) ![0, 0, -lift] ![-drag, 0, 0] ![thrust, 0, 0] ![0, 0, m * grav]).total

/-- The acceleration of `Set_Speed_Set_Throttle`: the unknown is written to the first component (Set_Speed_Set_Throttle.py:130). -/
def Point.unpackAccel (acc : V3) (x : ℝ) : V3 := ![x, acc 1, acc 2]

end Verif.Mission.Converge
