import Mathlib.Data.Real.Basic
import Mathlib.LinearAlgebra.Matrix.Defs
import Mathlib.Data.Fin.VecNotation
import Mathlib.Data.Matrix.Mul
/-
Model of how mission segments hand their final state to the next one
(trunk/SUAVE/Methods/Missions/Segments/Common/{Frames,Weights,Energy,Numerics,Sub_Segments}.py,
Climb/Common.py).

Simplifications
* A segment with `n+2` control points (at least two) carries the columns used here; the other
  conditions are not represented.  Exact real arithmetic.
* What a segment does between the initial-value steps and the end of an iteration is an
  arbitrary function `body` (and `finalize` after the last iteration); the functions of the
  source that write the columns used here are modelled below and shown to meet the condition
  the chain theorem puts on `body`.
* The root finder calls `iterate` some positive number of times.
-/

namespace Verif.Mission

/-- A column with `n+2` rows. -/
abbrev Col (n : Nat) := Fin (n + 2) → ℝ

/-- The columns of `state.conditions` used here. -/
structure Traj (n : Nat) where
  /-- `frames.inertial.time` -/
  time : Col n
  /-- `frames.inertial.position_vector` -/
  x : Col n
  y : Col n
  z : Col n
  /-- `frames.inertial.aircraft_range` -/
  range : Col n
  /-- `weights.total_mass` -/
  mass : Col n
  /-- `frames.planet.longitude`, `latitude` -/
  lon : Col n
  lat : Col n
  /-- `propulsion.battery_energy` -/
  energy : Col n

/-- Last row. -/
def fin {n : Nat} (c : Col n) : ℝ := c (Fin.last (n + 1))

/-- `current + (initial - current[0])`. -/
def shift {n : Nat} (c : Col n) (init : ℝ) : Col n := fun i => c i + (init - c 0)

/-- `initialize_time` (Frames.py:93-97). -/
def initTime {n m : Nat} (prev : Option (Traj m)) (s : Traj n) : Traj n :=
  match prev with
  | some p => { s with time := shift s.time (fin p.time) }
  | none => s

/-- `initialize_weights` (Weights.py:41-49). -/
def initWeights {n m : Nat} (takeoff : ℝ) (prev : Option (Traj m)) (s : Traj n) : Traj n :=
  let m0 := match prev with
    | some p => fin p.mass
    | none => takeoff
  { s with mass := shift s.mass m0 }

/-- Overwrite the last row. -/
def setFin {n : Nat} (c : Col n) (v : ℝ) : Col n := Function.update c (Fin.last (n + 1)) v

/-- Lines 51-56: the previous segment's last altitude is overwritten when the segment has its
own (start) altitude. -/
def pinAltitude {m : Nat} (altitude altitudeStart : Option ℝ) (p : Traj m) : Traj m :=
  match altitude with
  | some a => { p with z := setFin p.z (-a) }
  | none => match altitudeStart with
    | some a => { p with z := setFin p.z (-a) }
    | none => p

/-- `initialize_inertial_position` (Frames.py:45-59): the new state and the (modified) state of
the previous segment. -/
def initPosition {n m : Nat} (altitude altitudeStart : Option ℝ) (prev : Option (Traj m)) (s : Traj n) :
    Option (Traj m) × Traj n :=
  match prev with
  | some p =>
    let p := pinAltitude altitude altitudeStart p
    (some p, { s with x := shift s.x (fin p.x), y := shift s.y (fin p.y), z := shift s.z (fin p.z),
                      range := shift s.range (fin p.range) })
  | none => (none, s)

/-- `initialize_planet_position` (Frames.py:139-150); `start` is the segment's own longitude
and latitude, if set. -/
def initPlanet {n m : Nat} (start : Option (ℝ × ℝ)) (prev : Option (Traj m)) (s : Traj n) : Traj n :=
  let l : ℝ × ℝ := match prev with
    | some p => (fin p.lon, fin p.lat)
    | none => start.getD (0, 0)
  { s with lon := fun _ => l.1, lat := fun _ => l.2 }

/-- `initialize_battery` (Energy.py:36-49), the stored energy. -/
def initBattery {n m : Nat} (prev : Option (Traj m)) (s : Traj n) : Traj n :=
  match prev with
  | some p => { s with energy := fun _ => fin p.energy }
  | none => s

/-- A segment: its own altitude settings, the state its `process.initialize` leaves (which may
depend on the previous segment's state), and what its process does after the initial-value
steps. -/
structure Seg where
  n : Nat
  altitude : Option ℝ
  altitudeStart : Option ℝ
  takeoff : ℝ
  start : Option (ℝ × ℝ)
  setup : Option ((m : Nat) × Traj m) → Traj n
  body : Traj n → Traj n
  finalize : Traj n → Traj n
  /-- number of calls of `iterate` by the root finder, less one -/
  extra : Nat

/-- `process.iterate.initials` (Aerodynamic.py:93-97) with `initialize_battery` appended. -/
def Seg.initials (g : Seg) {m : Nat} (prev : Option (Traj m)) (s : Traj g.n) : Option (Traj m) × Traj g.n :=
  let s := initTime prev s
  let s := initWeights g.takeoff prev s
  let r := initPosition g.altitude g.altitudeStart prev s
  let s := initPlanet g.start r.1 r.2
  (r.1, initBattery r.1 s)

/-- One call of `iterate` (converge_root.py:74-103). -/
def Seg.iterate (g : Seg) {m : Nat} (st : Option (Traj m) × Traj g.n) : Option (Traj m) × Traj g.n :=
  let r := g.initials st.1 st.2
  (r.1, g.body r.2)

/-- `f` applied `k` times. -/
def iter {α : Type} (f : α → α) : Nat → α → α
  | 0, a => a
  | k + 1, a => iter f k (f a)

/-- `Segment.evaluate` (Segment.py:160-181): initialize, converge, finalize. -/
def Seg.evaluate (g : Seg) {m : Nat} (prev : Option (Traj m)) : Option (Traj m) × Traj g.n :=
  let s := g.setup (prev.map fun p => ⟨m, p⟩)
  let r := iter g.iterate (g.extra + 1) (prev, s)
  (r.1, g.finalize r.2)

/-- The remaining segments after one with final state `p` (`sequential_sub_segments`,
Sub_Segments.py:136-137, with the links made by `expand_sub_segments`, 41-50).  Returns the
states as they are at the end of the mission. -/
def continueMission {m : Nat} (p : Traj m) : List Seg → List ((m : Nat) × Traj m)
  | [] => [⟨m, p⟩]
  | g :: gs =>
    let r := g.evaluate (some p)
    ⟨m, r.1.getD p⟩ :: continueMission r.2 gs

/-- A whole mission. -/
def runMission : List Seg → List ((m : Nat) × Traj m)
  | [] => []
  | g :: gs => continueMission (g.evaluate (m := 0) none).2 gs

/-! ### Functions of `body` and `finalize` that write these columns -/

/-- `update_differentials_altitude` (Climb/Common.py:106-122). -/
noncomputable def altitudeTime {n : Nat} (t : Col n) (I : Matrix (Fin (n + 2)) (Fin (n + 2)) ℝ) (vz : Col n) (s : Traj n) : Traj n :=
  let dz := fin s.z - s.z 0
  let dt := ∑ j, I (Fin.last (n + 1)) j * dz * (1 / vz j)
  { s with time := fun i => s.time 0 + t i * dt }

/-- `update_weights` (Weights.py:153-167), the mass column; `I` is the time-integration
operator. -/
noncomputable def updateMass {n : Nat} (I : Matrix (Fin (n + 2)) (Fin (n + 2)) ℝ) (mdot : Col n) (s : Traj n) : Traj n :=
  let m : Col n := fun i => s.mass 0 + I.mulVec (fun j => -mdot j) i
  { s with mass := fun i => if i = 0 then s.mass 0 else m i }

/-- The weight column written in the same place (163, 167). -/
noncomputable def weightZ {n : Nat} (I : Matrix (Fin (n + 2)) (Fin (n + 2)) ℝ) (mdot g : Col n) (s : Traj n) : Col n :=
  fun i => (s.mass 0 + I.mulVec (fun j => -mdot j) i) * g i

/-- `integrate_inertial_horizontal_position` (Frames.py:404-419); `cb`, `sb` are the cosine and
sine of the true course. -/
noncomputable def horizontal {n : Nat} (cb sb : ℝ) (I : Matrix (Fin (n + 2)) (Fin (n + 2)) ℝ) (vx : Col n) (s : Traj n) : Traj n :=
  let d := I.mulVec vx
  { s with x := fun i => s.x 0 + d i * cb, y := fun i => s.y 0 + d i * sb, range := fun i => s.range 0 + d i }

/-- `update_planet_position` (Frames.py:185-215) with the latitude and longitude rates given:
the new columns are the old first row plus the integral. -/
noncomputable def planet {n : Nat} (deg : ℝ) (I : Matrix (Fin (n + 2)) (Fin (n + 2)) ℝ) (lamdadot mudot : Col n) (s : Traj n) : Traj n :=
  { s with lat := fun i => s.lat 0 + I.mulVec lamdadot i / deg, lon := fun i => s.lon 0 + I.mulVec mudot i / deg }

/-- The altitude column of `Constant_Throttle_Constant_Speed.update_differentials_altitude`
(Climb/Constant_Throttle_Constant_Speed.py:133-147). -/
noncomputable def throttleClimb {n : Nat} (t : Col n) (I : Matrix (Fin (n + 2)) (Fin (n + 2)) ℝ) (alt0 altf : ℝ) (vz : Col n) (s : Traj n) : Traj n :=
  let dt := (altf - alt0) / ∑ j, I (Fin.last (n + 1)) j * vz j
  { s with time := fun i => s.time 0 + t i * dt, z := fun i => -(alt0 + (dt • I).mulVec vz i) }

end Verif.Mission
