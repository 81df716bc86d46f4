import Mathlib.Data.List.Basic
import Mathlib.Data.Nat.Basic
/-
Unknowns and residuals that electric networks add to a segment:
* trunk/SUAVE/Components/Energy/Networks/Battery_Propeller.py, `add_unknowns_and_residuals_to_segment` (411-490),
  `add_tiltrotor_transition_unknowns_and_residuals_to_segment` (493-583), `unpack_unknowns` (291-331), `unpack_tiltrotor_transition_unknowns` (333-374),
  `residuals` (377-408);
* trunk/SUAVE/Components/Energy/Networks/Lift_Cruise.py, `add_transition_unknowns_and_residuals_to_segment` (703-815), `add_cruise_…` (818-916),
  `add_lift_…` (919-1021), `unpack_unknowns_transition`, `_cruise`, `_lift` (448-586), `residuals_transition`, `_cruise`, `_lift` (588-700);
* `append_battery_unknowns…` and `append_battery_residuals` of trunk/SUAVE/Components/Energy/Storages/Batteries/Constant_Mass/Lithium_Ion.py (251-334) and
  Lithium_Ion_LiNiMnCoO2_18650.py (291-395);
* the unknowns and residuals of segments: Hover/Hover.py (74-75), Cruise/Constant_Speed_Constant_Altitude.py (79-81), Transition/*.py (81) of
  trunk/SUAVE/Analyses/Mission/Segments, and which of them are unpacked (Methods/Missions/Segments/Cruise/Common.py 41-42, Hover/Common.py 32).

Simplifications
* Names and numbers of values only; segments that discharge the battery. `none` is an exception.
* Residuals that are first made when they are evaluated count from the beginning.
-/

namespace Verif.Energy

/-- Names with the number of values, as in the containers of the state. -/
abbrev Sizes := List (String × ℕ)

/-- `state.unknowns.name = …`. -/
def put : Sizes → String → ℕ → Sizes
  | [], k, n => [(k, n)]
  | (j, m) :: l, k, n => if j = k then (j, n) :: l else (j, m) :: put l k n

/-- `__delitem__`; a name that is not there is an error. -/
def drop : Sizes → String → Option Sizes
  | [], _ => none
  | (j, m) :: l, k => if j = k then some l else (drop l k).map ((j, m) :: ·)

/-- Number of values. -/
def total (l : Sizes) : ℕ := (l.map Prod.snd).sum

/-- A segment as far as the solver goes: its unknowns and residuals, the names its own `unpack_unknowns` reads and those the network's reads. -/
structure Wired where
  unknowns : Sizes
  residuals : Sizes
  mission : List String
  network : List String

/-- Cruise and climb: throttle and body angle for two forces. -/
def cruiseSegment (n : ℕ) : Wired := ⟨[("throttle", n), ("body_angle", n)], [("forces", 2 * n)], ["throttle", "body_angle"], []⟩

/-- Hover: throttle for one force. -/
def hoverSegment (n : ℕ) : Wired := ⟨[("throttle", n)], [("force", n)], ["throttle"], []⟩

/-- Transition: no unknowns of its own for two forces, but those of a cruise are unpacked. -/
def transitionSegment (n : ℕ) : Wired := ⟨[], [("forces", 2 * n)], ["throttle", "body_angle"], []⟩

/-- The two models of batteries. -/
inductive BatteryKind where
  | simple
  | nmc

/-- What the battery adds. -/
def addBattery (k : BatteryKind) (n : ℕ) (w : Wired) : Wired :=
  match k with
  | .simple => { w with unknowns := put w.unknowns "battery_voltage_under_load" n, residuals := put w.residuals "network.voltage" n, network := w.network ++ ["battery_voltage_under_load"] }
  | .nmc => { w with unknowns := put (put (put w.unknowns "battery_state_of_charge" (n - 1)) "battery_cell_temperature" n) "battery_current" n, residuals := put (put (put w.residuals "network.SOC" (n - 1)) "network.temperature" n) "network.current" n, network := w.network ++ ["battery_cell_temperature", "battery_state_of_charge", "battery_current"] }

/-- Columns for a group of rotors (458-459). -/
def columns (identical : Bool) (rotors : ℕ) : ℕ := if identical then 1 else rotors

/-- Battery and propellers (411-490). -/
def addPropellers (k : BatteryKind) (identical : Bool) (props n : ℕ) (w : Wired) : Wired :=
  let w := addBattery k n w
  { w with unknowns := put w.unknowns "propeller_power_coefficient" (columns identical props * n), residuals := put w.residuals "network.propellers" (columns identical props * n), network := w.network ++ ["propeller_power_coefficient"] }

/-- Propellers that tilt (493-583). The unknowns of the mission are not unpacked (581). -/
def addTilting (k : BatteryKind) (identical : Bool) (props n : ℕ) (w : Wired) : Wired :=
  let w := addBattery k n w
  { w with unknowns := put (put (put w.unknowns "propeller_power_coefficient" (columns identical props * n)) "propeller_y_axis_rotation" n) "throttle" n, residuals := put w.residuals "network.propellers" (columns identical props * n), mission := [], network := w.network ++ ["propeller_power_coefficient", "throttle", "propeller_y_axis_rotation"] }

/-- A lift-cruise network as far as it is counted. -/
structure LiftCruise where
  props : ℕ
  rotors : ℕ
  identicalProps : Bool
  identicalRotors : Bool

/-- Transition (703-815). -/
def addTransition (k : BatteryKind) (c : LiftCruise) (n : ℕ) (w : Wired) : Wired :=
  let w := addBattery k n w
  { w with unknowns := put (put (put w.unknowns "throttle_lift" n) "propeller_power_coefficient" (columns c.identicalProps c.props * n)) "lift_rotor_power_coefficient" (columns c.identicalRotors c.rotors * n), residuals := put (put w.residuals "network.propellers" (columns c.identicalProps c.props * n)) "network.lift_rotors" (columns c.identicalRotors c.rotors * n), network := w.network ++ ["lift_rotor_power_coefficient", "propeller_power_coefficient", "throttle_lift", "throttle"] }

/-- Cruise (818-916). -/
def addCruise (k : BatteryKind) (c : LiftCruise) (n : ℕ) (w : Wired) : Wired :=
  let w := addBattery k n w
  { w with unknowns := put w.unknowns "propeller_power_coefficient" (columns c.identicalProps c.props * n), residuals := put w.residuals "network.propellers" (columns c.identicalProps c.props * n), network := w.network ++ ["propeller_power_coefficient", "throttle"] }

/-- Hover (919-1021). `n_props` has a value only if the propellers are identical (968-971), but is read in any case (993). -/
def addLift (k : BatteryKind) (c : LiftCruise) (n : ℕ) (w : Wired) : Option Wired :=
  let w := addBattery k n w
  (drop w.unknowns "throttle").bind fun u =>
    if c.identicalProps then
      some { w with unknowns := put (put u "throttle_lift" n) "lift_rotor_power_coefficient" (columns c.identicalRotors c.rotors * n), residuals := put w.residuals "network.lift_rotors" (columns c.identicalRotors c.rotors * n), network := w.network ++ ["throttle_lift", "lift_rotor_power_coefficient"] }
    else none

/-- Whether a difference in the number of propellers, motors and engines is reported by the three `add_…` of the lift-cruise network (744-748): the text in
`assert` is true. -/
def mismatchRaises (props motors engines : ℕ) : Bool :=
  if props ≠ motors ∧ motors ≠ engines then !("The number of propellers is not the same as the number of motors" ≠ "") else false

end Verif.Energy
