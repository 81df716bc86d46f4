import Mathlib.Analysis.SpecialFunctions.Trigonometric.Inverse
import Mathlib.Analysis.SpecialFunctions.Trigonometric.Arctan

/-!
Curves of the mission plots that are more than a stored quantity.

Source: trunk/SUAVE/Plots/Performance/Mission_Plots.py (`plot_fuel_use` 193-276, `plot_battery_pack_conditions` 508-519,
`plot_tiltrotor_conditions` 1046-1067 and again 1100-1115).

Simplifications: only the numbers handed to the plotting library, not axes, colours or legends; reals, with `none` where numpy gives
nan; arrays are lists of the values at the control points.
-/

namespace Verif.IO.Plots

/-! ### Fuel -/

/-- A segment of the results: `weights.has_additional_fuel`, `fuel_mass`, `additional_fuel_mass` and `total_mass`. -/
structure PSeg where
  has : Bool
  fuel : List ℝ
  extra : List ℝ
  mass : List ℝ

/-- The curves: red, blue and green with an additional fuel (237-239, 250-252), magenta without (263). -/
inductive Kind
  | fuel
  | extra
  | total
  | mass
  deriving DecidableEq

/-- A curve: segment it is drawn over, kind and values. -/
structure Curve where
  seg : ℕ
  kind : Kind
  values : List ℝ

/-- `x[-1]` of an array that is not empty. -/
def last (l : List ℝ) : ℝ := l.getLastD 0

/-- The curves without additional fuel (256-263): all segments of the mission, from the first mass of the first segment. -/
def massCurves (all : List PSeg) : List Curve :=
  let m0 := match all with
    | [] => 0
    | s :: _ => s.mass.headD 0
  all.mapIdx fun i s => ⟨i, .mass, s.mass.map fun m => -(m - m0)⟩

/-- The three curves of a segment with an additional fuel, with what was used before (234-239, 247-252). -/
def threeCurves (i : ℕ) (pf pe : ℝ) (s : PSeg) : List Curve :=
  [⟨i, .fuel, s.fuel.map fun f => -(f + pf)⟩, ⟨i, .extra, s.extra.map fun e => -(e + pe)⟩,
    ⟨i, .total, List.zipWith (fun f e => -((f + pf) + (e + pe))) s.fuel s.extra⟩]

/-- The loop (221-263): `pf` and `pe` are `prev_seg_fuel` and `prev_seg_extra_fuel`, `prev` the segment before. -/
def go (all : List PSeg) (i : ℕ) (pf pe : ℝ) (prev : Option PSeg) : List PSeg → List Curve
  | [] => []
  | s :: rest =>
    if s.has then
      match prev with
      | none => threeCurves i 0 0 s ++ go all (i + 1) pf pe (some s) rest
      | some q => threeCurves i (pf + last q.fuel) (pe + last q.extra) s
          ++ go all (i + 1) (pf + last q.fuel) (pe + last q.extra) (some s) rest
    else massCurves all ++ go all (i + 1) pf pe (some s) rest

/-- `plot_fuel_use`. -/
def fuelUse (segs : List PSeg) : List Curve := go segs 0 0 0 none segs

/-! ### Tilting rotors -/

/-- Angle of the thrust in the frame of the body (1058-1061); `none` without thrust (nan). -/
noncomputable def thrustAngle (tx tz : ℝ) : Option ℝ :=
  if tx ^ 2 + tz ^ 2 = 0 then none else some (Real.arccos (tx / Real.sqrt (tx ^ 2 + tz ^ 2)))

/-- Angle of the velocity in the inertial frame (1062): division by zero gives an infinite slope, or nan at rest. -/
noncomputable def velocityAngle (vx vz : ℝ) : Option ℝ :=
  if vx = 0 then (if vz = 0 then none else some (if vz < 0 then Real.pi / 2 else -(Real.pi / 2)))
  else some (Real.arctan (-vz / vx))

/-- Incidence of the propeller (1067). -/
noncomputable def incidence (tx tz vx vz : ℝ) : Option ℝ := do
  let a ← thrustAngle tx tz
  let b ← velocityAngle vx vz
  pure (a - b)

/-- Advance ratio (1046, 1064-1065). -/
noncomputable def advance (radius rpm v : ℝ) : ℝ := v / (rpm / 60 * (2 * radius))

/-! ### Battery -/

/-- Capacity in ampere hours (517), energy in joules. -/
noncomputable def ampHours (energy volts : ℝ) : ℝ := energy / 3600 / volts

/-- C-rate with the energy left (518). -/
noncomputable def cInstant (current energy volts : ℝ) : ℝ := current / ampHours energy volts

/-- C-rate with the largest capacity of the segment (519): `points` holds energy and voltage. -/
noncomputable def cNominal (current : ℝ) (points : List (ℝ × ℝ)) : ℝ :=
  current / (points.map fun p => ampHours p.1 p.2).foldr max 0

end Verif.IO.Plots
