import Mathlib.Analysis.SpecialFunctions.Pow.Real
import Verif.Energy.GasTurbine

/-!
Reports written after an analysis.

Sources: trunk/SUAVE/Input_Output/Results/{print_mission_breakdown,print_engine_data,print_parasite_drag}.py.

Simplifications: numbers before they are rounded for printing (except where the code reads a printed number back); the first
and last control point of each segment; the drag analysis is any function of settings, the network any function of the
conditions it is given.
-/

namespace Verif.IO.Reports

/-! ### Mission breakdown -/

/-- First and last control point of a segment: position, time, masses, Mach number, pressure and range flown. -/
structure End where
  x : ℝ
  z : ℝ
  t : ℝ
  mass : ℝ
  fuel : ℝ
  additional : ℝ
  mach : ℝ
  pressure : ℝ
  range : ℝ

/-- A segment in the results; `has` is `weights.has_additional_fuel`. -/
structure Seg where
  first : End
  last : End
  has : Bool

/-- A line of the table (168-198). -/
structure Row where
  altI : ℝ
  altF : ℝ
  massI : ℝ
  massF : ℝ
  dist : ℝ
  time : ℝ
  casI : ℝ
  casF : ℝ
  fuel : ℝ
  additional : Option ℝ

/-- The lines below the table (215-229). -/
structure Totals where
  range : ℝ
  main : ℝ
  additional : Option ℝ
  total : Option ℝ
  hours : ℕ
  minutes : ℕ

/-- Units of length and speed: feet, nautical miles and knots, or metres, kilometres and metres per second. -/
structure Sys where
  height : ℝ
  dist : ℝ
  speed : ℝ

/-- The argument `units` (56-63): `none` if it is refused. -/
noncomputable def sys (units : String) : Option Sys :=
  if units = "imperial" then some ⟨0.3048, 1852, 1852 / 3600⟩ else if units = "si" then some ⟨1, 1000, 1⟩ else none

/-- Constants of the calibrated airspeed (68-69). -/
noncomputable def k1 : ℝ := 1.727133242e-6

/-- Exponent of the calibrated airspeed (69). -/
noncomputable def k2 : ℝ := 0.2857142857

/-- Equivalent airspeed (120). -/
noncomputable def eas (mach δ : ℝ) : ℝ := mach * (340.294 * Real.sqrt δ)

/-- Impact pressure over sea level pressure (121). -/
noncomputable def impact (mach δ : ℝ) : ℝ := δ * ((1 + k1 * eas mach δ ^ 2 / δ) ^ (3.5 : ℝ) - 1)

/-- Calibrated airspeed (122). -/
noncomputable def cas (mach δ : ℝ) : ℝ := Real.sqrt (((impact mach δ + 1) ^ k2 - 1) / k1)

/-- One line of the table (82-180); `p0` is the sea level pressure. -/
noncomputable def row (u : Sys) (p0 : ℝ) (s : Seg) : Row where
  altI := -s.first.z / u.height
  altF := -s.last.z / u.height
  massI := s.first.mass
  massF := s.last.mass
  dist := (s.last.x - s.first.x) / u.dist
  time := s.last.t / 60 - s.first.t / 60
  casI := cas s.first.mach (s.first.pressure / p0) / u.speed
  casF := cas s.last.mach (s.last.pressure / p0) / u.speed
  fuel := if s.has then s.first.fuel - s.last.fuel else s.first.mass - s.last.mass
  additional := if s.has then some (s.first.additional - s.last.additional) else none

/-- Hours and minutes of `time.gmtime` (229): the time of day. -/
noncomputable def clock (t : ℝ) : ℕ × ℕ := (⌊t⌋₊ / 3600 % 24, ⌊t⌋₊ / 60 % 60)

/-- The lines below the table (71-73, 108, 201-229). -/
noncomputable def totals (u : Sys) (a : Seg) (b : Seg) (segs : List Seg) : Totals :=
  let range := segs.foldl (fun r s => r + (s.last.x - s.first.x) / u.dist) 0
  let total := segs.foldl (fun r s => r + (s.first.fuel - s.last.fuel) + (s.first.additional - s.last.additional)) 0
  let add := segs.foldl (fun r s => r + (s.first.additional - s.last.additional)) 0
  let time := b.last.t - a.first.t
  let main := if a.has then total else a.first.mass - b.last.mass
  { range := range, main := main, additional := if a.has then some add else none, total := if a.has then some (add + main) else none
    hours := (clock time).1, minutes := (clock time).2 }

/-- `print_mission_breakdown`: `none` if there is no table because of the units, or if the mission has no segment
(`results.segments[-1]` raises). -/
noncomputable def missionBreakdown (units : String) (p0 : ℝ) (segs : List Seg) : Option (List Row × Totals) :=
  (sys units).bind fun u =>
    match segs with
    | [] => none
    | a :: l => some ((a :: l).map (row u p0), totals u a ((a :: l).getLast (List.cons_ne_nil a l)) (a :: l))

/-! ### Engine data -/

open Verif.Energy.GasTurbine in
/-- Conditions handed to the network for an altitude, a speed and a temperature offset (124-145): the speed of sound of the
conditions stays at its default value zero.  `atm` gives pressure and temperature, `sound` the speed of sound. -/
noncomputable def engineConditions (atm : ℝ → ℝ × ℝ) (sound : ℝ → ℝ) (g altitude dT speed : ℝ) : Amb :=
  ⟨(atm altitude).1, (atm altitude).2 + dT, speed / sound ((atm altitude).2 + dT), speed, 0, g⟩

open Verif.Energy.GasTurbine in
/-- Thrust per engine and specific consumption of an entry (147-156); `net` gives thrust and mass rate, `lbf` is the unit of
force of the table and `c` the factor of the consumption. -/
noncomputable def engineEntry (net : Amb → ℝ × ℝ) (engines lbf c : ℝ) (a : Amb) : ℝ × ℝ :=
  ((net a).1 / engines / lbf, c * (net a).2 / (net a).1)

/-! ### Parasite drag -/

/-- Result of the drag analysis for a component: coefficient and wetted area. -/
structure Part where
  cd : ℝ
  swet : ℝ

/-- The analysis: parts of wings, fuselages, nacelles (with the number of their origins), pylons, and miscellaneous drag. -/
structure Breakdown where
  wings : List Part
  bodies : List Part
  nacelles : List (Part × ℕ)
  pylon : Part
  misc : ℝ

/-- Two numbers read back after printing with five decimals (201-208). -/
noncomputable def printed5 (x : ℝ) : ℝ := round (x * 100000) / 100000

/-- The table of `print_parasite_drag` (118-215): coefficients of the lines, and the sums.  The results with the settings of
the user (118-130) are replaced by those of a new analysis with default settings (133-138); the drag increment is the
user's.  `misc` is that of the new analysis as well. -/
noncomputable def parasiteTable {S : Type} (analysis : S → Breakdown) (default user : S) (increment : S → ℝ) : List ℝ × ℝ × ℝ :=
  let _ := analysis user
  let b := analysis default
  let rows := b.wings.map Part.cd ++ b.bodies.map Part.cd ++ b.nacelles.map (fun n => n.1.cd / (n.2 : ℝ)) ++ [b.pylon.cd]
  let sum := (b.wings.map Part.cd).sum + (b.bodies.map Part.cd).sum + (b.nacelles.map fun n => n.1.cd).sum + b.pylon.cd +
    printed5 b.misc + printed5 (increment user)
  let swet := (b.wings.map Part.swet).sum + (b.bodies.map Part.swet).sum + (b.nacelles.map fun n => n.1.swet * (n.2 : ℝ)).sum + b.pylon.swet
  (rows, sum, swet)

end Verif.IO.Reports
