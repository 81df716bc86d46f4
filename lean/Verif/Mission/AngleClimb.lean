import Verif.Mission.Points
/-
Model of the climbs whose altitudes are unknowns: constant Mach number or constant dynamic pressure
at a constant climb angle (trunk/SUAVE/Methods/Missions/Segments/Climb/
{Constant_Mach_Constant_Angle,Constant_Dynamic_Pressure_Constant_Angle}.py, with
`update_differentials` of Climb/Optimized.py, in the order of
trunk/SUAVE/Analyses/Mission/Segments/Climb/Unknown_Throttle.py:109-137), and of the initial state of
a battery (trunk/SUAVE/Methods/Power/Battery/append_initial_battery_conditions.py).

The root finder is not modelled: it makes the residuals zero.  The total force is any column.
-/

namespace Verif.Mission

/-- Conditions after one evaluation: velocity components, altitudes, duration. -/
structure Climbed (n : Nat) where
  vx : Col n
  vz : Col n
  alt : Col n
  dt : ℝ

/-- One evaluation for the unknown altitudes `alts`
(Constant_Mach_Constant_Angle.py:62-76 with `speed alt = mach a(alt)`,
Constant_Dynamic_Pressure_Constant_Angle.py:72-86 with `speed alt = sqrt(2 q/rho(alt))`;
Optimized.py:107-131).  `update_differentials` reads `segment.altitude_start` itself: without one it
raises whatever the previous segment was (`none`). -/
noncomputable def angleClimb {n : Nat} (speed : ℝ → ℝ) (I : Matrix (Fin (n + 2)) (Fin (n + 2)) ℝ) (x time : Col n)
    (angle : ℝ) (start : Option ℝ) (altf : ℝ) (alts : Col n) : Option (Climbed n) :=
  let vx : Col n := fun i => speed (alts i) * Real.cos angle
  let vz : Col n := fun i => -speed (alts i) * Real.sin angle
  start.map fun alt0 =>
    let r := optDifferentials I x vz time alt0 altf
    ⟨vx, vz, r.2.1, r.1⟩

/-- `mach a(alt)` (Constant_Mach_Constant_Angle.py:66-69). -/
def machSpeed (mach : ℝ) (a : ℝ → ℝ) (alt : ℝ) : ℝ := mach * a alt

/-- `sqrt(2 q/rho(alt))` (Constant_Dynamic_Pressure_Constant_Angle.py:76-79). -/
noncomputable def pressureSpeed (q : ℝ) (rho : ℝ → ℝ) (alt : ℝ) : ℝ := Real.sqrt (2 * q / rho alt)

/-- Residuals (Constant_Mach_Constant_Angle.py:90-92, Constant_Dynamic_Pressure_Constant_Angle.py:
121-123): forces over mass less accelerations, altitudes. -/
noncomputable def angleResidual {n : Nat} (Fx Fz m ax az alts : Col n) (c : Climbed n) (i : Fin (n + 2)) : ℝ × ℝ × ℝ :=
  (Fx i / m i - ax i, Fz i / m i - az i, (alts i - c.alt i) / fin c.alt)

/-! ### Initial state of a battery -/

/-- What a segment may give (append_initial_battery_conditions.py:69-128). -/
structure BatSeg where
  deviation : Option ℝ
  packTemp : Option ℝ
  maxAged : Option ℝ
  energy : Option ℝ
  cycleDay : Option ℝ
  throughput : Option ℝ
  growth : Option ℝ
  fade : Option ℝ

/-- Battery conditions, uniform over the control points. -/
structure BatCond where
  temp : ℝ
  maxAged : ℝ
  maxInitial : ℝ
  energy : ℝ
  cycleDay : ℝ
  throughput : ℝ
  growth : ℝ
  fade : ℝ
  soc : ℝ

/-- `append_initial_battery_conditions` (lines 67 to 138): `air alt dev` is the temperature of the
standard atmosphere, `old` the conditions before; `none` for exceptions (`temp_dev` is unbound
without a deviation, lines 69 to 71). -/
noncomputable def initialBattery (air : ℝ → ℝ → ℝ) (alt0 maxEnergy : ℝ) (old : BatCond) (s : BatSeg) : Option BatCond :=
  s.deviation.map fun dev =>
    let t := s.packTemp.getD (air alt0 dev)
    let aged := s.maxAged.getD maxEnergy
    match s.energy with
    | none => { old with temp := t, maxAged := aged }
    | some e =>
      { temp := t, maxAged := aged, maxInitial := e, energy := e, cycleDay := s.cycleDay.getD 0
        throughput := s.throughput.getD 0, growth := s.growth.getD 1, fade := s.fade.getD 1
        soc := e / aged }

end Verif.Mission
