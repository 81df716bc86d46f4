import Mathlib.Analysis.SpecialFunctions.Pow.Real
import Mathlib.Data.String.Basic

/-! Lift-to-drag ratio of the second segment
(trunk/SUAVE/Methods/Aerodynamics/Common/Fidelity_Zero/Helper_Functions/estimate_2ndseg_lift_drag_ratio.py), centre of gravity with
fuel (trunk/SUAVE/Methods/Center_of_Gravity/compute_mission_center_of_gravity.py), the table of a PyCycle engine
(trunk/SUAVE/Components/Energy/Networks/PyCycle.py) and files of points (trunk/SUAVE/Input_Output/VTK/save_evaluation_points_vtk.py). -/

namespace Verif.Performance.Estimates

/-! ### Second segment -/

/-- A wing: whether it is a `Main_Wing`, its attribute `aspect_ratio` (zero unless set, Components/Wings/Wing.py:75), span and
reference area. -/
structure RWing where
  main : Bool
  aspect : ℝ
  span : ℝ
  area : ℝ

/-- The aspect ratio used (57-79): that of the last main wing, otherwise of the first wing; no wings leave it unbound.  The
attribute always exists, so the branch with span and area (64, 78) is never taken. -/
def aspectOf (ws : List RWing) : Option ℝ :=
  match (ws.filter (·.main)).getLast? with
  | some w => some w.aspect
  | none => ws.head?.map (·.aspect)

/-- `estimate_2ndseg_lift_drag_ratio` (50-93): `ratio` is `V2_VS_ratio` if the vehicle has it, `clmax` what
`compute_max_lift_coeff` returns. -/
noncomputable def liftDrag (ratio : Option ℝ) (ws : List RWing) (clmax : ℝ) : Option ℝ :=
  (aspectOf ws).map fun ar => -6.464 * (clmax / ratio.getD 1.20 ^ 2) + 7.264 * ar ^ (0.5 : ℝ)

/-! ### Centre of gravity -/

/-- `compute_mission_center_of_gravity` (33-40), one coordinate: `zcg`, `zw` centre and mass without fuel, `fcg`, `fo` centre and
origin of the fuel, `fw` its mass; no mass at all gives nan. -/
noncomputable def missionCg (zcg zw fcg fo fw : ℝ) : Option ℝ :=
  if fw + zw = 0 then none else some ((zcg * zw + (fcg + fo) * fw) / (fw + zw))

/-! ### Table of a PyCycle engine -/

/-- A row: altitude, Mach number, throttle, thrust, specific consumption in SI units. -/
structure Row where
  alt : ℝ
  mach : ℝ
  pc : ℝ
  thr : ℝ
  sfc : ℝ

/-- The loop over conditions and throttles (PyCycle.py:124-154): throttles are taken in turn forwards and backwards; `run` is
the model at Mach number, altitude in feet and throttle, `ft`, `lbf`, `lbm` the units.  Simplified: the converged model does not depend
on the point solved before, and equal rows are kept (170-173 drop them). -/
def table (run : ℝ → ℝ → ℝ → ℝ × ℝ) (ft lbf lbm : ℝ) : List ℝ → List (ℝ × ℝ) → List Row
  | _, [] => []
  | pcs, (m, h) :: rest =>
    pcs.map (fun pc => ⟨h * ft, m, pc, (run m h pc).1 * lbf, (run m h pc).2 * lbm⟩) ++ table run ft lbf lbm pcs.reverse rest

/-- The scaled altitudes (PyCycle.py:179, 184): all over the largest; `none` (nan) if that is zero or there are no rows. -/
noncomputable def scaledAltitudes (rows : List Row) : Option (List ℝ) :=
  match (rows.map (·.alt)).max? with
  | none => none
  | some top => if top = 0 then none else some (rows.map fun r => r.alt / top)

/-! ### Files of points -/

/-- An array of coordinates: one row of points in a two-dimensional array, or points (save_evaluation_points_vtk.py:33-40). -/
inductive Coords
  | flat (xs : List ℝ)
  | rows (xs : List (List ℝ))

/-- `xp` (33-40) as a list of numbers; a flat array of one point becomes a number without length, which raises (69). -/
def Coords.read : Coords → Option (List ℝ)
  | .flat [_] => none
  | .flat xs => some xs
  | .rows [xs] => some xs
  | .rows _ => none

/-- A file: its name, points and columns of numbers by name. -/
structure PointFile where
  name : String
  points : List (ℝ × ℝ × ℝ)
  columns : List (String × List ℝ)

/-- Name of the file (53, 54), with the name split at its last dot. -/
def fileName (stem ext : String) (step : ℕ) : String := stem ++ "." ++ toString step ++ ext

/-- `save_evaluation_points_vtk` (33-111); `vel` holds `vt`, `va` if the points have velocities.  The radial velocities are
those of line 46. -/
noncomputable def savePoints (x y z : Coords) (vel : Option (List ℝ × List ℝ)) (stem ext : String) (step : ℕ) : Option PointFile := do
  let xp ← x.read
  let yp ← y.read
  let zp ← z.read
  let idx := List.range xp.length
  if yp.length < xp.length ∨ zp.length < xp.length then none
  else
    let pts := idx.map fun i => (xp.getD i 0, yp.getD i 0, zp.getD i 0)
    let base := [("i", idx.map fun i => (i : ℝ))]
    match vel with
    | none => some ⟨fileName stem ext step, pts, base⟩
    | some (vt, va) =>
      if vt.length < xp.length ∨ va.length < xp.length then none
      else
        let vr := vt.map fun v => v * 0
        some ⟨fileName stem ext step, pts, base ++ [("vt", idx.map fun i => vt.getD i 0), ("va", idx.map fun i => va.getD i 0),
          ("vr", idx.map fun i => vr.getD i 0)]⟩

end Verif.Performance.Estimates
