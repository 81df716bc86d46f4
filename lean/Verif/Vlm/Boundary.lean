import Verif.Vlm.Horseshoe
import Mathlib.Analysis.SpecialFunctions.Trigonometric.Arctan
import Mathlib.Algebra.BigOperators.Fin

/-!
# Boundary condition of the vortex lattice

Model of `build_RHS` and `compute_RHS_matrix`
(`Fidelity_Zero/Lift/compute_RHS_matrix.py`), of the influence matrix of `VLM.py` lines 236-270 and
of the panel normals of `generate_VD_helpers.py` lines 113-170.
-/

namespace Verif.Vlm

/-- The flight condition seen by the panels: speed, incidence, sideslip and the roll, pitch and yaw
rates (`compute_RHS_matrix.py` lines 171-176). -/
structure Flight where
  V : ℝ
  alpha : ℝ
  psi : ℝ
  roll : ℝ
  pitch : ℝ
  yaw : ℝ

/-- The lever arm of a panel: `XGIRO`, `YGIRO`, `ZGIRO` (lines 186-200).  `xch`, `ych`, `zch` is the
quarter-chord point of the panel, `chord` the chord of its strip, `n` the number of panels in the
strip and `xbar`, `zbar` the reference point. -/
noncomputable def giro (xch ych zch chord n xbar zbar : ℝ) : Vec3 :=
  ⟨xch + chord * ((1 / 2) / n) - xbar, ych, zch - zbar⟩

/-- `Vx_rotation`, `Vy_rotation`, `Vz_rotation` (lines 226-228). -/
def rotationVelocity (f : Flight) (g : Vec3) : Vec3 :=
  ⟨-f.pitch * g.z + f.yaw * g.y, -f.yaw * g.x + f.roll * g.z, -f.roll * g.y + f.pitch * g.x⟩

/-- `Vx`, `Vy`, `Vz` (lines 230-232): free stream, rotation and slipstream. -/
noncomputable def onset (f : Flight) (g ind : Vec3) : Vec3 :=
  ⟨f.V * Real.cos f.alpha * Real.cos f.psi + (rotationVelocity f g).x + ind.x,
   f.V * Real.cos f.alpha * Real.sin f.psi + (rotationVelocity f g).y + ind.y,
   f.V * Real.sin f.alpha + (rotationVelocity f g).z + ind.z⟩

/-- `RHS_from_normals` for one panel (lines 238-240). -/
noncomputable def rhsNormal (f : Flight) (g ind nrm : Vec3) : ℝ :=
  (onset f g ind).x / f.V * nrm.x + (onset f g ind).y / f.V * nrm.y
    + (onset f g ind).z / f.V * nrm.z

/-- `SCNTL` (line 210). -/
noncomputable def scntl (slope : ℝ) : ℝ := slope / Real.sqrt (1 + slope ^ 2)
/-- `CCNTL` (line 211). -/
noncomputable def ccntl (slope : ℝ) : ℝ := 1 / Real.sqrt (1 + scntl slope ^ 2)

/-- `ALOC` for one panel (lines 178-218): the right-hand side of the original VORLAX. -/
noncomputable def aloc (f : Flight) (g : Vec3) (slope phi : ℝ) : ℝ :=
  let VX := Real.cos f.alpha * Real.cos f.psi - f.pitch / f.V * g.z + f.yaw / f.V * g.y
  let VY := Real.cos f.alpha * Real.sin f.psi - f.yaw / f.V * g.x + f.roll / f.V * g.z
  let VZ := Real.sin f.alpha - f.roll / f.V * g.y + f.pitch / f.V * g.x
  VX * scntl slope + VY * ccntl slope * Real.sin phi - VZ * ccntl slope * Real.cos phi

/-- One entry of the influence matrix `A` (`VLM.py` lines 263-265): `c` is the velocity induced by
the vortex at the control point. -/
noncomputable def influence (c : Vec3) (delta phi : ℝ) : ℝ :=
  c.x * (Real.sin delta * Real.cos phi) + c.y * (Real.cos delta * Real.sin phi)
    - c.z * (Real.cos phi * Real.cos delta)

/-- A network as far as the slipstream is concerned: the velocities induced at one control point by
each of its propellers and each of its lift rotors; `none` when the network has no such entry. -/
structure Net where
  props : Option (List Vec3)
  rotors : Option (List Vec3)

/-- Sum of a list of velocities, accumulated from the front (lines 94-97, 103-106). -/
def sumVec : List Vec3 → Vec3
  | [] => ⟨0, 0, 0⟩
  | v :: vs => v + sumVec vs

/-- `compute_RHS_matrix` lines 85-122: the slipstream velocity handed to `build_RHS`.  The `return`
stands inside the loop over the networks. -/
def slipstream (wakeModel : Bool) : List Net → Vec3
  | [] => ⟨0, 0, 0⟩
  | n :: _ =>
    if wakeModel then
      (match n.props with | none => ⟨0, 0, 0⟩ | some ps => sumVec ps)
        + (match n.rotors with | none => ⟨0, 0, 0⟩ | some rs => sumVec rs)
    else ⟨0, 0, 0⟩

/-- `P1P2 × P1P3` of a panel with leading corners `a1`, `b1` and trailing inner corner `a2`
(`generate_VD_helpers.py` lines 160-163). -/
def panelCross (a1 b1 a2 : Vec3) : Vec3 := Vec3.cross (b1 - a1) (a2 - a1)

open Classical in
/-- `compute_unit_normal` (lines 142-170) for one panel; `none` when the panel is degenerate (the
code divides by zero). -/
noncomputable def unitNormal (a1 b1 a2 : Vec3) : Option Vec3 :=
  let c := panelCross a1 b1 a2
  if c.norm = 0 then none
  else
    let u := Vec3.smul (1 / c.norm) c
    some (if u.z < 0 then -u else u)

/-- `compute_panel_area` (lines 113-138) for one panel: two triangles. -/
noncomputable def panelArea (a1 b1 a2 b2 : Vec3) : ℝ :=
  (1 / 2) * ((Vec3.cross (b1 - a1) (a2 - a1)).norm + (Vec3.cross (a2 - b1) (b2 - b1)).norm)

end Verif.Vlm
