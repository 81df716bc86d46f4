import Verif.Vlm.Boundary
/-
`compute_rotation_effects` (529-580) of trunk/SUAVE/Methods/Aerodynamics/Common/Fidelity_Zero/Lift/VLM.py, and what becomes of it in the suction of the
leading edge (376-391, 406-421), for the first panel of one strip.

Simplifications
* `EW` and `GAMMA` are rows of numbers; exact real arithmetic. One Mach number.
-/

namespace Verif.Vlm

/-- `(EW*gamma).sum(axis=2)` for one panel (552-555). -/
def inducedFlow (ew gamma : List ℝ) : ℝ := (List.zipWith (· * ·) ew gamma).sum

/-- `XLE` (line 386, with `PION` of 382): the first load point in fractions of the chord. -/
noncomputable def xle (n : ℝ) : ℝ := 0.125 * (2 / n)

/-- The arm of the leading edge (562-564). -/
noncomputable def giroLE (xch ych zch chord n xbar zbar : ℝ) : Vec3 := ⟨xch - chord * xle n - xbar, ych, zch - zbar⟩

/-- `EFFINC` (566-576). -/
noncomputable def effinc (f : Flight) (g : Vec3) (slope phi : ℝ) : ℝ :=
  let VX := Real.cos f.alpha * Real.cos f.psi - f.pitch / f.V * g.z + f.yaw / f.V * g.y
  let VY := Real.cos f.alpha * Real.sin f.psi - f.yaw / f.V * g.x + f.roll / f.V * g.z
  let VZ := Real.sin f.alpha - f.roll / f.V * g.y + f.pitch / f.V * g.x
  VX * scntl slope + VY * ccntl slope * Real.sin phi - VZ * ccntl slope * Real.cos phi

/-- `compute_rotation_effects` (577-580); `stb` is `STB` of the strip. -/
noncomputable def rotationEffect (ew gamma : List ℝ) (f : Flight) (xch ych zch chord n xbar zbar slope phi stb : ℝ) : ℝ :=
  let cle := inducedFlow ew gamma - effinc f (giroLE xch ych zch chord n xbar zbar) slope phi
  if stb > 0 then cle / n / stb else cle

open Classical in
/-- `STB` (374-376): `t` is the tangent of the sweep of the leading edge. -/
noncomputable def stbOf (mach t : ℝ) : ℝ := if mach ^ 2 - 1 < t * t then Real.sqrt (t * t - (mach ^ 2 - 1)) else 0

/-- `CSUC` (420-421). -/
noncomputable def suction (spc cle dcp n stb : ℝ) : ℝ := 0.5 * Real.pi * |spc| * (cle + 0.5 * dcp * Real.sqrt (xle n)) ^ 2 * stb

end Verif.Vlm
