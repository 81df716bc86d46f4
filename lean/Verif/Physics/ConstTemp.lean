import Verif.Physics.Atmosphere
/-
Model of the atmosphere of constant temperature: `Constant_Temperature.compute_values`
(trunk/SUAVE/Analyses/Atmospheric/Constant_Temperature.py:97-175), one altitude at a time, over the
reals, and of its use by a mission (`update_atmosphere`,
trunk/SUAVE/Methods/Missions/Segments/Common/Aerodynamics.py:74-80).

The altitudes and pressures of its table (trunk/SUAVE/Attributes/Atmospheres/Earth/
Constant_Temperature.py:52-54) are those of the standard atmosphere (`us76`).  The table's own
temperatures are never read (145, 157).  Not modelled: viscosity, conductivity, Prandtl number, the
warnings, and that temperature and speed of sound are numbers instead of columns.
-/

namespace Verif.Physics

open Real

/-- Pressure at a clamped geopotential altitude (142-155). -/
noncomputable def Breaks.constPress (b : Breaks) (g R temperature z : ℝ) : ℝ :=
  let l := b.select z
  l.p0 * exp (-1 * (z - l.z0) * g / (R * temperature))

/-- `compute_values` at geometric altitude `h` (118-126, 152-159). -/
noncomputable def Breaks.constTemp (b : Breaks) (g Rad R h temperature : ℝ) : Air :=
  let z := b.clamp (geopotential Rad h)
  let p := b.constPress g R temperature z
  { T := temperature, p := p, rho := p / (R * temperature), a := sqrt (1.4 * R * temperature) }

/-- `update_atmosphere` of a mission segment (Aerodynamics.py:80) with this atmosphere: the second
argument of `compute_values` is the temperature deviation of the segment. -/
noncomputable def Breaks.missionConstTemp (b : Breaks) (g Rad R h deviation : ℝ) : Air :=
  b.constTemp g Rad R h deviation

end Verif.Physics
