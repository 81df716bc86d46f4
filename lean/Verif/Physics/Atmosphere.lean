import Mathlib.Analysis.SpecialFunctions.Pow.Real
/-
Model of the 1976 standard atmosphere: `US_Standard_1976.compute_values`
(trunk/SUAVE/Analyses/Atmospheric/US_Standard_1976.py:66-181), the break table
(trunk/SUAVE/Attributes/Atmospheres/Earth/US_Standard_1976.py:56-58) and the gas relations of
`Air` (trunk/SUAVE/Attributes/Gases/Air.py:60-109), one altitude at a time, over the reals.

Not modelled: viscosity, conductivity, Prandtl number, the variable-gamma option, the warnings.
-/

namespace Verif.Physics

open Real

/-- The break table: `nb` breaks with altitude, temperature and pressure. -/
structure Breaks where
  nb : Nat
  z : Nat → ℝ
  T : Nat → ℝ
  p : Nat → ℝ

/-- Layer data of one altitude: `z0`, `T0`, `p0`, `alpha` (141-144). -/
structure Layer where
  z0 : ℝ
  T0 : ℝ
  p0 : ℝ
  alpha : ℝ

/-- The assignments for layer `i` (150-154). -/
noncomputable def Breaks.layer (b : Breaks) (i : Nat) : Layer :=
  { z0 := b.z i, T0 := b.T i, p0 := b.p i
    alpha := -(b.T (i + 1) - b.T i) / (b.z (i + 1) - b.z i) }

/-- The loop over the layers (148-154); later layers overwrite earlier ones. -/
noncomputable def Breaks.select (b : Breaks) (z : ℝ) : Layer :=
  (List.range (b.nb - 1)).foldl
    (fun acc i => if b.z i ≤ z ∧ z ≤ b.z (i + 1) then b.layer i else acc) ⟨0, 0, 0, 0⟩

/-- Geopotential altitude (124). -/
noncomputable def geopotential (Rad h : ℝ) : ℝ := h / (1 + h / Rad)

/-- Clamping (127-132). -/
noncomputable def Breaks.clamp (b : Breaks) (z : ℝ) : ℝ :=
  let z := if z < b.z 0 then b.z 0 else z
  if z > b.z (b.nb - 1) then b.z (b.nb - 1) else z

/-- Temperature at a clamped geopotential altitude (163). -/
noncomputable def Breaks.temp (b : Breaks) (z dT : ℝ) : ℝ :=
  let l := b.select z
  l.T0 - (z - l.z0) * l.alpha + dT

/-- Pressure (157-161). -/
noncomputable def Breaks.press (b : Breaks) (g R z : ℝ) : ℝ :=
  let l := b.select z
  let dz := z - l.z0
  if l.alpha = 0 then l.p0 * exp (-1 * dz * g / (R * l.T0))
  else l.p0 * (1 - l.alpha * dz / l.T0) ^ (1 * g / (l.alpha * R))

/-- Temperature, pressure, density (Air.py:80) and speed of sound (Air.py:107-109). -/
structure Air where
  T : ℝ
  p : ℝ
  rho : ℝ
  a : ℝ

/-- `compute_values` at geometric altitude `h`. -/
noncomputable def Breaks.compute (b : Breaks) (g Rad R : ℝ) (h dT : ℝ) : Air :=
  let z := b.clamp (geopotential Rad h)
  let T := b.temp z dT
  let p := b.press g R z
  { T := T, p := p, rho := p / (R * T), a := sqrt (1.4 * R * T) }

/-- The table of the 1976 standard atmosphere. -/
noncomputable def us76 : Breaks where
  nb := 9
  z := fun i => ([-2000, 0, 11000, 20000, 32000, 47000, 51000, 71000, 84852] : List ℝ).getD i 0
  T := fun i => ([301.15, 288.15, 216.65, 216.65, 228.65, 270.65, 270.65, 214.65, 186.95] : List ℝ).getD i 0
  p := fun i => ([127774.0, 101325.0, 22632.1, 5474.89, 868.019, 110.906, 66.9389, 3.95642, 0.3734] : List ℝ).getD i 0

/-- `Earth.compute_gravity` (trunk/SUAVE/Attributes/Planets/Earth.py:51-75). -/
noncomputable def gravity (g0 Re H : ℝ) : ℝ := g0 * (Re / (Re + H)) ^ 2

end Verif.Physics
