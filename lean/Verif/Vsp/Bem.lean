import Verif.Vsp.Body
import Verif.Rotor.Orientation
import Verif.Num.Interp1

/-!
Model of the blade element file written for a propeller
(`trunk/SUAVE/Input_Output/OpenVSP/vsp_propeller.py`, lines 191 to 347: `write_vsp_propeller_bem`, `make_header_text`,
`make_airfoil_text`).

Simplifications: numbers are reals, a number printed with seven decimals is the multiple of 1e-7 printed; the sections between
header and airfoils (`make_section_text`) are the rows of `writeRow` in `Vsp/Body.lean`, here without a design lift
coefficient; an index out of range or arrays that cannot be divided are `none`.  The tilt of the disc is that of the first
control point.
-/

namespace Verif.Vsp

open Real

/-- `np.round(x, d)` (lines 253 to 261), and the number printed by `format(x, '.7f')` (308 to 345). -/
noncomputable def roundTo (d : ℕ) (x : ℝ) : ℝ := pyRound (x * 10 ^ d) / 10 ^ d

/-- What the writer reads of a propeller. -/
structure BemProp where
  stations : List Station
  tip : ℝ
  blades : ℕ
  origin : Fin 3 → ℝ
  angles : Fin 3 → ℝ
  tilt : ℝ
  /-- the coordinates of the airfoils -/
  airfoils : List (List ℝ × List ℝ)
  /-- `airfoil_polar_stations` -/
  polar : List ℕ

/-- The header (lines 238 to 248). -/
structure BemHeader where
  sections : ℕ
  blades : ℕ
  diameter : ℝ
  beta34 : ℝ
  centre : Fin 3 → ℝ
  normal : Fin 3 → ℝ

/-- `rotations` (line 258). -/
noncomputable def bemNormal (p : BemProp) : Fin 3 → ℝ := (Rotor.bodyToRotor p.angles p.tilt).mulVec ![-1, 0, 0]

/-- `beta_3_4` (lines 254 and 263): the twists in degrees are rounded first. -/
noncomputable def bemBeta (p : BemProp) : ℝ :=
  Num.npInterp (p.stations.map fun s => (s.radius, roundTo 5 (s.twist / (π / 180)))) (p.tip * (3 / 4))

/-- `make_header_text` (lines 250 to 266). -/
noncomputable def bemHeader (p : BemProp) : BemHeader :=
  { sections := p.stations.length
    blades := p.blades
    diameter := roundTo 5 (p.tip * 2)
    beta34 := bemBeta p
    centre := fun i => roundTo 5 (p.origin i)
    normal := fun i => roundTo 5 (bemNormal p i) }

/-- One printed airfoil (lines 344 to 346): as many points as there are first coordinates. -/
noncomputable def bemPoints (a : List ℝ × List ℝ) : Option (List (ℝ × ℝ)) :=
  (List.range a.1.length).mapM fun j => do
    let x ← a.1[j]?
    let y ← a.2[j]?
    some (roundTo 7 x, roundTo 7 y)

/-- `make_airfoil_text` (lines 334 to 346): a block `Section i` for every station. -/
noncomputable def bemAirfoils (p : BemProp) : Option (List (ℕ × List (ℝ × ℝ))) :=
  (List.range p.stations.length).mapM fun i => do
    let k ← p.polar[i]?
    let a ← p.airfoils[k]?
    let pts ← bemPoints a
    some (i, pts)

/-- The file (lines 206 to 212). -/
structure BemFile where
  header : BemHeader
  rows : List BemRow
  airfoils : List (ℕ × List (ℝ × ℝ))

/-- `write_vsp_propeller_bem` (lines 206 to 212). -/
noncomputable def writeBem (p : BemProp) : Option BemFile := do
  let a ← bemAirfoils p
  some { header := bemHeader p, rows := p.stations.map (writeRow p.tip), airfoils := a }

end Verif.Vsp
