import Verif.Vsp.Wing
import Mathlib.Data.Finset.Lattice.Fold
import Mathlib.Algebra.Order.Round

/-!
Fuselages, nacelles and propellers to and from OpenVSP: `trunk/SUAVE/Input_Output/OpenVSP/vsp_fuselage.py`,
`vsp_nacelle.py`, `vsp_propeller.py`.

OpenVSP is a store that gives back the parameters written to it; probing a surface is an arbitrary function
of the parameter `u`.
-/

namespace Verif.Vsp

open Real
open scoped Classical

/-! ### Fuselages -/

/-- A fuselage section: `percent_x_location`, `height`. -/
structure FSec where
  x : ℝ
  height : ℝ

/-- `get_fuselage_height` (`vsp_fuselage.py`, lines 548 to 558); `none` for `UnboundLocalError`. -/
noncomputable def fuseHeight : List FSec → ℝ → Option ℝ
  | p :: q :: rest, loc =>
    if loc ≤ q.x ∧ p.x < loc then
      some ((loc - p.x) * ((q.height - p.height) / (q.x - p.x)) + p.height)
    else fuseHeight (q :: rest) loc
  | _, _ => none

/-- `segment.length` of section `i` of `n` (`read_vsp_fuselage`, lines 112, 149 to 155): `length` is
OpenVSP's parameter, `x` the locations as fractions of the length. -/
noncomputable def segLength (units length : ℝ) (x : ℕ → ℝ) (n i : ℕ) : ℝ :=
  if i ≠ n - 1 then length * units * (x (i + 1) - x i) * units else 0

/-- An angle in degrees for a rise over a run (`set_section_angles`, lines 469 to 476). -/
noncomputable def sectionAngle (rise run : ℝ) : ℝ := tan (rise / run) / unitDeg

/-- The top angle of the section between sections `(x0, z0, h0)` and `(x2, z2, h2)`, given as fractions of
`length` but for the heights (lines 464 to 474). -/
noncomputable def topAngle (length x0 z0 h0 x2 z2 h2 : ℝ) : ℝ :=
  sectionAngle ((h2 / 2 + z2 * length) - (h0 / 2 + z0 * length)) (x2 * length - x0 * length)

/-- `find_fuse_u_coordinate` (lines 581 to 597): bisection on the position `x` of the probe, with fuel. -/
noncomputable def findU (x : ℝ → ℝ) (target tol : ℝ) : ℕ → ℝ → ℝ → Option ℝ
  | 0, _, _ => none
  | k + 1, lo, hi =>
    let u := (hi + lo) / 2
    let diff := target - x u
    if |diff| ≤ tol then some u
    else if 0 < diff then findU x target tol k u hi
    else findU x target tol k lo u

/-- One trim of `write_fuselage_conformal_fuel_tank` (lines 646 to 663). -/
noncomputable def tankU (x : ℝ → ℝ) (percent : ℝ) (fuel : ℕ) : Option ℝ :=
  findU x ((x 1 - x 0) * percent) (1 / 1000) fuel 0 1

/-- `eff_diam_gradients_fwd` (lines 174, 175). -/
noncomputable def gradient (len d : ℕ → ℝ) (k : ℕ) : ℝ := (d (k + 1) - d k) * len k

/-- `np.min(g[mask])` over the indices below `m`; `none` for `ValueError`. -/
noncomputable def maskedMin (mask : ℕ → Prop) (g : ℕ → ℝ) (m : ℕ) : Option ℝ :=
  if h : ((Finset.range m).filter fun k => mask k).Nonempty then
    some (((Finset.range m).filter fun k => mask k).inf' h g) else none

/-- `fuselage.lengths.nose` of `compute_fuselage_fineness` (lines 511 to 515) for `m + 1` sections. -/
noncomputable def noseLength (total : ℝ) (x len d : ℕ → ℝ) (m : ℕ) : Option ℝ := do
  let v ← maskedMin (fun k => x k ≤ 1 / 2) (gradient len d) m
  let k ← firstIdx (fun k => decide (gradient len d k = v)) m
  some ((x k - x 0) * total)

/-- `fuselage.lengths.tail` of `compute_fuselage_fineness` (lines 519 to 523) for `m + 1` sections. -/
noncomputable def tailLength (total : ℝ) (x len d : ℕ → ℝ) (m : ℕ) : Option ℝ := do
  let v ← maskedMin (fun k => 1 / 2 ≤ x (k + 1)) (fun k => -gradient len d k) m
  let k ← lastIdx (fun k => decide (-gradient len d k = v)) m
  some ((1 - x (k + 1)) * total)

/-! ### Nacelles -/

/-- A nacelle without segments: outer and inlet diameters, length, flow through, the angle of the cowling. -/
structure Nac where
  diameter : ℝ
  inlet : ℝ
  length : ℝ
  flow : Bool
  angle : ℝ

/-- What is stored for a body of revolution. -/
structure Bor where
  diameter : ℝ
  superHeight : ℝ
  superWidth : ℝ
  angle : ℝ
  mode : ℝ

/-- `write_vsp_nacelle` without segments or airfoil (`vsp_nacelle.py`, lines 64 to 67, 159 to 163, 183 to
191); the angle is only written with an airfoil (line 177) and is that of the body otherwise. -/
noncomputable def writeNac (defaultAngle : ℝ) (n : Nac) : Bor :=
  let height := n.diameter - n.inlet
  let diameter := n.diameter - height / 2
  { diameter := diameter
    superHeight := if n.flow then height else diameter
    superWidth := n.length
    angle := defaultAngle
    mode := if n.flow then 0 else 1 }

/-- `read_vsp_nacelle` of a body of revolution with a super ellipse (lines 319 to 327, 346 to 354, 368 to
371). -/
noncomputable def readNac (units : ℝ) (b : Bor) : Nac :=
  let flow : Bool := decide (b.mode = 0)
  let height := if flow then b.superHeight * units else b.superHeight * units / 2
  let diameter := if flow then b.diameter * units else b.superHeight * units
  { diameter := diameter + height / 2
    inlet := diameter + height / 2 - height
    length := b.superWidth * units
    flow := flow
    angle := b.diameter * unitDeg }

/-- `int(round(v, 0))`: halves go to the even neighbour; away from halves it is `round`. -/
noncomputable def pyRound (v : ℝ) : ℤ :=
  if Int.fract v = 1 / 2 then (if Even ⌊v⌋ then ⌊v⌋ else ⌊v⌋ + 1) else round v

/-- The airfoil name read back for the four digit airfoil with camber digit `c`, location digit `l` and
thickness `t` in percent (lines 170 to 172, 335 to 338). -/
noncomputable def nacaName (c l t : ℕ) : String :=
  toString (pyRound ((c : ℝ) / 100 * 100)) ++ toString (pyRound ((l : ℝ) / 10 * 10)) ++
    toString (pyRound ((t : ℝ) / 100 * 10))

/-- The location along the nacelle of segment `i`, as a fraction, after writing the segments with fractions
`px` and reading them back (lines 101 to 110, 124, 261 to 290, 310 to 316): OpenVSP stores the steps.  The
first step is not written (line 121) and is `d0` in OpenVSP. -/
noncomputable def stackX (length d0 : ℝ) (px : ℕ → ℝ) (n i : ℕ) : ℝ :=
  let step : ℕ → ℝ := fun k => if k = 0 then d0 else length * (px k - px (k - 1))
  (∑ k ∈ Finset.range (i + 1), step k) / ∑ k ∈ Finset.range n, step k

/-- `nacelle.diameter` of a stack (lines 267, 306). -/
noncomputable def stackDiameter (hw : List (ℝ × ℝ)) : ℝ :=
  hw.foldl (fun d s => max (√(s.1 ^ 2 + s.2 ^ 2)) d) 0

/-! ### Propellers -/

/-- A blade station: radius, chord, twist, alignment of the mid chord, thickness over chord, thickness. -/
structure Station where
  radius : ℝ
  chord : ℝ
  twist : ℝ
  mca : ℝ
  tc : ℝ
  thickness : ℝ

/-- A row of the blade element file: radius and chord over tip radius, twist, sweep, t/c. -/
structure BemRow where
  r : ℝ
  c : ℝ
  twist : ℝ
  sweep : ℝ
  tc : ℝ

/-- `make_section_text` (`vsp_propeller.py`, lines 294 to 300), without the rounding to seven digits. -/
noncomputable def writeRow (tip : ℝ) (s : Station) : BemRow :=
  ⟨s.radius / tip, s.chord / tip, s.twist / unitDeg, arctan (s.mca / s.radius), s.tc⟩

/-- A station of `read_vsp_propeller` (lines 151 to 154, 163 to 168); `diameter` is OpenVSP's. -/
noncomputable def readRow (units diameter : ℝ) (last : Bool) (b : BemRow) : Station :=
  let tip := diameter / 2 * units
  let radius := if last then 0.99 * tip else b.r * tip
  { radius := radius
    chord := b.c * tip
    twist := b.twist * unitDeg
    mca := tan (b.sweep * unitDeg) * radius
    tc := b.tc
    thickness := b.tc * (b.c * tip) * units }

end Verif.Vsp
