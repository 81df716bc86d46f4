import Mathlib.Analysis.SpecialFunctions.Trigonometric.Arctan
import Mathlib.Analysis.SpecialFunctions.Pow.Real
import Mathlib.Data.Finset.Sort
import Verif.Num.Interp1

/-!
The geometry handed to AVL: `trunk/SUAVE/Methods/Aerodynamics/AVL/create_avl_datastructure.py`.

Lengths are real numbers, angles radians; `deg a` is `a/Units.degrees`.  Airfoil files, tags of sections
and the writing of the text (rounded to four decimals) are not modelled.  Sections are kept in the order
in which the code appends them; `make_surface_text` of `write_geometry.py` sorts them by position.
-/

namespace Verif.Avl

open Real
open scoped Classical

/-- A point `[x, y, z]`. -/
@[ext] structure Pt where
  x : ℝ
  y : ℝ
  z : ℝ

/-- An angle in degrees, `a/Units.degrees`. -/
noncomputable def deg (a : ℝ) : ℝ := a / (π / 180)

/-- The five classes of control surfaces that lines 346 to 365 know; any other class raises there and is
not modelled. -/
inductive Kind
  | aileron | slat | flap | elevator | rudder
  deriving DecidableEq

/-- A control surface of a wing: `span_fraction_start`, `span_fraction_end`, `chord_fraction`,
`deflection`. -/
structure Surf where
  kind : Kind
  start : ℝ
  stop : ℝ
  chordFraction : ℝ
  deflection : ℝ

/-- A segment of a wing: `percent_span_location`, `root_chord_percent`, `twist`, `dihedral_outboard`,
`sweeps.quarter_chord`, `sweeps.leading_edge` (`none` for `None`). -/
structure Seg where
  loc : ℝ
  chordPct : ℝ
  twist : ℝ
  dihedral : ℝ
  sweepQc : ℝ
  sweepLe : Option ℝ

/-- A wing: `spans.projected`, `symmetric`, `vertical`, `chords.root`, `chords.tip`, `taper`,
`twists.root`, `twists.tip`, `dihedral`, `sweeps`, `origin[0]`, `control_surfaces`. -/
structure Wing where
  span : ℝ
  symmetric : Bool
  vertical : Bool
  rootChord : ℝ
  tipChord : ℝ
  taper : ℝ
  rootTwist : ℝ
  tipTwist : ℝ
  dihedral : ℝ
  sweepQc : ℝ
  sweepLe : Option ℝ
  origin : Pt
  surfaces : List Surf

/-- `Control_Surface` of `Data/Wing.py`: `sign_duplicate`, `x_hinge`, `deflection`, `gain`, `order`. -/
structure Ctrl where
  dup : ℝ
  hinge : ℝ
  deflection : ℝ
  gain : ℝ
  order : ℕ

/-- `Section` of `Data/Wing.py`. -/
structure Sec where
  origin : Pt
  chord : ℝ
  twist : ℝ
  controls : List Ctrl

/-- The half span of a symmetric wing, the whole span of another
(`create_avl_datastructure.py` lines 121 to 123). -/
noncomputable def semispan (w : Wing) : ℝ := w.span * 0.5 * (2 - if w.symmetric then 1 else 0)

/-- `np.arctan(((c0*0.25) + (np.tan(sweep)*span - 0.25*c1))/span)`
(`create_avl_datastructure.py` lines 140 to 145 and 206 to 211). -/
noncomputable def leSweep (le : Option ℝ) (qc c0 c1 span : ℝ) : ℝ :=
  match le with
  | some s => s
  | none => arctan ((c0 * 0.25 + (tan qc * span - 0.25 * c1)) / span)

/-- `np.sign`. -/
noncomputable def npSign (x : ℝ) : ℝ := if 0 < x then 1 else if x < 0 then -1 else 0

/-- `inverted_wing` (`create_avl_datastructure.py` lines 184 to 186, 192 to 194, 319 and 320, 326 and
327). -/
noncomputable def inverted (vertical : Bool) (dihedral : ℝ) : ℝ :=
  let s := if vertical then -npSign (|dihedral| - π / 2) else npSign dihedral
  if s = 0 then 1 else s

/-- The displacement for a distance `d` along the span
(`create_avl_datastructure.py` lines 187 to 190, 195 to 198, 322 to 324, 329 to 331). -/
noncomputable def along (vertical : Bool) (dihedral sweep d : ℝ) : Pt :=
  if vertical then ⟨d / cos dihedral * tan sweep, d * tan dihedral, d⟩
  else ⟨d / cos dihedral * tan sweep, d, d * tan dihedral⟩

/-- `[[origin[0][0] + dx, origin[0][1] + dy, origin[0][2] + dz]]`. -/
def Pt.add (p q : Pt) : Pt := ⟨p.x + q.x, p.y + q.y, p.z + q.z⟩

/-- The control surface of one section (`create_avl_datastructure.py` lines 338 to 366; lines 370 to 398
are the same). -/
noncomputable def ctrl (s : Surf) (order : ℕ) : Ctrl where
  dup := if s.kind = .aileron then -1 else 1
  hinge := if s.kind = .slat then -s.chordFraction else 1 - s.chordFraction
  deflection := deg s.deflection
  gain := if s.kind = .aileron ∨ s.kind = .slat then -1 else 1
  order := order

/-- The control surfaces of the section at `station` (`create_avl_datastructure.py` lines 335 to 398). -/
noncomputable def controlsAt (semi station : ℝ) (surfaces : List Surf) : List Ctrl :=
  surfaces.zipIdx.filterMap fun (s, i) =>
    if semi * s.start = station ∨ station = semi * s.stop then some (ctrl s i)
    else if semi * s.start < station ∧ station < semi * s.stop then some (ctrl s i)
    else none

/-- `np.interp(f, [0., 1.], [a, b])`. -/
noncomputable def interp01 (f a b : ℝ) : ℝ := Num.npInterp [(0, a), (1, b)] f

/-- The part of a wing between two segments, as handed to `append_avl_wing_control_surfaces`. -/
structure Panel where
  rootPct : ℝ
  tipPct : ℝ
  rootLoc : ℝ
  tipLoc : ℝ
  rootTwist : ℝ
  tipTwist : ℝ
  dihedral : ℝ
  sweep : ℝ
  origin : Pt

/-- `ordered_section_spans` as a set (`create_avl_datastructure.py` lines 286 to 296). -/
noncomputable def stations (w : Wing) (semi : ℝ) (p : Panel) : Finset ℝ :=
  ((w.surfaces.flatMap fun s => [semi * s.start, semi * s.stop]).filter fun y =>
    decide (y < semi * p.tipLoc ∧ semi * p.rootLoc ≤ y)).toFinset

/-- The section at one station (`create_avl_datastructure.py` lines 307 to 398). -/
noncomputable def surfaceSection (w : Wing) (semi : ℝ) (p : Panel) (station : ℝ) : Sec :=
  let f := (station - semi * p.rootLoc) / (semi * (p.tipLoc - p.rootLoc))
  { origin := p.origin.add (along w.vertical p.dihedral p.sweep
      (station - inverted w.vertical p.dihedral * semi * p.rootLoc))
    chord := interp01 f (w.rootChord * p.rootPct) (w.rootChord * p.tipPct)
    twist := interp01 f (deg p.rootTwist) (deg (w.rootChord * p.tipTwist))
    controls := controlsAt semi station w.surfaces }

/-- `append_avl_wing_control_surfaces` (`create_avl_datastructure.py` lines 285 to 406): `none` for the
`IndexError` of line 304 when the list of sections is empty. -/
noncomputable def appendSurfaces (w : Wing) (semi : ℝ) (p : Panel) (acc : List Sec) :
    Option (List Sec) :=
  let new := ((stations w semi p).sort (· ≤ ·)).map (surfaceSection w semi p)
  if semi * p.rootLoc ∈ stations w semi p then
    if acc = [] then none else some (acc.dropLast ++ new)
  else some (acc ++ new)

/-- The section at a segment (`create_avl_datastructure.py` lines 149 to 161). -/
noncomputable def segSection (w : Wing) (s : Seg) (origin : Pt) : Sec :=
  ⟨origin, w.rootChord * s.chordPct, deg s.twist, []⟩

/-- The leading edge sweep between two segments (`create_avl_datastructure.py` lines 135 to 145). -/
noncomputable def segSweep (w : Wing) (s s' : Seg) : ℝ :=
  leSweep s.sweepLe s.sweepQc (w.rootChord * s.chordPct) (w.rootChord * s'.chordPct)
    (semispan w * (s'.loc - s.loc))

/-- The panel between two segments. -/
noncomputable def segPanel (w : Wing) (s s' : Seg) (origin : Pt) : Panel :=
  ⟨s.chordPct, s'.chordPct, s.loc, s'.loc, s.twist, s'.twist, s.dihedral, segSweep w s s', origin⟩

/-- The origin of the next segment (`create_avl_datastructure.py` lines 182 to 199). -/
noncomputable def nextOrigin (w : Wing) (s s' : Seg) (origin : Pt) : Pt :=
  origin.add (along w.vertical s.dihedral (segSweep w s s')
    (inverted w.vertical s.dihedral * semispan w * (s'.loc - s.loc)))

/-- The loop over the segments (`create_avl_datastructure.py` lines 130 to 199): the sections so far, the
running origin and the segments left. -/
noncomputable def segLoop (w : Wing) : List Sec → Pt → List Seg → Option (List Sec)
  | acc, _, [] => some acc
  | acc, o, [s] => some (acc ++ [segSection w s o])
  | acc, o, s :: s' :: rest =>
    let acc1 := acc ++ [segSection w s o]
    let acc2 := if w.surfaces = [] then some acc1
      else appendSurfaces w (semispan w) (segPanel w s s' o) acc1
    acc2.bind fun a => segLoop w a (nextOrigin w s s' o) (s' :: rest)

/-- The wing without segments (`create_avl_datastructure.py` lines 202 to 248). -/
noncomputable def plainSections (w : Wing) : Option (List Sec) :=
  let semi := semispan w
  let sweep := leSweep w.sweepLe w.sweepQc w.rootChord w.tipChord semi
  let root : Sec := ⟨w.origin, w.rootChord, deg w.rootTwist, []⟩
  let tip : Sec := ⟨if w.vertical then
      ⟨w.origin.x + semi * tan sweep, w.origin.y + semi * tan w.dihedral, w.origin.z + semi⟩
    else ⟨w.origin.x + semi * tan sweep, w.origin.y + semi, w.origin.z + semi * tan w.dihedral⟩,
    w.tipChord, deg w.tipTwist, []⟩
  (appendSurfaces w semi
    ⟨1, w.taper, 0, 1, w.rootTwist, w.tipTwist, w.dihedral, sweep, w.origin⟩ []).map
      (· ++ [root, tip])

/-- `populate_wing_sections` (`create_avl_datastructure.py` lines 93 to 250). -/
noncomputable def wingSections (w : Wing) (segs : List Seg) : Option (List Sec) :=
  if segs = [] then plainSections w else segLoop w [] w.origin segs

/-! ### Bodies -/

/-- A body: `lengths.total`, `lengths.nose`, `lengths.tail`, the full width or height across the
sections, `fineness.nose`, `fineness.tail`. -/
structure Body where
  total : ℝ
  nose : ℝ
  tail : ℝ
  semi : ℝ
  fineNose : ℝ
  fineTail : ℝ

/-- `np.interp(np.interp(fineness, vec2, x), x, vec1)` (`create_avl_datastructure.py` lines 442 to
446). -/
noncomputable def curvature (fineness : ℝ) : ℝ :=
  Num.npInterp [(0, 2), (1 / 3, 1.5), (2 / 3, 1.2), (1, 1)]
    (Num.npInterp [(1, 0), (1.57, 1 / 3), (3.2, 2 / 3), (8, 1)] fineness)

/-- `((1 - ((abs(y/semispan))**n))**(1/n))*length` (`create_avl_datastructure.py` lines 455, 456, 469,
470). -/
noncomputable def endLength (y semi n length : ℝ) : ℝ := (1 - |y / semi| ^ n) ^ (1 / n) * length

/-- The offset of the leading edge behind the nose and the chord of the section at the station `y`
(`create_avl_datastructure.py` lines 454 to 460, 468 to 474). -/
noncomputable def bodySection (b : Body) (y : ℝ) : ℝ × ℝ :=
  let n := endLength y b.semi (curvature b.fineNose) b.nose
  let t := endLength y b.semi (curvature b.fineTail) b.tail
  (b.nose - n, (b.total - (b.nose + b.tail)) + n + t)

/-- `np.linspace(-semispan, semispan, num=11)` (`create_avl_datastructure.py` lines 451, 465). -/
noncomputable def bodyStations (semi : ℝ) : List ℝ :=
  (List.range 11).map fun i : ℕ => -semi + 2 * semi / 10 * (i : ℝ)

/-- The sections across one direction: none when the extent is zero (`create_avl_datastructure.py` lines
450 to 475): station, offset and chord. -/
noncomputable def bodySections (b : Body) : List (ℝ × ℝ × ℝ) :=
  if b.semi = 0 then [] else (bodyStations b.semi).map fun y => (y, bodySection b y)

end Verif.Avl
