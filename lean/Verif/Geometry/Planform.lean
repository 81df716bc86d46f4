import Mathlib.Analysis.SpecialFunctions.Trigonometric.Arctan
import Mathlib.Analysis.SpecialFunctions.Sqrt
/-
Model of wing planform geometry
(trunk/SUAVE/Methods/Geometry/Two_Dimensional/Planform/{wing_planform,wing_segmented_planform}.py).

Simplifications
* Exact real arithmetic; a division by zero (a warning and inf/nan in numpy) is 0 here, the
  theorems exclude it.
* Flaps (wing_planform.py:104-120) are modelled by `flapArea` alone.
* `symmetric` enters as the number 0 or 1 (`1+sym`).
-/

namespace Verif.Geometry

/-- What `wing_planform` reads. -/
structure TrapIn where
  sref : ℝ
  ar : ℝ
  taper : ℝ
  sweep : ℝ
  tc : ℝ
  dihedral : ℝ
  vertical : Bool
  symmetric : Bool

/-- What it writes (123-133). -/
structure TrapOut where
  root : ℝ
  tip : ℝ
  mac : ℝ
  mgc : ℝ
  leSweep : ℝ
  wetted : ℝ
  span : ℝ
  spanTotal : ℝ
  ac : ℝ × ℝ × ℝ
  length : ℝ

/-- `wing_planform` (63-133). -/
noncomputable def wingPlanform (w : TrapIn) : TrapOut :=
  let span := Real.sqrt (w.ar * w.sref)
  let root := 2 * w.sref / span / (1 + w.taper)
  let tip := w.taper * root
  let mac := 2 / 3 * (root + tip - root * tip / (root + tip))
  let le := Real.arctan (Real.tan w.sweep - (4 / w.ar) * (0 - 1 / 4) * (1 - w.taper) / (1 + w.taper))
  let y := span / 6 * ((1 + 2 * w.taper) / (1 + w.taper))
  let x := mac * (1 / 4) + y * Real.tan le
  let z := y * Real.tan w.dihedral
  let yz := if w.vertical then (z, y) else (y, z)
  { root := root
    tip := tip
    mac := mac
    mgc := (root + tip) / 2
    leSweep := le
    wetted := 2 * span / 2 * (root + tip) * (1 + 1 / 5 * w.tc)
    span := span
    spanTotal := span / Real.cos w.dihedral
    ac := (x, if w.symmetric then 0 else yz.1, yz.2)
    length := Real.tan le * span / 2 + tip }

/-- The flap area and the flapped wing area (106-120) for a flap between two span fractions. -/
noncomputable def flapArea (root tip span s e frac : ℝ) : ℝ × ℝ :=
  let cs := root + (tip - root) * s
  let ce := root + (tip - root) * e
  ((cs * frac + ce * frac) * (e - s) * span / 2, (cs + ce) * (e - s) * span / 2)

/-! ### Segmented wings -/

/-- One entry of `wing.Segments`. -/
structure Station where
  /-- `percent_span_location` -/
  loc : ℝ
  /-- `root_chord_percent` -/
  chord : ℝ
  tc : ℝ
  sweep : ℝ
  dihedral : ℝ

/-- The wing: `spans.projected`, `chords.root`, `1 + symmetric`. -/
structure SegIn where
  span : ℝ
  rc : ℝ
  symmetric : Bool
  stations : List Station

/-- `1+sym`. -/
def SegIn.sides (w : SegIn) : ℝ := if w.symmetric then 2 else 1

/-- Line 86. -/
noncomputable def SegIn.semispan (w : SegIn) : ℝ := w.span / w.sides

/-- Consecutive stations: `x[:-1]` and `x[1:]`. -/
def panels : List Station → List (Station × Station)
  | a :: b :: l => (a, b) :: panels (b :: l)
  | _ => []

/-- Lines 87-93: area of one panel of one side. -/
noncomputable def SegIn.area (w : SegIn) (p : Station × Station) : ℝ :=
  let len := (p.2.loc - p.1.loc) * w.semispan
  let c0 := w.rc * p.1.chord
  let c1 := w.rc * p.2.chord
  len * c0 - (c0 - c1) * (len / 2)

/-- Lines 113-118: the integral of the squared chord over the span fraction; a constant chord
(`B = 0`, nan in numpy) is treated separately. -/
noncomputable def SegIn.sqChord (w : SegIn) (p : Station × Station) : ℝ :=
  let len := p.2.loc - p.1.loc
  let A := w.rc * p.1.chord
  let B := (A - w.rc * p.2.chord) / (-len)
  if B = 0 then A ^ 2 * len
  else ((A + B * (p.2.loc - p.1.loc)) ^ 3 - (A + B * (p.1.loc - p.1.loc)) ^ 3) / (3 * B)

/-- Line 133: leading-edge sweep of a panel. -/
noncomputable def SegIn.le (w : SegIn) (p : Station × Station) : ℝ :=
  let len := (p.2.loc - p.1.loc) * w.semispan
  Real.arctan ((w.rc * p.1.chord / 4 + Real.tan p.1.sweep * len - w.rc * p.2.chord / 4) / len)

/-- `segment_centroid` (313-320). -/
noncomputable def centroid (le span dx dy dz taper dihedral root tip : ℝ) : ℝ × ℝ × ℝ :=
  let c := Real.tan le * span
  let cx := (2 * tip * c + tip ^ 2 + c * root + tip * root + root ^ 2) / (3 * (tip + root))
  let cy := span / 3 * ((1 + 2 * taper) / (1 + taper))
  let cz := cy * Real.tan dihedral
  (cx + dx, cy + dy, cz + dz)

/-- Lines 140-147, panels with the offset of their root leading edge. -/
noncomputable def SegIn.centroids (w : SegIn) : ℝ × ℝ × ℝ → List (Station × Station) → List ((Station × Station) × (ℝ × ℝ × ℝ))
  | _, [] => []
  | (dx, dy, dz), p :: ps =>
    let len := (p.2.loc - p.1.loc) * w.semispan
    (p, centroid (w.le p) len dx dy dz (p.2.chord / p.1.chord) p.1.dihedral (w.rc * p.1.chord) (w.rc * p.2.chord)) ::
      w.centroids (dx + Real.tan (w.le p) * len, dy + len, dz + Real.tan p.1.dihedral * len) ps

/-- What `wing_segmented_planform` writes (162-177). -/
structure SegOut where
  area : ℝ
  wetted : ℝ
  ar : ℝ
  spanTotal : ℝ
  mgc : ℝ
  mac : ℝ
  tip : ℝ
  taper : ℝ
  tc : ℝ
  sweep : ℝ
  leSweep : ℝ
  ac : ℝ × ℝ × ℝ
  length : ℝ

/-- `chords[-1]`, `chords[0]`. -/
def lastChord (l : List Station) : ℝ := (l.getLast?.map Station.chord).getD 0
def firstChord (l : List Station) : ℝ := (l.head?.map Station.chord).getD 0

/-- `wing_segmented_planform` (59-177). -/
noncomputable def segPlanform (w : SegIn) : SegOut :=
  let ps := panels w.stations
  let ref := (ps.map w.area).sum * w.sides
  let mac := w.semispan * w.sides / ref * (ps.map w.sqChord).sum
  let le := Real.arctan (ps.map fun p => (p.2.loc - p.1.loc) * Real.tan (w.le p)).sum
  let cs := w.centroids (0, 0, 0) ps
  let mean (f : ℝ × ℝ × ℝ → ℝ) : ℝ := (cs.map fun c => f c.2 * w.area c.1).sum / (ref / w.sides)
  { area := ref
    wetted := (ps.map fun p => 2 * (1 + 1 / 5 * p.1.tc) * w.area p).sum
    ar := w.span ^ 2 / ref
    spanTotal := (ps.map fun p => (p.2.loc - p.1.loc) * w.semispan / Real.cos p.1.dihedral).sum * w.sides
    mgc := ref / w.span
    mac := mac
    tip := w.rc * lastChord w.stations
    taper := lastChord w.stations / firstChord w.stations
    tc := (ps.map fun p => w.area p * p.1.tc).sum / (ref / 2)
    sweep := Real.arctan (ps.map fun p => (p.2.loc - p.1.loc) * Real.tan p.1.sweep).sum
    leSweep := le
    ac := (mean (·.1) - mac * (1 / 4), if w.symmetric then 0 else mean (·.2.1), mean (·.2.2))
    length := Real.tan le * w.semispan + lastChord w.stations * w.rc }

/-! ### `segment_properties` -/

/-- One segment's own values (236-272). -/
structure SegProps where
  taper : ℝ
  mac : ℝ
  sref : ℝ
  exposed : ℝ
  wetted : ℝ

/-- Lines 236-264 for the segment between two stations; `first` for `i_segs == 0`. -/
noncomputable def segProps (symmetric first : Bool) (span rc offset tcw : ℝ) (p : Station × Station) : SegProps :=
  let semispan := span * (1 / 2) * (2 - if symmetric then 1 else 0)
  let len := semispan * (p.2.loc - p.1.loc)
  let root := rc * p.1.chord
  let tip := rc * p.2.chord
  let wroot := if first then root + offset * ((tip - root) / len) else root
  let taper := tip / wroot
  let mac := wroot * 2 / 3 * ((1 + taper + taper ^ 2) / (1 + taper))
  let sref := len * (root + tip) * (1 / 2)
  let sexp := if first then (len - offset) * (wroot + tip) * (1 / 2) else sref
  let k : ℝ := if symmetric then 2 else 1
  { taper := taper
    mac := mac
    sref := sref * k
    exposed := sexp * k
    wetted := (if tcw < 0.05 then 2.003 else 1.977 + 0.52 * tcw) * (sexp * k) }

/-- The loop 232-275: all segments, `first` only once. -/
noncomputable def segPropsAll (w : SegIn) (offset tcw : ℝ) : List SegProps :=
  match panels w.stations with
  | [] => []
  | p :: ps => segProps w.symmetric true w.span w.rc offset tcw p :: ps.map (segProps w.symmetric false w.span w.rc offset tcw)

end Verif.Geometry
