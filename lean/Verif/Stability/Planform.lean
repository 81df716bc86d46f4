import Mathlib.Analysis.SpecialFunctions.Trigonometric.Arctan
import Mathlib.Analysis.Real.Pi.Bounds

/-!
Planform helpers of the static stability methods: sweep conversion, extension to the centre line,
mean aerodynamic chord and aerodynamic centre of a trapezoidal wing
(`trunk/SUAVE/Methods/Flight_Dynamics/Static_Stability/Approximations/Supporting_Functions`).
Numbers are reals; python's falsy `0.` is the number zero.
-/

namespace Verif.Stability
open Real

/-- The fields of a wing read by `convert_sweep` and `datcom`. `extended` is the optional sub-structure
written by `extend_to_ref_area`, itself with an optional aspect ratio. -/
structure SweepWing where
  quarter : ℝ
  leading : ℝ
  taper : ℝ
  ar : ℝ
  effective : Option ℝ := none
  extended : Option (Option ℝ) := none

/-- The aspect ratio used, `convert_sweep.py` 60-68 (the same lines are `datcom.py` 58-66). -/
def SweepWing.arUsed (w : SweepWing) : ℝ :=
  match w.effective with
  | some a => a
  | none =>
    match w.extended with
    | some (some a) => a
    | some none => w.ar
    | none => w.ar

open Classical in
/-- `convert_sweep`, `convert_sweep.py` 58-82. -/
noncomputable def convertSweep (w : SweepWing) (old new : ℝ) : ℝ :=
  let sweep := w.quarter
  let taper := w.taper
  let ar := w.arUsed
  let sweepLE := if old = 0 then w.leading else arctan (tan sweep + 4 * old * (1 - taper) / (ar * (1 + taper)))
  arctan (tan sweepLE - 4 * new * (1 - taper) / (ar * (1 + taper)))

/-- The fields of a wing segment read by `convert_sweep_segments`. -/
structure SweepSeg where
  rootChordPercent : ℝ
  percentSpan : ℝ

open Classical in
/-- `convert_sweep_segments`, `convert_sweep.py` 134-161. `cRoot` is `wing.chords.root`, `span`
`wing.spans.projected`, `symm` `wing.symmetric`. -/
noncomputable def convertSweepSegments (oldSweep : ℝ) (a b : SweepSeg) (cRoot span : ℝ) (symm : Bool) (old new : ℝ) : ℝ :=
  if old = new then oldSweep
  else
    let sweep := oldSweep
    let rootChord := a.rootChordPercent * cRoot
    let tipChord := b.rootChordPercent * cRoot
    let taper := tipChord / rootChord
    let wingspan := if symm then span else span * 2
    let sectionSpan := wingspan * (b.percentSpan - a.percentSpan)
    let chordMean := 0.5 * (rootChord + tipChord)
    let ar := sectionSpan / chordMean
    let sweepLE := if old = 0 then oldSweep else arctan (tan sweep + 4 * old * (1 - taper) / (ar * (1 + taper)))
    arctan (tan sweepLE - 4 * new * (1 - taper) / (ar * (1 + taper)))

/-- A python truth value used as a number. -/
def num (b : Bool) : ℝ := if b then 1 else 0

/-- The fields of a surface read by `extend_to_ref_area`. `exposed` is absent when the attribute is. -/
structure Surface where
  symmetric : Bool
  exposed : Option ℝ
  projected : ℝ
  tip : ℝ
  root : ℝ
  sweep : ℝ
  offset : ℝ
  origin : ℝ × ℝ × ℝ

/-- The span read, the exposed one when there is one (`extend_to_ref_area.py` 62-65). -/
def Surface.spanUsed (s : Surface) : ℝ :=
  match s.exposed with
  | some e => e
  | none => s.projected

/-- What `extend_to_ref_area` writes below `surface.extended`. -/
structure Extended where
  span : ℝ
  area : ℝ
  ar : ℝ
  root : ℝ
  leChange : ℝ
  origin : ℝ × ℝ × ℝ

/-- `extend_to_ref_area`, `extend_to_ref_area.py` 61-91. Line 89 adds the scalar `dx_LE` to the list
`[x, y, z]` of the first origin; the scalar is a numpy float (a result of `np.tan`), so it is added to
every entry. -/
noncomputable def extendToRef (s : Surface) : Extended :=
  let symm := num s.symmetric
  let b1 := s.spanUsed * 0.5 * (2 - symm)
  let b := b1 + s.offset
  let cRoot := s.tip + b / b1 * (s.root - s.tip)
  let S := 0.5 * b * (cRoot + s.tip)
  let dxLE := -s.offset * tan s.sweep
  let AR := b ^ 2 / S
  { span := b * (1 + symm), area := S * (1 + symm), ar := AR * (1 + symm), root := cRoot, leChange := dxLE,
    origin := (s.origin.1 + dxLE, s.origin.2.1 + dxLE, s.origin.2.2 + dxLE) }

/-- The fields of a wing read by `trapezoid_mac` and `trapezoid_ac_x`. -/
structure TrapWing where
  area : ℝ
  span : ℝ
  taper : ℝ
  sweep : ℝ
  symmetric : Bool
  root : ℝ
  tip : ℝ
  mac : ℝ

open Classical in
/-- Root chord found from area and span when none is given, `trapezoid_mac.py` 53-55 and
`trapezoid_ac_x.py` 62-64. -/
noncomputable def TrapWing.rootUsed (w : TrapWing) : ℝ :=
  if w.root = 0 then w.area / w.span / (1 - 0.5 * (1 - w.taper)) else w.root

open Classical in
/-- `trapezoid_mac`, `trapezoid_mac.py` 39-62. Note line 60 uses the stored root chord when the tip
chord is given. -/
noncomputable def trapezoidMac (w : TrapWing) : ℝ :=
  if w.mac ≠ 0 then w.mac
  else
    let p : ℝ × ℝ := if w.tip = 0 then (w.rootUsed, w.rootUsed * w.taper) else (w.root, w.tip)
    2 / 3 * (p.1 + p.2 - p.1 * p.2 / (p.1 + p.2))

open Classical in
/-- Spanwise station of the mean aerodynamic chord, `trapezoid_ac_x.py` 58-67. -/
noncomputable def macStation (w : TrapWing) : ℝ :=
  let mac := trapezoidMac w
  if w.taper ≠ 1 then
    w.span * (1 - 0.5 * num w.symmetric) * (w.rootUsed - mac) / (w.rootUsed * (1 - w.taper))
  else 0.5 * w.span

/-- `trapezoid_ac_x`, `trapezoid_ac_x.py` 50-71. -/
noncomputable def trapezoidAcX (w : TrapWing) : ℝ :=
  macStation w * tan w.sweep + trapezoidMac w / 4

end Verif.Stability
