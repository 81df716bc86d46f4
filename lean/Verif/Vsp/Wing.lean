import Mathlib.Analysis.SpecialFunctions.Trigonometric.Arctan
import Mathlib.Algebra.Order.Floor.Ring
import Mathlib.Algebra.BigOperators.Group.Finset.Basic

/-!
Wings to and from OpenVSP: `trunk/SUAVE/Input_Output/OpenVSP/vsp_wing.py`.

OpenVSP is external; it is a store that gives back the parameters written to it.  Angles are radians in
SUAVE and degrees in OpenVSP.  Airfoils, names, sets, the drawing of end caps and the shapes inserted by
OpenVSP are not modelled.
-/

namespace Verif.Vsp

open Real
open scoped Classical

/-- `Units.deg`. -/
noncomputable def unitDeg : ℝ := π / 180

/-! ### Indexing -/

/-- `l[i]` for a Python list or array: negative indices count from the end; `none` for `IndexError`. -/
def pyGet {α : Type} (l : List α) (i : ℤ) : Option α :=
  if 0 ≤ i then l[i.toNat]?
  else if 0 ≤ i + l.length then l[(i + l.length).toNat]? else none

/-- `np.where(p)[0][-1]` on an array of length `n`; `none` for `IndexError`. -/
def lastIdx (p : ℕ → Bool) : ℕ → Option ℕ
  | 0 => none
  | n + 1 => if p n then some n else lastIdx p n

/-- `np.where(p)[0][0]` on an array of length `n`; `none` for `IndexError`. -/
def firstIdx (p : ℕ → Bool) (n : ℕ) : Option ℕ := (List.range n).find? p

/-! ### Control surfaces -/

/-- `U_scale = 1/(N + 2)` with `N` one less than the number of breaks (lines 325, 333, 376, 734, 742,
778). -/
noncomputable def uScale (b : List ℝ) : ℝ := 1 / ((b.length - 1 : ℝ) + 2)

/-- One end of a control surface in OpenVSP's parameter along the wing, for the panel `seg`
(`write_vsp_control_surface`, lines 768 to 782). -/
noncomputable def toU (b : List ℝ) (seg : ℤ) (x : ℝ) : Option ℝ := do
  let hi ← pyGet b (seg + 1)
  let lo ← pyGet b seg
  some (uScale b * ((x - lo) / (hi - lo)) + (seg + 1) * uScale b)

/-- The start: `segment_start = np.where(breaks<span_start)[0][-1]` (line 764). -/
noncomputable def writeStart (b : List ℝ) (x : ℝ) : Option ℝ := do
  let i ← lastIdx (fun i => decide (b.getD i 0 < x)) b.length
  toU b i x

/-- The end: `segment_end = np.where(breaks>=span_end)[0][0] - 1` (line 765). -/
noncomputable def writeEnd (b : List ℝ) (x : ℝ) : Option ℝ := do
  let i ← firstIdx (fun i => decide (x ≤ b.getD i 0)) b.length
  toU b ((i : ℤ) - 1) x

/-- One end of a control surface read back as a fraction of the span (`read_vsp_wing`, lines 376 to
395). -/
noncomputable def fromU (b : List ℝ) (u : ℝ) : Option ℝ := do
  let seg := ⌊u / uScale b⌋ - 1
  let hi ← pyGet b (seg + 1)
  let lo ← pyGet b seg
  some ((u / uScale b - (seg + 1)) * (hi - lo) + lo)

/-- The two fractions of a control surface (`read_vsp_wing`, lines 394 to 400); `none` for exceptions. -/
noncomputable def readSurface (b : List ℝ) (uStart uEnd : ℝ) : Option (ℝ × ℝ) := do
  let s ← fromU b uStart
  let e ← fromU b uEnd
  if max s 0 > 1 ∨ min e 1 < 0 then none else some (max s 0, min e 1)

/-- The two parameters of a control surface (`write_vsp_control_surface`). -/
noncomputable def writeSurface (b : List ℝ) (s e : ℝ) : Option (ℝ × ℝ) := do
  let us ← writeStart b s
  let ue ← writeEnd b e
  some (us, ue)

/-! ### Fuel tanks -/

/-- `get_vsp_trim_from_SUAVE_trim` (lines 940 to 947) with `vsp_segment_breaks = np.linspace(0, 1, n)`
(line 847); `none` for `StopIteration`. -/
noncomputable def trim (b : List ℝ) (t : ℝ) : Option ℝ := do
  let i ← firstIdx (fun i => decide (t < b.getD i 0)) b.length
  let v := (List.range b.length).map fun k : ℕ => (k : ℝ) / ((b.length : ℝ) - 1)
  let hi ← pyGet b i
  let lo ← pyGet b ((i : ℤ) - 1)
  let vhi ← pyGet v i
  let vlo ← pyGet v ((i : ℤ) - 1)
  some (vlo + (vhi - vlo) * ((t - lo) / (hi - lo)))

/-- `write_wing_conformal_fuel_tank` (lines 830 to 916) for a wing with segments: the two trims; `none` for
exceptions.  Line 873 adds a number to the list `w_origin[0]` for each fuselage of the vehicle. -/
noncomputable def writeTank (fuselages : ℕ) (b : List ℝ) (tmin tmax : ℝ) : Option (ℝ × ℝ) :=
  if fuselages ≠ 0 then none
  else do
    let hi ← trim b tmax
    let lo ← trim b tmin
    some (lo, hi)

/-! ### Sweeps -/

/-- `convert_sweep` (lines 974 to 980). -/
noncomputable def convertSweep (sweep loc newLoc ar taper : ℝ) : ℝ :=
  let le := arctan (tan sweep + 4 * loc * (1 - taper) / (ar * (1 + taper)))
  arctan (tan le - 4 * newLoc * (1 - taper) / (ar * (1 + taper)))

/-! ### Sections -/

/-- A segment of a SUAVE wing. -/
structure VSeg where
  loc : ℝ
  chord : ℝ
  twist : ℝ
  dihedral : ℝ
  sweep : ℝ
  tc : ℝ

/-- A section of an OpenVSP wing, with the panel inboard of it. -/
structure XSec where
  span : ℝ
  root : ℝ
  tip : ℝ
  twist : ℝ
  dihedral : ℝ
  sweep : ℝ
  sweepLoc : ℝ
  tc : ℝ

/-- The wing apart from its segments: `spans.projected`, `symmetric`, `vertical`, `chords.root`,
`thickness_to_chord`. -/
structure VWing where
  span : ℝ
  symmetric : Bool
  vertical : Bool
  root : ℝ
  tc : ℝ

/-- `1 + wing.symmetric`. -/
noncomputable def sides (symmetric : Bool) : ℝ := 1 + if symmetric then 1 else 0

/-- Section `j` of the `n` sections written for a wing with `n ≥ 2` segments from 0 to 1 (lines 453 to 456,
459 to 463, 510 to 512, 582, 610 to 671, 681 to 684): the panel of section `j` is that outboard of segment
`j - 1`; the thickness of section `j` is that of segment `j - 1` too (lines 624, 661), but for the root,
which has that of the wing, and the tip. -/
noncomputable def writeX (w : VWing) (segs : ℕ → VSeg) (n j : ℕ) : XSec where
  span := (if w.symmetric then w.span / 2 else w.span) * ((segs j).loc - (segs (j - 1)).loc) /
    cos ((segs (j - 1)).dihedral / unitDeg * unitDeg)
  root := w.root * (segs (j - 1)).chord
  tip := w.root * (segs (n - 1)).chord
  twist := (segs j).twist / unitDeg
  dihedral := if w.vertical then -((segs (j - 1)).dihedral / unitDeg)
    else (segs (j - 1)).dihedral / unitDeg
  sweep := (segs (j - 1)).sweep / unitDeg
  sweepLoc := 0.25
  tc := if j = 0 then w.tc else if j + 1 = n then (segs (n - 1)).tc else (segs (j - 1)).tc

/-- The rotation of the whole wing about the x axis as OpenVSP reports it (lines 491, 492). -/
noncomputable def writeRot (w : VWing) : ℝ := if w.vertical then 90 else 0

/-- The dihedral that a rotation of `x` degrees stands for (`read_vsp_wing`, lines 88 to 98). -/
noncomputable def readRot (x : ℝ) : ℝ :=
  if 70 ≤ |x| then
    let sign : ℝ := if 0 < x then 1 else if x < 0 then -1 else 0
    (sign * 90 - sign * x) * unitDeg
  else x * unitDeg

/-- The dihedral of the panel of section `i` (lines 205, 206). -/
noncomputable def readDihedral (xrot : ℝ) (xs : ℕ → XSec) (i : ℕ) : ℝ :=
  (xs i).dihedral * unitDeg + readRot xrot

/-- `proj_span_sum` before section `i + 1` (lines 158, 208, 209). -/
noncomputable def projSum (units xrot : ℝ) (xs : ℕ → XSec) (i : ℕ) : ℝ :=
  ∑ k ∈ Finset.range i, (xs (k + 1)).span * units * cos (readDihedral xrot xs (k + 1))

/-- Segment `j` of the `n` segments read back (lines 176 to 212); `aspect`, `taper` are the parameters
`Aspect` and `Taper` that OpenVSP computes for each panel, `total` its `TotalProjectedSpan`. -/
noncomputable def readSeg (symmetric : Bool) (units xrot yrot total : ℝ) (aspect taper : ℕ → ℝ)
    (xs : ℕ → XSec) (n j : ℕ) : VSeg where
  loc := projSum units xrot xs j / (total * units / sides symmetric)
  chord := (if j + 1 ≠ n then (xs (j + 1)).root else (xs (n - 1)).tip) * units / ((xs 1).root * units)
  twist := (xs j).twist * unitDeg + yrot * unitDeg
  dihedral := readDihedral xrot xs (j + 1)
  sweep := convertSweep ((xs (j + 1)).sweep * unitDeg) (xs (j + 1)).sweepLoc 0.25 (2 * aspect (j + 1))
    (taper (j + 1))
  tc := (xs j).tc

end Verif.Vsp
