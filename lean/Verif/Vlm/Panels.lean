import Verif.Vlm.Stations
import Verif.Stability.Planform
import Verif.Num.Interp1
/-
The points of the panels of a wing: `generate_wing_vortex_distribution` (lines 349-395, 445-716) of
trunk/SUAVE/Methods/Aerodynamics/Common/Fidelity_Zero/Lift/generate_vortex_distribution.py, the offsets of
segments, the breaks and the wings made for control surfaces in make_VLM_wings.py (lines 96-113, 373-484,
603-692) of the same directory, and the mirror image of a fin
(trunk/SUAVE/Components/Wings/Vertical_Tail.py:67-105, Vertical_Tail_All_Moving.py:64-95).

Simplifications
* Exact real arithmetic; the arrays are functions of strip and panel number.
* The camber line of an airfoil is the list of points returned by `import_airfoil_geometry`; a wing without
  airfoil has the straight one (384-385), any table of zeros.
-/

namespace Verif.Vlm

open Real Verif.Num

/-- A segment of a wing as `make_VLM_wings` reads it; `sweep` is the one of the leading edge, which is set
before it is used (104-107). -/
structure Seg where
  frac : ℝ
  rootPercent : ℝ
  twist : ℝ
  dih : ℝ
  sweep : ℝ
  camber : List (ℝ × ℝ)

/-- A break in span in the arrays of step 5 (354-393); the cuts are those of the outboard side. -/
structure Brk where
  y : ℝ
  chord : ℝ
  twist : ℝ
  dih : ℝ
  sweep : ℝ
  xoff : ℝ
  zoff : ℝ
  le : ℝ
  te : ℝ
  camber : List (ℝ × ℝ)

/-- A break from a segment (603-633), with the offsets added up so far; no cuts. -/
noncomputable def Seg.brk (s : Seg) (cRoot half x z : ℝ) : Brk :=
  ⟨s.frac * half, s.rootPercent * cRoot, s.twist, s.dih, s.sweep, x, z, 0, 1, s.camber⟩

/-- The breaks of all segments (97-112): each offset is that of the segment before plus the way to it along the
edge of that segment. -/
noncomputable def mkBrks (cRoot half : ℝ) : ℝ → ℝ → List Seg → List Brk
  | _, _, [] => []
  | x, z, [s] => [s.brk cRoot half x z]
  | x, z, a :: b :: l =>
    a.brk cRoot half x z ::
      mkBrks cRoot half (x + (b.frac - a.frac) * half * tan a.sweep) (z + (b.frac - a.frac) * half * tan a.dih) (b :: l)

/-- Chord and twist at a station between two breaks (502-508, 590-592). -/
noncomputable def chordY (b0 b1 : Brk) (y : ℝ) : ℝ := b0.chord + (y - b0.y) * ((b1.chord - b0.chord) / (b1.y - b0.y))
noncomputable def twistY (b0 b1 : Brk) (y : ℝ) : ℝ := b0.twist + (y - b0.y) * ((b1.twist - b0.twist) / (b1.y - b0.y))

/-- A control surface is a wing of its own (`is_a_control_surface`): whether it is a slat, and its part of the
chord. -/
structure Ctrl where
  slat : Bool
  cf : ℝ

/-- The camber line in the chord of the surface (534-550). -/
noncomputable def camberTable (k : Option Ctrl) (t : List (ℝ × ℝ)) (chord : ℝ) : List (ℝ × ℝ) :=
  match k with
  | none => t.map fun p => (p.1 * chord, p.2 * chord)
  | some c => t.map fun p => ((if c.slat then p.1 else p.1 - (1 - c.cf)) / c.cf * chord, p.2 / c.cf * chord)

/-- Camber at a distance `xs` behind the leading edge (552-561). -/
noncomputable def camberAt (k : Option Ctrl) (b0 b1 : Brk) (y xs : ℝ) : ℝ :=
  npInterp (camberTable k b0.camber (chordY b0 b1 y)) xs

/-- Height before twist (564-573). -/
noncomputable def heightAt (k : Option Ctrl) (b0 b1 : Brk) (y xs : ℝ) : ℝ :=
  b0.zoff + (y - b0.y) * tan b0.dih + camberAt k b0 b1 y xs

/-- The point about which a station is twisted (577-588). -/
noncomputable def pivot (k : Option Ctrl) (b0 b1 : Brk) (y : ℝ) : ℝ × ℝ :=
  let x := b0.xoff + (y - b0.y) * tan b0.sweep
  let z := b0.zoff + (y - b0.y) * tan b0.dih
  match k with
  | none => (x, z)
  | some c => (if c.slat then x else x - (1 - c.cf) * (chordY b0 b1 y / c.cf), z)

/-- A point of the surface at a station, `xs` behind the leading edge (521-531, 596-616); `xz` is the place
whose height is used for `x`. -/
noncomputable def localPoint (k : Option Ctrl) (b0 b1 : Brk) (y xs xz : ℝ) : ℝ × ℝ :=
  twistPoint (twistY b0 b1 y) (pivot k b0 b1 y).1 (pivot k b0 b1 y).2
    (b0.xoff + (y - b0.y) * tan b0.sweep + xs) (heightAt k b0 b1 y xz) (heightAt k b0 b1 y xs)

/-- Line 500: `-np.sign(dihedral - pi/2)`. -/
noncomputable def inverted (b0 : Brk) : ℝ := if b0.dih < π / 2 then 1 else if π / 2 < b0.dih then -1 else 0

/-- Where the wing is, and whether it stands upright. -/
structure WingFrame where
  ox : ℝ
  oy : ℝ
  oz : ℝ
  vertical : Bool

/-- Lines 485-488, 619-659 and 735-768: the point in the axes of the vehicle; `s` is 1, and -1 for the second
half of a symmetric wing. -/
noncomputable def place (f : WingFrame) (s inv y : ℝ) (p : ℝ × ℝ) : ℝ × ℝ × ℝ :=
  if f.vertical then (p.1 + f.ox, p.2 + f.oy, inv * (y * s) + f.oz * s)
  else (p.1 + f.ox, y * s + f.oy * s, p.2 + f.oz)

/-- A point of the surface in the axes of the vehicle. -/
noncomputable def surfacePoint (f : WingFrame) (s : ℝ) (k : Option Ctrl) (b0 b1 : Brk) (y xs xz : ℝ) : ℝ × ℝ × ℝ :=
  place f s (inverted b0) y (localPoint k b0 b1 y xs xz)

/-- Edge `j` of the panels of a strip with `n` of them, behind the leading edge (511-514). -/
noncomputable def edgeX (b0 b1 : Brk) (n : ℕ) (y : ℝ) (j : ℕ) : ℝ :=
  (b0.le + (b0.te - b0.le) * (j / n)) * chordY b0 b1 y

/-- Length of a panel (516-518). -/
noncomputable def panelLen (b0 b1 : Brk) (n : ℕ) (y : ℝ) : ℝ := (edgeX b0 b1 n y n - edgeX b0 b1 n y 0) / n

/-- The ten points of a panel. -/
structure Points where
  a1 : ℝ × ℝ × ℝ
  ah : ℝ × ℝ × ℝ
  ac : ℝ × ℝ × ℝ
  a2 : ℝ × ℝ × ℝ
  b1 : ℝ × ℝ × ℝ
  bh : ℝ × ℝ × ℝ
  bc : ℝ × ℝ × ℝ
  b2 : ℝ × ℝ × ℝ
  ch : ℝ × ℝ × ℝ
  c : ℝ × ℝ × ℝ

/-- Panel `j` of the strip between the stations `ya` and `yb` (494-716).  For the two ends of the control line the
height of another corner enters `x` (598, 602). -/
noncomputable def panel (f : WingFrame) (s : ℝ) (k : Option Ctrl) (b0 b1 : Brk) (n : ℕ) (ya yb : ℝ) (j : ℕ) : Points :=
  let xa := edgeX b0 b1 n ya
  let xb := edgeX b0 b1 n yb
  let ym := yb - (yb - ya) / 2
  let xm := edgeX b0 b1 n ym
  let da := panelLen b0 b1 n ya
  let db := panelLen b0 b1 n yb
  let dm := panelLen b0 b1 n ym
  let P := surfacePoint f s k b0 b1
  { a1 := P ya (xa j) (xa j)
    ah := P ya (xa j + da * 0.25) (xa j + da * 0.25)
    ac := P ya (xa j + da * 0.75) (xa (j + 1))
    a2 := P ya (xa (j + 1)) (xa (j + 1))
    b1 := P yb (xb j) (xb j)
    bh := P yb (xb j + db * 0.25) (xb j + db * 0.25)
    bc := P yb (xb j + db * 0.75) (xb j)
    b2 := P yb (xb (j + 1)) (xb (j + 1))
    ch := P ym (xm j + dm * 0.25) (xm j + dm * 0.25)
    c := P ym (xm j + dm * 0.75) (xm j + dm * 0.75) }

/-! ### Control surfaces -/

/-- A control surface on a segment: from and to which fraction of the span, its part of the chord, whether it
is a slat. -/
structure Ctl where
  start : ℝ
  stop : ℝ
  cf : ℝ
  slat : Bool

/-- `np.interp` between the two segments. -/
noncomputable def between (A B : Brk) (fa fb : ℝ) (g : Brk → ℝ) (x : ℝ) : ℝ := npInterp [(fa, g A), (fb, g B)] x

/-- The break where a control surface begins (661-674) or, if it ends inside the segment, ends (677-691): chord,
twist and offsets interpolated, the rest that of the segment.  The chord is that of the control surface
over its fraction. -/
noncomputable def ctlBreak (A B : Brk) (fa fb half : ℝ) (cf x : ℝ) : Brk :=
  { A with
    y := x * half
    chord := between A B fa fb Brk.chord x * cf / cf
    twist := between A B fa fb Brk.twist x
    xoff := between A B fa fb Brk.xoff x
    zoff := between A B fa fb Brk.zoff x }

/-- Sweep of the leading edge of the control surface (456-469); `a` and `b` are the segments. -/
noncomputable def ctlSweep (a b : Seg) (cRoot span : ℝ) (symm : Bool) (c : Ctl) : ℝ :=
  Verif.Stability.convertSweepSegments a.sweep ⟨a.rootPercent, a.frac⟩ ⟨b.rootPercent, b.frac⟩ cRoot span symm 0
    (if c.slat then 0 else 1 - c.cf)

/-- The two breaks of the wing made for a control surface (404-420, 472-482, 514-546). -/
noncomputable def ctlBrks (A B : Brk) (a b : Seg) (cRoot span half : ℝ) (symm : Bool) (c : Ctl) : Brk × Brk :=
  let sw := ctlSweep a b cRoot span symm c
  let h := half * (c.stop - c.start)
  (⟨0, between A B a.frac b.frac Brk.chord c.start * c.cf, between A B a.frac b.frac Brk.twist c.start, A.dih, sw, 0, 0, 0, 1, A.camber⟩,
   ⟨h, between A B a.frac b.frac Brk.chord c.stop * c.cf, between A B a.frac b.frac Brk.twist c.stop, 0, 1e-8,
    h * tan sw, h * tan A.dih, 0, 1, A.camber⟩)

/-- Its origin (411, 445-449). -/
noncomputable def ctlFrame (f : WingFrame) (A B : Brk) (fa fb half : ℝ) (c : Ctl) : WingFrame :=
  let dz := between A B fa fb Brk.zoff c.start
  let cut := if c.slat then 0 else (1 - c.cf) * between A B fa fb Brk.chord c.start
  ⟨f.ox + (between A B fa fb Brk.xoff c.start + cut),
   if f.vertical then f.oy + dz else f.oy + c.start * half,
   if f.vertical then f.oz + c.start * half else f.oz + dz, f.vertical⟩

/-! ### Mirror image of a fin -/

/-- `make_x_z_reflection` (Vertical_Tail.py:95-105) of origin and segments. -/
def mirrorFrame (f : WingFrame) : WingFrame := { f with oy := f.oy * -1 }
def mirrorSeg (s : Seg) : Seg := { s with dih := s.dih * -1 }

/-- The deflection of a control surface (103), or of an all moving fin (Vertical_Tail_All_Moving.py:93). -/
def mirrorDeflection (d sign : ℝ) : ℝ := d * (-1 * sign)

end Verif.Vlm
