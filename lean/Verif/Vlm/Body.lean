import Verif.Num.Interp1
import Mathlib.Analysis.SpecialFunctions.Trigonometric.Basic
import Mathlib.Analysis.SpecialFunctions.Pow.Real
/-
The plates that stand for fuselages and nacelles in the lattice: `generate_fuselage_and_nacelle_vortex_distribution`
(lines 904-1143) of trunk/SUAVE/Methods/Aerodynamics/Common/Fidelity_Zero/Lift/generate_vortex_distribution.py.

Simplifications
* Exact real arithmetic; the arrays are functions of strip and panel number.  The width is not zero (a division by
  it gives nan).
* Only the horizontal plate is stored in the vehicle's lattice (1175-1207); the vertical one is not modelled.
-/

namespace Verif.Vlm

open Real Verif.Num

/-- Stations from the middle outwards (930-933, 977-980): entry `n - i` of the spacing, that is `si = n + 1 - i`. -/
noncomputable def bodyStation (half : ℝ) (n i : ℕ) : ℝ := half * cos ((2 * ((n : ℝ) + 1 - i) - 1) / (2 * (2 * n + 1)) * π)

/-- The exponent of nose and tail from the fineness (923-927). -/
noncomputable def bodyExponent (fineness : ℝ) : ℝ :=
  npInterp [(0, 2), (1 / 3, 1.5), (2 / 3, 1.2), (1, 1)] (npInterp [(1, 0), (1.57, 1 / 3), (3.2, 2 / 3), (8, 1)] fineness)

/-- A fuselage as it is read here. -/
structure FusIn where
  ox : ℝ
  oy : ℝ
  oz : ℝ
  nose : ℝ
  tail : ℝ
  total : ℝ
  width : ℝ
  finenessNose : ℝ
  finenessTail : ℝ

/-- The part of a nose or tail that is left at a distance `u` of the middle, in half widths (938-939). -/
noncomputable def endPart (p len u : ℝ) : ℝ := (1 - |u| ^ p) ^ (1 / p) * len

/-- A lengthwise section of a plate. -/
structure Slice where
  x : ℝ
  y : ℝ
  chord : ℝ

/-- Section `i` of a fuselage (936-942). -/
noncomputable def fusSlice (f : FusIn) (n i : ℕ) : Slice :=
  let h := bodyStation (f.width * 0.5) n i
  let nose := endPart (bodyExponent f.finenessNose) f.nose (h / (f.width * 0.5))
  let tail := endPart (bodyExponent f.finenessTail) f.tail (h / (f.width * 0.5))
  ⟨f.nose - nose, h, f.total - (f.nose + f.tail) + nose + tail⟩

/-- A nacelle: its place, length, diameter and the widths of its segments. -/
structure NacIn where
  ox : ℝ
  oy : ℝ
  oz : ℝ
  length : ℝ
  diameter : ℝ
  widths : List ℝ

/-- The mean width (956-967). -/
noncomputable def NacIn.width (c : NacIn) : ℝ := if 1 < c.widths.length then c.widths.sum / c.widths.length else c.diameter

/-- Section `i` of a nacelle (970-984). -/
noncomputable def nacSlice (c : NacIn) (n i : ℕ) : Slice := ⟨0, bodyStation (c.width * 0.5) n i, c.length⟩

/-- The points of a panel of a plate; `z` is that of the body throughout. -/
structure PlatePoints where
  a1 : ℝ × ℝ
  ah : ℝ × ℝ
  ac : ℝ × ℝ
  a2 : ℝ × ℝ
  b1 : ℝ × ℝ
  bh : ℝ × ℝ
  bc : ℝ × ℝ
  b2 : ℝ × ℝ
  ch : ℝ × ℝ
  c : ℝ × ℝ

/-- Panel `j` of strip `i` of the first half (989-1062). -/
noncomputable def platePanel (s : ℕ → Slice) (ox oy : ℝ) (m i j : ℕ) : PlatePoints :=
  let da := (s i).chord / m
  let db := (s (i + 1)).chord / m
  let d := ((s i).chord + (s (i + 1)).chord) / (2 * m)
  let xm := ((s i).x + (s (i + 1)).x) / 2
  let ym := (s (i + 1)).y - ((s (i + 1)).y - (s i).y) / 2
  { a1 := ((s i).x + da * j + ox, (s i).y + oy)
    ah := ((s i).x + da * j + da * 0.25 + ox, (s i).y + oy)
    ac := ((s i).x + da * j + da * 0.75 + ox, (s i).y + oy)
    a2 := ((s i).x + da * j + da + ox, (s i).y + oy)
    b1 := ((s (i + 1)).x + db * j + ox, (s (i + 1)).y + oy)
    bh := ((s (i + 1)).x + db * j + db * 0.25 + ox, (s (i + 1)).y + oy)
    bc := ((s (i + 1)).x + db * j + db * 0.75 + ox, (s (i + 1)).y + oy)
    b2 := ((s (i + 1)).x + db * j + db + ox, (s (i + 1)).y + oy)
    ch := (xm + d * j + d * 0.25 + ox, ym + oy)
    c := (xm + d * j + d * 0.75 + ox, ym + oy) }

/-- The second half (1110-1143): the `y` of the vehicle changes sign. -/
def flip (p : ℝ × ℝ) : ℝ × ℝ := (p.1, -p.2)

def PlatePoints.flip (p : PlatePoints) : PlatePoints :=
  ⟨Vlm.flip p.a1, Vlm.flip p.ah, Vlm.flip p.ac, Vlm.flip p.a2, Vlm.flip p.b1, Vlm.flip p.bh, Vlm.flip p.bc, Vlm.flip p.b2, Vlm.flip p.ch, Vlm.flip p.c⟩

/-- The area of a half (1076). -/
noncomputable def plateArea (s : ℕ → Slice) (n : ℕ) : ℝ :=
  ((List.range n).map fun i => ((s i).chord + (s (i + 1)).chord) / 2 * ((s (i + 1)).y - (s i).y)).sum

end Verif.Vlm
