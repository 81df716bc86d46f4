import Verif.Weights.WebHeight

/-!
Area and skin of the torsion box of a wing.

Source: trunk/SUAVE/Methods/Weights/Buildups/Common/wing.py 256-266, 314-317, 325-329 (the same formulas in prop.py 211-212, 229-230, 257-261).

Simplifications: numbers are real; the stations between the webs are a list in increasing order.
-/

namespace Verif.Weights.TorsionBox

/-- Corners of the box (wing.py 256-259): the outline between the webs, scaled by the chord. -/
noncomputable def corners (y : ℝ → ℝ) (xs chord : ℝ) (l : List ℝ) : List (ℝ × ℝ) :=
  l.reverse.map (fun c => ((c - xs) * chord, y c * chord)) ++ l.map fun c => ((c - xs) * chord, -y c * chord)

/-- Sum of `x[i]*y[i-1] - y[i]*x[i-1]` along a path. -/
noncomputable def crossSum : List (ℝ × ℝ) → ℝ
  | p :: q :: r => (q.1 * p.2 - q.2 * p.1) + crossSum (q :: r)
  | _ => 0

/-- Shoelace formula with `np.roll` (wing.py 263-264). -/
noncomputable def shoelace (l : List (ℝ × ℝ)) : ℝ :=
  match l.getLast? with
  | some p => 0.5 * |crossSum (p :: l)|
  | none => 0

/-- `np.sum(np.sqrt(np.sum(np.diff(box, axis=0)**2, axis=1)))` (wing.py 266, 315). -/
noncomputable def pathLength : List (ℝ × ℝ) → ℝ
  | p :: q :: r => √((q.1 - p.1) ^ 2 + (q.2 - p.2) ^ 2) + pathLength (q :: r)
  | _ => 0

/-- `torsionArea` (wing.py 263-264). -/
noncomputable def torsionArea (y : ℝ → ℝ) (xs chord : ℝ) (l : List ℝ) : ℝ := shoelace (corners y xs chord l)

/-- `torsionLength` (wing.py 266). -/
noncomputable def torsionLength (y : ℝ → ℝ) (xs chord : ℝ) (l : List ℝ) : ℝ := pathLength (corners y xs chord l)

end Verif.Weights.TorsionBox
