import Verif.Noise.Report

/-!
The noise report of a propeller aircraft.

Source: trunk/SUAVE/Methods/Noise/Fidelity_One/Noise_Tools/print_propeller_output.py.

Simplifications: as in `Verif.Noise.Report`, a report is the list of its numbers with the headings as a list.
-/

namespace Verif.Noise.Report

/-- The arrays printed (13). -/
structure PropHistory where
  speed : List ℝ
  time : List ℝ
  altitude : List ℝ
  rpm : List ℝ
  theta : List ℝ
  dist : List ℝ
  pnl : List ℝ
  dba : List ℝ

/-- Headings (44). -/
def propHead : List String := ["time", "altitude", "Mach", "RPM", "Polar_angle", "distance", "PNL", "dBA"]

/-- One row (48-56). -/
noncomputable def propRow (h : PropHistory) (i : ℕ) : Option (List ℝ) := do
  let t ← h.time[i]?
  let a ← h.altitude[i]?
  let v ← h.speed[i]?
  let n ← h.rpm[i]?
  let p ← h.theta[i]?
  let d ← h.dist[i]?
  let l ← h.pnl[i]?
  let w ← h.dba[i]?
  return [fixed 2 t, fixed 2 a, fixed 2 v, fixed 2 n, fixed 2 (p * 180 / Real.pi), fixed 2 d, fixed 2 l, fixed 2 w]

/-- The whole report: the speed in knots above the table (39-40; a knot is 1852/3600 m/s), the rows (47-56), the maxima below (58-62). -/
structure PropReport where
  knots : ℝ
  rows : List (List ℝ)
  maxPNL : ℝ
  maxDBA : ℝ

noncomputable def propReport (h : PropHistory) (steps : ℕ) : Option PropReport := do
  let v ← h.speed.getLast?
  let rows ← (List.range steps).mapM (propRow h)
  let m ← printMax h.pnl
  let w ← printMax h.dba
  return ⟨fixed 2 (v / (1852 / 3600)), rows, m, w⟩

end Verif.Noise.Report
