import Mathlib.Data.Real.Basic
import Mathlib.Data.List.Basic

/-!
Figures of pressures and lift along a mission, and the frames of a film of it.

Source: trunk/SUAVE/Plots/Performance/Mission_Plots.py: `plot_surface_pressure_contours` 1614-1700, `plot_lift_distribution` 1707-1757,
`create_video_frames` 1763-1931.

Simplifications: of the pressures only which surfaces are drawn; of the frames the history drawn beside the aircraft, the limits of its
panels, and the number in the name of the file; of the lift the lines drawn with their styles. `none` stands for an index error.
-/

namespace Verif.IO.FlightFigures

/-! ### Surfaces drawn -/

/-- What is asked of a wing (1649, 1654, 1806, 1811). -/
structure WingKind where
  vertical : Bool
  symmetric : Bool
  deriving DecidableEq

/-- The surfaces of the vortex distribution, one for each half of a symmetric wing, in the order of the wings
(Methods/Aerodynamics/Common/Fidelity_Zero/Lift/generate_vortex_distribution.py 446-772, `signs`): whether they are vertical. Vehicles without control surfaces and with fuselages that are
not modelled, which would add surfaces. -/
def surfacesOf (ws : List WingKind) : List Bool := ws.flatMap fun w => if w.symmetric then [w.vertical, w.vertical] else [w.vertical]

/-- `plot_flag[idx] = 0`. -/
def clearFlag (f : List Bool) (idx : ℕ) : Option (List Bool) := if idx < f.length then some (f.set idx false) else none

/-- The loop over the wings (1648-1658, 1805-1815): `idx` grows by two for each. -/
def flagLoop : List WingKind → ℕ → List Bool → Option (List Bool)
  | [], _, f => some f
  | w :: ws, idx, f => do
    let f ← if w.vertical then clearFlag f idx else some f
    let f ← if w.vertical && w.symmetric then clearFlag f (idx + 1) else some f
    flagLoop ws (idx + 2) f

/-- `plot_flag` (1646-1658, 1803-1815): which surfaces are drawn. -/
def plotFlags (ws : List WingKind) : Option (List Bool) := flagLoop ws 0 (List.replicate (surfacesOf ws).length true)

/-! ### Frames of a film -/

variable {α : Type}

/-- The points drawn in the frame of point `ti` of segment `s` (1874-1896): `seg_i` runs over `range(seg_idx)`, which is `s+1`. -/
def frameHistory (segs : List (List α)) (s ti : ℕ) : List α :=
  (List.range (s + 1)).flatMap fun i => if i = s then (segs.getD i []).take (ti + 1) else segs.getD i []

/-- The frames in the order in which they are made (1820-1822, 1929), with the number in the name of the file. -/
def frames (segs : List (List α)) : List (List α × ℕ) :=
  ((List.range segs.length).flatMap fun s => (List.range (segs.getD s []).length).map fun ti => frameHistory segs s ti).zipIdx 1

/-- A point of the history: time in minutes, altitude in feet, mass in tons, lift coefficient, ratio of lift to drag (1884-1889). -/
structure Mark where
  time : ℝ
  altitude : ℝ
  mass : ℝ
  lift : ℝ
  ratio : ℝ

/-- Inside the limits set for the four panels (1901-1902, 1909-1910, 1915-1916, 1923-1924). -/
def Mark.visible (m : Mark) : Prop :=
  (-10 ≤ m.time ∧ m.time ≤ 420) ∧ (0 ≤ m.altitude ∧ m.altitude ≤ 36000) ∧ (60 ≤ m.mass ∧ m.mass ≤ 80) ∧ (0.3 ≤ m.lift ∧ m.lift ≤ 0.9) ∧
    (15 ≤ m.ratio ∧ m.ratio ≤ 20)

/-! ### Lines of lift -/

/-- The styles (1738). -/
def lineStyles : List String := ["-b", "-b", "-r", "-r", "-k"]

/-- `b_sw` (1730). -/
def stationStart (nsw : List ℕ) (i : ℕ) : ℕ := (nsw.take i).sum

/-- One line (1743-1745): stations and lift of surface `i`, and its style. -/
def liftLine (nsw : List ℕ) (y cl : List ℝ) (i : ℕ) : Option (List (ℝ × ℝ) × String) :=
  let a := stationStart nsw i
  let b := stationStart nsw (i + 1)
  lineStyles[i]?.map fun st => ((((y.take b).drop a).zip ((cl.take b).drop a)), st)

/-- The lines of one figure (1742-1745). -/
def liftLines (nsw : List ℕ) (y cl : List ℝ) : Option (List (List (ℝ × ℝ) × String)) :=
  (List.range nsw.length).mapM (liftLine nsw y cl)

end Verif.IO.FlightFigures
