import Verif.Noise.Tools
import Verif.Noise.Microphones

/-!
Noise at the three certification points.

Sources: trunk/SUAVE/Methods/Noise/Certification/{flyover_noise,sideline_noise,approach_noise}.py,
trunk/SUAVE/Methods/Noise/Fidelity_One/Noise_Tools/compute_noise.py.

Simplifications: the sources (airframe and engine) are any functions of the settings and of the recorded trajectory; the
mission has been evaluated when the function looks at its segments; `numpy.polyfit` is any cubic with the least sum of
squares.
-/

namespace Verif.Noise.Flyover

open Verif.Noise Verif.Noise.Mic

/-- `compute_noise` (57): sum of airframe and engine noise; `engine` is `engine_flag`. -/
noncomputable def computeNoise (airframe engineLevel : ℝ) (engine : Bool) : ℝ :=
  level (power airframe + (if engine then 1 else 0) * power engineLevel)

/-- A segment after the mission was evaluated: the positions recorded at its control points, its duration, and the number
of control points of its numerics. -/
structure Leg where
  path : List Pt
  time : ℝ
  points : ℕ

/-- Number of control points for intervals of half a second (flyover_noise.py:41-43, sideline_noise.py:42-44,
approach_noise.py:41-43). -/
noncomputable def wanted (t : ℝ) : ℕ := min 200 (⌈t / 0.5 + 1⌉).natAbs

/-- The segment as it is used for the noise (43): the number of control points is set after the mission was evaluated, and
the mission is not evaluated again. -/
noncomputable def Leg.refine (l : Leg) : Leg := { l with points := wanted l.time }

/-- `numpy.sign(n_points) == -1` (42, 58). -/
noncomputable def negative (t : ℝ) : Prop := ⌈t / 0.5 + 1⌉ < 0

/-- The settings after the flags for flyover are set (flyover_noise.py:47-48). -/
def setFlyover (f : Flags) : Flags := { f with sideline := false, flyover := true }

/-- The settings after the flags for sideline and the position of the microphone are set (sideline_noise.py:48-49, 60-67). -/
def setSideline (x0 : ℝ) (f : Flags) : Flags := { f with sideline := true, flyover := false, micX := x0 }

/-- The settings after the flag for approach is set (approach_noise.py:47). -/
def setApproach (f : Flags) : Flags := { f with approach := true }

/-- The functions that set the flags of noise settings. -/
inductive Op where
  | flyover
  | sideline (x0 : ℝ)
  | approach

/-- The settings after one of the functions. -/
def Op.set : Op → Flags → Flags
  | .flyover => setFlyover
  | .sideline x0 => setSideline x0
  | .approach => setApproach

/-- A cubic (sideline_noise.py:62-65), coefficients of falling powers. -/
def cubic (c : Fin 4 → ℝ) (h : ℝ) : ℝ := c 0 * h ^ 3 + c 1 * h ^ 2 + c 2 * h ^ 1 + c 3 * h ^ 0

/-- Sum of squares minimised by `polyfit` of x over altitude. -/
def misfit (path : List Pt) (c : Fin 4 → ℝ) : ℝ := (path.map fun p => (cubic c (-p.z) - p.x) ^ 2).sum

/-- `flyover_noise` (39-77): `noise` gives the level of a leg with the settings of the climb for the takeoff or the cutback
configuration.  For negative times the code looks for a mission in the segment and raises. -/
noncomputable def flyoverNoise (noise : Bool → Flags → Leg → ℝ) (f : Flags) (climb cutback : Leg) : Option ℝ :=
  open Classical in
  if negative climb.time then none
  else
    let g := setFlyover f
    some (level (power (noise true g climb.refine) + power (noise false g cutback)))

/-- `sideline_noise` (40-75): the level of the climb, with the microphone at the place where the cubic through the climb is
at 304.8 m. -/
noncomputable def sidelineNoise (noise : Bool → Flags → Leg → ℝ) (f : Flags) (c : Fin 4 → ℝ) (climb : Leg) : Option ℝ :=
  open Classical in
  if negative climb.time then none else some (noise true (setSideline (cubic c 304.8) f) climb.refine)

/-- `approach_noise` (39-58). -/
noncomputable def approachNoise (noise : Flags → Leg → ℝ) (f : Flags) (descent : Leg) : ℝ := noise (setApproach f) descent.refine

end Verif.Noise.Flyover
