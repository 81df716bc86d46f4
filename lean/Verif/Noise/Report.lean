import Verif.IO.Tables
import Mathlib.Analysis.Real.Pi.Bounds
import Mathlib.Data.List.MinMax

/-!
Noise reports.

Sources: trunk/SUAVE/Methods/Noise/Fidelity_One/Noise_Tools/{print_airframe_output,print_engine_output}.py.

Simplifications: a report is the list of the numbers printed, in order, with the headings above them as a list; spaces, units and fixed
text are left out. `none` stands for an exception (an index beyond the end of an array, the maximum of an empty array).
-/

namespace Verif.Noise.Report

open Verif.IO.Tables (whole)

/-- Quantities in the history tables. -/
inductive Qty
  | time | altitude | mach | core | fan | polar | azimuth | distance
  | wing | ht | vt | flap | slat | nose | main | primary | secondary | mixed | total | dba
  deriving DecidableEq

/-- `'%w.df'`: to `d` decimals, halves to the even digit. -/
noncomputable def fixed (d : ℕ) (x : ℝ) : ℝ := (whole (x * 10 ^ d) : ℝ) / 10 ^ d

/-- Angles are printed in degrees (print_airframe_output.py:80-81, print_engine_output.py:86-87). -/
noncomputable def shown : Qty → ℝ → ℝ
  | .polar, x => x * 180 / Real.pi
  | .azimuth, x => x * 180 / Real.pi
  | _, x => x

/-- Decimals: two, but three for the velocities of the jets (print_engine_output.py:84-85). -/
def decimals : Qty → ℕ
  | .core => 3
  | .fan => 3
  | _ => 2

/-- Numbers of a row of the airframe report (print_airframe_output.py:77-91). -/
def airframeOrder : List Qty :=
  [.time, .altitude, .mach, .polar, .azimuth, .distance, .wing, .ht, .vt, .flap, .slat, .nose, .main, .total, .dba]

/-- Headings of the airframe report (print_airframe_output.py:73). -/
def airframeHead : List String :=
  ["time", "altitude", "Mach", "Polar_angle", "Azim_angle", "distance", "wing", "ht", "vt", "flap", "slat", "nose", "main", "total", "dBA"]

/-- Numbers of a row of the engine report (print_engine_output.py:81-93). -/
def engineOrder : List Qty :=
  [.time, .altitude, .mach, .core, .fan, .polar, .azimuth, .distance, .primary, .secondary, .mixed, .total, .dba]

/-- Headings of the engine report (print_engine_output.py:78). -/
def engineHead : List String :=
  ["time", "altitude", "Mach", "Core Velocity", "Fan Velocity", "Polar angle", "Azim angle", "distance", "Primary", "Secondary", "Mixed",
    "Total"]

/-- One row of a history. -/
noncomputable def row (order : List Qty) (cols : Qty → List ℝ) (i : ℕ) : Option (List ℝ) :=
  order.mapM fun q => (cols q)[i]?.map fun x => fixed (decimals q) (shown q x)

/-- The rows of a history (print_airframe_output.py:76-92, print_engine_output.py:80-94). -/
noncomputable def history (order : List Qty) (cols : Qty → List ℝ) (steps : ℕ) : Option (List (List ℝ)) :=
  (List.range steps).mapM (row order cols)

/-- `np.max` of an array, printed (print_airframe_output.py:95, 98, print_engine_output.py:97, 100). -/
noncomputable def printMax (xs : List ℝ) : Option ℝ := xs.max?.map (fixed 2)

/-- The spectrum of one angle in the second file of the airframe (print_airframe_output.py:129-140): angle, lines of frequency, level and
weighted level, the two maxima. -/
structure Block where
  angle : ℝ
  lines : List (ℝ × ℝ × ℝ)
  top : ℝ
  topA : ℝ

/-- One line of a spectrum (131-135). -/
noncomputable def specLine (freq spl dba : List ℝ) (j : ℕ) : Option (ℝ × ℝ × ℝ) :=
  match freq[j]?, spl[j]?, dba[j]? with
  | some f, some s, some a => some (f, fixed 2 s, fixed 2 a)
  | _, _, _ => none

/-- The block of one angle (128-140). -/
noncomputable def block (freq : List ℝ) (angle : ℝ) (spl dba : List ℝ) : Option Block :=
  match (List.range 24).mapM (specLine freq spl dba), printMax spl, printMax dba with
  | some l, some a, some b => some ⟨fixed 2 (angle * (180 / Real.pi)), l, a, b⟩
  | _, _, _ => none

end Verif.Noise.Report
