import Mathlib.Data.Nat.Digits.Defs
import Verif.Avl.Geometry

/-!
What AVL is told to compute and how its answers are put in order: `trunk/SUAVE/Methods/Aerodynamics/AVL/`
`translate_data.py`, `write_run_cases.py`, `write_input_deck.py`, `write_mass_file.py`, and the analyses
`Analyses/Aerodynamics/AVL_Inviscid.py` and `Analyses/Stability/AVL.py`.

AVL itself is external.  It is told a value for each of its variables by the run case file, in degrees for
angles, and then by the commands of the deck, which replace those of the run case.  `rnd` stands for
`round(·, 4)`.
-/

namespace Verif.Avl

open Real
open scoped Classical

/-- The conditions of one case: `angle_of_attack[i]`, `side_slip_angle`, `lift_coefficient` (`none` for
`None`), `roll_rate_coefficient`, `pitch_rate_coefficient`, `mach_number`, `velocity`. -/
structure Cond where
  aoa : ℝ
  beta : ℝ
  cl : Option ℝ
  roll : ℝ
  pitch : ℝ
  mach : ℝ
  velocity : ℝ

/-- `Run_Case.conditions` (`Data/Cases.py` lines 65 to 84). -/
structure Case where
  aoa : ℝ
  beta : ℝ
  cl : Option ℝ
  roll : ℝ
  pitch : ℝ
  mach : ℝ
  velocity : ℝ

/-- One case of `translate_conditions_to_cases` (`translate_data.py` lines 46 to 56): the angle of attack
in degrees; the velocity keeps its default (`Data/Cases.py` line 71). -/
noncomputable def toCase (c : Cond) : Case :=
  ⟨deg c.aoa, c.beta, c.cl, c.roll, c.pitch, c.mach, 0⟩

/-- What fixes the angle of attack in AVL: a value of the angle in degrees, or of the lift. -/
inductive Hold
  | alpha (v : ℝ)
  | lift (v : ℝ)

/-- The variables of AVL for a run case. -/
structure Setting where
  hold : Hold
  beta : ℝ
  roll : ℝ
  pitch : ℝ
  mach : ℝ
  velocity : ℝ

/-- The run case file (`write_run_cases.py` lines 109 to 157); `toggle_idx`, `toggle_val` are the same for
trimmed and untrimmed aircraft. -/
noncomputable def runCase (rnd : ℝ → ℝ) (c : Case) : Setting where
  hold := match c.cl with
    | some cl => .lift (rnd cl)
    | none => .alpha (rnd c.aoa)
  beta := rnd c.beta
  roll := rnd c.roll
  pitch := rnd c.pitch
  mach := rnd c.mach
  velocity := rnd c.velocity

/-- The commands of the deck for a trimmed aircraft (`write_input_deck.py` lines 100 to 104 and 141 to
258); an untrimmed one gets none of these (lines 105 to 108). -/
noncomputable def deck (trim : Bool) (c : Case) (s : Setting) : Setting :=
  if trim then
    { s with
      hold := match c.cl with
        | none => .alpha c.aoa
        | some cl => if 0 < cl then .lift cl else s.hold
      roll := if c.roll ≠ 0 then c.roll else s.roll
      pitch := if c.pitch ≠ 0 then c.pitch else s.pitch
      beta := if deg c.beta ≠ 0 then deg c.beta else s.beta }
  else s

/-- What AVL computes for the conditions. -/
noncomputable def told (rnd : ℝ → ℝ) (trim : Bool) (c : Cond) : Setting :=
  deck trim (toCase c) (runCase rnd (toCase c))

/-- The mass in the mass file (`write_mass_file.py` lines 70 to 75); `none` for the `AttributeError`. -/
noncomputable def fileMass (mass maxTakeoff : ℝ) : Option ℝ :=
  if mass = 0 then some maxTakeoff else if maxTakeoff = 0 then some mass else none

/-- The deflections the deck sets, for the wings in order and their control surfaces in order: the `k`-th
entry is given to AVL's `D{k+1}` (`control_surface_deflection_command`, `write_input_deck.py` lines 276 to
288). -/
noncomputable def deflections (rnd : ℝ → ℝ) (wings : List (List Surf)) : List ℝ :=
  (wings.flatMap id).map fun s => rnd (deg s.deflection)

/-- `'{:04d}'.format(n)`: decimal digits, padded with zeros on the left. -/
def pad4 (n : ℕ) : List ℕ := List.replicate (4 - (Nat.digits 10 n).length) 0 ++ (Nat.digits 10 n).reverse

/-- The characters of `'case_{0:04d}_{1:04d}'` after `'case_'`, with 10 for the underscore. -/
def caseTag (batch i : ℕ) : List ℕ := pad4 batch ++ [10] ++ pad4 i

/-- `translate_results_to_conditions` (`translate_data.py` lines 205 to 210) on one column: the rows in
the order of the case numbers, looked up by a tag made of four characters of the first one; `none` for the
exception of an unknown tag (or of no results at all). -/
def rows {α : Type} (results : List (List ℕ × α)) : Option (List α) :=
  match results with
  | [] => none
  | (k, _) :: _ => (List.range results.length).mapM fun i =>
      results.lookup (k.take 4 ++ [10] ++ pad4 (i + 1))

/-- `lift_breakdown.compressible_wings[wing.tag]` for a wing (`AVL_Inviscid.py` lines 208 to 211). -/
noncomputable def wingLift (cl area sref : ℝ) : ℝ := cl * (area / sref)

/-- The four columns of the training data of the stability analysis. -/
structure Column where
  cm : ℝ
  cmAlpha : ℝ
  cnBeta : ℝ
  np : ℝ

/-- The row written to the training file with `save_regression_results`
(`Analyses/Stability/AVL.py` lines 314 to 318). -/
def savedRow (c : Column) : List ℝ := [c.cm, c.cmAlpha, c.cnBeta, c.cnBeta]

/-- The row read back (`Analyses/Stability/AVL.py` lines 299 to 309). -/
def loadedRow : List ℝ → Option Column
  | [a, b, c, d] => some ⟨a, b, c, d⟩
  | _ => none

/-- `(NP - cg)/MAC` for one neutral point and the three coordinates of the centre of gravity: numpy
broadcasts to a row of three (`Analyses/Stability/AVL.py` lines 192, 193 and 216). -/
noncomputable def staticMargin (np : ℝ) (cg : Pt) (mac : ℝ) : List ℝ :=
  [(np - cg.x) / mac, (np - cg.y) / mac, (np - cg.z) / mac]

end Verif.Avl
