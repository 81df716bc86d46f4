/-!
# The folder of an AVL run

`sample_training` and `evaluate_conditions` of `trunk/SUAVE/Analyses/Stability/AVL.py` (251-289, 410, 475-497) and
`trunk/SUAVE/Analyses/Aerodynamics/AVL_Inviscid.py` (244-290, 395, 462-477), as far as folders go.  A folder is the list of
the names of its files, `none` if it does not exist; sub-folders are not modelled.  The files written for Mach number `i`
before AVL is run are `input i`, those AVL writes are `output i`; with `regression_flag` AVL is not run
(`run_analysis.py` 60-62) and the outputs have to be there.
-/

namespace Verif.IO

/-- Names of folders to their files. -/
abbrev Folders := String → Option (List String)

/-- `rmtree(name)`: raises for a folder that does not exist. -/
def rmTree (name : String) (fs : Folders) : Option Folders :=
  match fs name with
  | none => none
  | some _ => some fun x => if x = name then none else fs x

/-- What a training run needs to know: the run folder, two settings, and the files of each Mach number. -/
structure AvlTraining where
  run : String
  regression : Bool
  keep : Bool
  input : Nat → List String
  output : Nat → List String

/-- "remove old files in run directory" (AVL.py:270-272): the folder looked for is always `avl_files`. -/
def AvlTraining.clean (t : AvlTraining) (fs : Folders) : Option Folders :=
  if (fs "avl_files").isSome ∧ t.regression = false then rmTree t.run fs else some fs

/-- `evaluate_conditions` (475-497): the folder is made if need be (`redirect.folder`), files of the same name are
overwritten, the outputs are read, and unless files are kept the folder is removed.  `none` if an output is missing. -/
def AvlTraining.evaluate (t : AvlTraining) (i : Nat) (fs : Folders) : Option Folders :=
  let old := (fs t.run).getD []
  let files := old ++ t.input i ++ (if t.regression then [] else t.output i)
  if ∀ f ∈ t.output i, f ∈ files then
    some fun x => if x = t.run then (if t.keep then some files else none) else fs x
  else none

/-- The loop over the Mach numbers `i, i + 1, …, i + n - 1` (274-289). -/
def AvlTraining.loop (t : AvlTraining) : Nat → Nat → Folders → Option Folders
  | 0, _, fs => some fs
  | n + 1, i, fs => match t.evaluate i fs with
    | none => none
    | some fs' => t.loop n (i + 1) fs'

/-- `sample_training` (270-289) for `n` Mach numbers. -/
def AvlTraining.train (t : AvlTraining) (n : Nat) (fs : Folders) : Option Folders :=
  match t.clean fs with
  | none => none
  | some fs' => t.loop n 0 fs'

end Verif.IO
