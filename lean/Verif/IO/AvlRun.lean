import Mathlib.Data.List.Basic
import Mathlib.Data.Int.Basic
/-
Running AVL: `purge_files` (trunk/SUAVE/Methods/Aerodynamics/AVL/purge_files.py:14-36) and `call_avl`
(trunk/SUAVE/Methods/Aerodynamics/AVL/run_analysis.py:46-100), with the files opened by
trunk/SUAVE/Core/redirect.py (57-70).

Simplifications
* The files of the working directory are a function from names to contents; names are taken as they are, without folders.
* What AVL prints is two arbitrary texts; what it does to other files is not modelled.  With `print_output` off its standard output
  is discarded (81-83).
-/

namespace Verif.IO

abbrev Files := String → Option String

/-- Lines 32-36 of purge_files.py: a name without file is passed over. -/
def purgeFiles (names : List String) (fs : Files) : Files := names.foldl (fun fs n x => if x = n then none else fs x) fs

/-- What the loop runs over if it is handed a text instead of a list: its characters. -/
def chars (s : String) : List String := s.toList.map String.singleton

/-- `open(name, 'a')` and a text written to it. -/
def appendTo (name text : String) (fs : Files) : Files := fun x => if x = name then some ((fs x).getD "" ++ text) else fs x

/-- What a call needs: the files for output and errors, if any, and whether AVL is run at all. -/
structure AvlCall where
  regression : Bool
  log : Option String
  err : Option String
  print : Bool

def purgeNamed (name : Option String) (fs : Files) : Files :=
  match name with
  | some n => purgeFiles (chars n) fs
  | none => fs

def writeNamed (name : Option String) (text : String) (fs : Files) : Files :=
  match name with
  | some n => appendTo n text fs
  | none => fs

/-- `call_avl`: the exit status and the files. -/
def callAvl (c : AvlCall) (status : ℤ) (out err : String) (fs : Files) : ℤ × Files :=
  if c.regression then (0, fs)
  else (status, writeNamed c.err err (writeNamed c.log (if c.print then out else "") (purgeNamed c.err (purgeNamed c.log fs))))

/-- `run_analysis` (40-43): the status is dropped. -/
def runAvl {R : Type} (c : AvlCall) (status : ℤ) (out err : String) (fs : Files) (read : Files → R) : R := read (callAvl c status out err fs).2

end Verif.IO
