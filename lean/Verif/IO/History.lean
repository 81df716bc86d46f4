import Mathlib.Algebra.Field.Basic
import Mathlib.Data.List.Basic

/-!
# Optimization history files

Models of `trunk/SUAVE/Optimization/write_optimization_outputs.py` and
`trunk/SUAVE/Optimization/read_optimization_outputs.py`, on the level of characters.

Numbers are printed by an arbitrary function `render` (`str` of a number, as in lists printed by
numpy 1) and read by `parse` (`float`).  The values of objective and constraints
(`get_values`, `scale_obj_values`, `scale_const_values`) are modelled elsewhere and given here.
-/

namespace Verif.IO.History

/-- A row of the input table: initial value, bounds, scale. -/
structure Row (N : Type) where
  value : N
  lower : N
  upper : N
  scale : N

/-- What one call of the writer gets: iteration number, scaled objective, input table, scaled
constraint values. -/
structure Rec (N : Type) where
  iteration : N
  objective : N
  inputs : List (Row N)
  constraints : List N

/-- `unscaled_inputs/input_scaling` with columns 1 and 3 (46-48): column 3 is the upper bound. -/
def writtenInputs {N : Type} [Div N] (l : List (Row N)) : List N := l.map fun r => r.value / r.upper

/-- Text in the file, as lists of characters. -/
def tIter : List Char := ['i', 't', 'e', 'r', 'a', 't', 'i', 'o', 'n', ' ', '=', ' ']
def tComma : List Char := [' ', ',', ' ']
def tObj : List Char := ['o', 'b', 'j', 'e', 'c', 't', 'i', 'v', 'e', ' ', '=', ' ']
def tInputs : List Char := ['i', 'n', 'p', 'u', 't', 's', ' ', '=', ' ']
def tConstr : List Char := ['c', 'o', 'n', 's', 't', 'r', 'a', 'i', 'n', 't', 's', ' ', '=', ' ']
def tObjSp : List Char := ' ' :: tObj

/-- The elements of a list joined by a separator. -/
def join (sep : List Char) : List (List Char) → List Char
  | [] => []
  | [a] => a
  | a :: b :: l => a ++ sep ++ join sep (b :: l)

/-- `str` of a list. -/
def showList (l : List (List Char)) : List Char := '[' :: (join [',', ' '] l ++ [']'])

/-- The line written (67-77). -/
def line {N : Type} [Div N] (render : N → List Char) (r : Rec N) : List Char :=
  tIter ++ render r.iteration ++ tComma ++ tObj ++ render r.objective ++ [',', ' '] ++ tInputs ++
    showList ((writtenInputs r.inputs).map render) ++ [',', ' '] ++ tConstr ++ showList (r.constraints.map render) ++ ['\n']

/-- `line.replace(pat, '')`: occurrences are removed from the left; `skip` characters of an occurrence
remain to be dropped. -/
def remove (pat : List Char) : ℕ → List Char → List Char
  | _, [] => []
  | k + 1, _ :: s => remove pat k s
  | 0, c :: s =>
    match pat.isPrefixOf (c :: s) with
    | true => remove pat (pat.length - 1) s
    | false => c :: remove pat 0 s

/-- `line.split(' ')`. -/
def split : List Char → List (List Char)
  | [] => [[]]
  | c :: s =>
    match split s with
    | [] => [[]]
    | a :: l => if c = ' ' then [] :: a :: l else (c :: a) :: l

/-- The replacements of `format_input_data` (40-46). -/
def clean (s : List Char) : List Char :=
  remove tConstr 0 (remove tInputs 0 (remove tObjSp 0 (remove tIter 0 (remove [','] 0 (remove [']'] 0 (remove ['['] 0 s))))))

/-- The numbers of a line (47-55): the test in line 51 is always true; `none` for the `ValueError` of
`float`. -/
def numbers {N : Type} (parse : List Char → Option N) (s : List Char) : Option (List N) := (split (clean s)).mapM parse

/-- `read_optimization_outputs` (87-99), row by row: iteration, objective, inputs, constraints for `ni`
inputs and `nc` constraints; `none` for an exception.  (Rows of different lengths, for which numpy
makes no table, are not represented.) -/
def readRow {N : Type} (parse : List Char → Option N) (ni nc : ℕ) (s : List Char) : Option (N × N × List N × List N) :=
  match numbers parse s with
  | some (it :: ob :: rest) => some (it, ob, rest.take ni, (rest.drop ni).take nc)
  | _ => none

/-- All lines. -/
def read {N : Type} (parse : List Char → Option N) (ni nc : ℕ) (l : List (List Char)) : Option (List (N × N × List N × List N)) :=
  l.mapM (readRow parse ni nc)

end Verif.IO.History
