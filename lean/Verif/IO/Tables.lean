import Mathlib.Algebra.Order.Archimedean.Real.Basic
import Mathlib.Algebra.Order.Floor.Ring
import Mathlib.Algebra.Ring.Parity

/-!
Tables read from AVL and tables written for the user.

Sources: trunk/SUAVE/Methods/Aerodynamics/AVL/{read_results,write_avl_airfoil_file}.py,
trunk/SUAVE/Input_Output/Results/{print_weights,print_compress_drag}.py.

Simplifications: a file of AVL is a function from line and first column of a field to the number printed there; text before and after the
tables is left out; the drag analysis is any function of wing, Mach number and lift coefficient.
-/

namespace Verif.IO.Tables

/-! ### Results of AVL -/

/-- The two files with derivatives: stability axes (44) and body axes (183). -/
inductive File
  | stab
  | body
  deriving DecidableEq

/-- Where a derivative is read: name, file, line less the number of control surfaces, first column. -/
structure Read where
  name : String
  file : File
  line : ℕ
  col : ℕ

/-- The rate derivatives in the order in which they are read (90-104 and 206-223). Line 101 reads `Cm_r` from line 44. -/
def reads : List Read :=
  [⟨"CL_p", .stab, 44, 24⟩, ⟨"CL_q", .stab, 44, 43⟩, ⟨"CL_r", .stab, 44, 65⟩,
   ⟨"CY_p", .stab, 45, 24⟩, ⟨"CY_q", .stab, 45, 43⟩, ⟨"CY_r", .stab, 45, 65⟩,
   ⟨"Cl_p", .stab, 46, 24⟩, ⟨"Cl_q", .stab, 46, 43⟩, ⟨"Cl_r", .stab, 46, 65⟩,
   ⟨"Cm_p", .stab, 47, 24⟩, ⟨"Cm_q", .stab, 47, 43⟩, ⟨"Cm_r", .stab, 44, 65⟩,
   ⟨"Cn_p", .stab, 48, 24⟩, ⟨"Cn_q", .stab, 48, 43⟩, ⟨"Cn_r", .stab, 48, 65⟩,
   ⟨"CX_p", .body, 45, 24⟩, ⟨"CX_q", .body, 45, 43⟩, ⟨"CX_r", .body, 45, 65⟩,
   ⟨"CY_p", .body, 46, 24⟩, ⟨"CY_q", .body, 46, 43⟩, ⟨"CY_r", .body, 46, 65⟩,
   ⟨"CZ_p", .body, 47, 24⟩, ⟨"CZ_q", .body, 47, 43⟩, ⟨"CZ_r", .body, 47, 65⟩,
   ⟨"Cl_p", .body, 48, 24⟩, ⟨"Cl_q", .body, 48, 43⟩, ⟨"Cl_r", .body, 48, 65⟩,
   ⟨"Cm_p", .body, 49, 24⟩, ⟨"Cm_q", .body, 49, 43⟩, ⟨"Cm_r", .body, 49, 65⟩,
   ⟨"Cn_p", .body, 50, 24⟩, ⟨"Cn_q", .body, 50, 43⟩, ⟨"Cn_r", .body, 50, 65⟩]

/-- Assignments in order: a later one replaces an earlier one. -/
def store (n : ℕ) (stab body : ℕ → ℕ → ℝ) : List Read → (String → Option ℝ) → String → Option ℝ
  | [], res => res
  | r :: rs, res =>
    let v := match r.file with
      | .stab => stab (r.line + n) r.col
      | .body => body (r.line + n) r.col
    store n stab body rs fun s => if s = r.name then some v else res s

/-- A rate derivative in the results, with `n` control surfaces (42). -/
def rate (n : ℕ) (stab body : ℕ → ℕ → ℝ) (name : String) : Option ℝ := store n stab body reads (fun _ => none) name

/-- Number of surfaces (125-129): a symmetric wing is two. -/
def surfaces (symmetric : List Bool) : ℕ := (symmetric.map fun s => if s then 2 else 1).sum

/-- Line of strip `j` of surface `i` (160-176). -/
def stripLine (nsw i j : ℕ) : ℕ := 20 + j + (List.range i).foldl (fun idx _ => 15 + nsw + idx) 0

/-- First and last column of a derivative with respect to control surface `k` (112-118). -/
def ctrlCols (k : ℕ) : ℕ × ℕ := (20 * k + 23, 20 * k + 34)

/-! ### Airfoil for AVL -/

/-- Points written (52-65). -/
def avlPoints (pts : List (ℝ × ℝ)) : List (ℝ × ℝ) :=
  (List.range (pts.length - 1)).filterMap fun i => if i = pts.length / 2 then none else pts[i]?

/-- `s.split(c)` on a list of characters. -/
def splitOn (c : Char) : List Char → List (List Char)
  | [] => [[]]
  | x :: xs =>
    if x = c then [] :: splitOn c xs
    else match splitOn c xs with
      | [] => [[x]]
      | w :: ws => (x :: w) :: ws

/-- `l[-2]`. -/
def secondLast {α : Type} (l : List α) : Option α := l.reverse[1]?

/-- Name of the file written (36); `none` when the name holds no dot. -/
def avlName (file : List Char) : Option (List Char) :=
  (secondLast (splitOn '.' file)).bind fun w => (splitOn '/' w).getLast?.map (· ++ ".dat".toList)

/-! ### Weight breakdown -/

/-- `'%8.0F'`: to the nearest whole number, halves to the even one. -/
noncomputable def whole (x : ℝ) : ℤ :=
  if x - ⌊x⌋ < 1 / 2 then ⌊x⌋ else if 1 / 2 < x - ⌊x⌋ then ⌊x⌋ + 1 else if Even ⌊x⌋ then ⌊x⌋ else ⌊x⌋ + 1

/-- Text before the number (83-85). -/
def label (tag : List Char) : Option (List Char) :=
  match tag.map fun c => if c = '_' then ' ' else c with
  | [] => none
  | c :: cs =>
    let s := ' ' :: '\t' :: (c.toUpper :: cs) ++ [' ']
    some (s ++ List.replicate (31 - s.length) '.' ++ [' ', ':'])

/-- Lines of a group (81-86, 90-95, 99-104, 112-117, 124-129): all items but the total. -/
noncomputable def lines (items : List (List Char × ℝ)) : Option (List (List Char × ℤ)) :=
  (items.filter fun it => it.1 ≠ "total".toList).mapM fun it => (label it.1).map fun l => (l, whole it.2)

/-! ### Compressibility drag -/

/-- State of the loop (86-95): the breakdown kept in the conditions, the table of each wing and the total, by Mach number and lift
coefficient. -/
structure Comp where
  breakdown : String → ℝ → ℝ
  wings : String → ℝ → ℕ → ℝ
  total : ℝ → ℕ → ℝ

/-- One lift coefficient (87-95): the drag of every wing is computed, then stored and added. -/
noncomputable def compStep (cdc : String → ℝ → ℝ → ℝ) (tags : List String) (st : Comp) (k : ℕ) (cl : ℝ) : Comp :=
  let b := tags.foldl (fun (b : String → ℝ → ℝ) t => fun s => if s = t then fun m => cdc t m cl else b s) st.breakdown
  tags.foldl (fun (c : Comp) t =>
    { c with
      wings := fun s m j => if s = t ∧ j = k then b t m else c.wings s m j
      total := fun m j => if j = k then c.total m j + b t m else c.total m j }) { st with breakdown := b }

/-- The loop over lift coefficients, numbered from `k`. -/
noncomputable def compLoop (cdc : String → ℝ → ℝ → ℝ) (tags : List String) : Comp → ℕ → List ℝ → Comp
  | st, _, [] => st
  | st, k, cl :: cls => compLoop cdc tags (compStep cdc tags st k cl) (k + 1) cls

/-- `print_compress_drag` (60-108): `none` without a main wing (54, 66). -/
noncomputable def compress (cdc : String → ℝ → ℝ → ℝ) (old : String → ℝ → ℝ) (tags : List String) (cls : List ℝ) : Option Comp :=
  if "main_wing" ∈ tags then some (compLoop cdc tags ⟨old, fun _ _ _ => 0, fun _ _ => 0⟩ 0 cls) else none

end Verif.IO.Tables
