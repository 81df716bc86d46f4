import Mathlib.Data.Real.Basic
import Mathlib.Data.List.Basic
/-
Copies of the wings for the vortex lattice and what is refused of them: `copy_wings`, `copy_large_container`, `copy_data_from_paths`, `recursive_set`,
`get_paths` (237-370) and the checks of `make_VLM_wings` (72-91) of
trunk/SUAVE/Methods/Aerodynamics/Common/Fidelity_Zero/Lift/make_VLM_wings.py; `deep_get` of trunk/SUAVE/Core/Data.py.

Simplifications
* Objects are trees of named fields; other values are leaves. `deepcopy` (300) of a value is the value.
* The copies in a container keep the keys of the originals, which are their tags.
* The fields of all-moving surfaces (263-271) are left out of the copy; what the checks read of them is in `Checked`.
-/

namespace Verif.Vlm

/-- A `Data` object or another value. -/
inductive Tree where
  | leaf (v : ℤ)
  | node (fields : List (String × Tree))

/-- `data[key] = val` in a dictionary: in the same place if the key is there, else at the end. -/
def setField : List (String × Tree) → String → Tree → List (String × Tree)
  | [], k, v => [(k, v)]
  | (j, u) :: l, k, v => if j = k then (j, v) :: l else (j, u) :: setField l k v

/-- `data[key]`. -/
def getField : List (String × Tree) → String → Option Tree
  | [], _ => none
  | (j, u) :: l, k => if j = k then some u else getField l k

/-- `deep_get`; `none` is an error. -/
def deepGet : Tree → List String → Option Tree
  | t, [] => some t
  | .leaf _, _ :: _ => none
  | .node f, k :: ks => (getField f k).bind fun t => deepGet t ks

/-- `recursive_set` (290-310), with the value already copied. -/
def recursiveSet : Tree → List String → Tree → Option Tree
  | _, [], _ => none
  | .leaf _, _ :: _, _ => none
  | .node f, [k], v => some (.node (setField f k v))
  | .node f, k :: j :: ks, v =>
    (recursiveSet ((getField f k).getD (.node [])) (j :: ks) v).map fun t => .node (setField f k t)

/-- `copy_data_from_paths` (277-288); `g` copies the value found under a path (297-300). -/
def copyFrom (g : List String → Tree → Option Tree) (obj : Tree) : List (List String) → Tree → Option Tree
  | [], acc => some acc
  | p :: ps, acc =>
    ((deepGet obj p).bind (g p)).bind fun v => (recursiveSet acc p v).bind fun acc' => copyFrom g obj ps acc'

/-- Values that are no containers of components are copied as they are (300). -/
def plain (_ : List String) (t : Tree) : Option Tree := some t

/-- The objects of a container one by one (246-275). -/
def copyFields (c : Tree → Option Tree) : List (String × Tree) → Option (List (String × Tree))
  | [] => some []
  | (k, t) :: l => (c t).bind fun u => (copyFields c l).map ((k, u) :: ·)

/-- `copy_large_container`. -/
def copyContainer (c : Tree → Option Tree) : Tree → Option Tree
  | .leaf _ => none
  | .node f => (copyFields c f).map .node

/-- `get_paths('Segments')` (357-367). -/
def segmentPaths : List (List String) :=
  [["tag"], ["percent_span_location"], ["twist"], ["root_chord_percent"], ["dihedral_outboard"], ["thickness_to_chord"],
   ["sweeps", "quarter_chord"], ["sweeps", "leading_edge"], ["Airfoil"]]

/-- `get_paths('control_surfaces')` (345-356). -/
def surfacePaths : List (List String) :=
  [["tag"], ["span"], ["span_fraction_start"], ["span_fraction_end"], ["hinge_fraction"], ["chord_fraction"], ["sign_duplicate"],
   ["deflection"], ["configuration_type"], ["gain"]]

/-- `get_paths('wings')` (324-344). -/
def wingPaths : List (List String) :=
  [["tag"], ["origin"], ["symmetric"], ["vertical"], ["taper"], ["dihedral"], ["thickness_to_chord"], ["spans", "projected"],
   ["chords", "root"], ["chords", "tip"], ["sweeps", "quarter_chord"], ["sweeps", "leading_edge"], ["twists", "root"], ["twists", "tip"],
   ["vortex_lift"], ["Airfoil"], ["Segments"], ["control_surfaces"]]

def copySegment (t : Tree) : Option Tree := copyFrom plain t segmentPaths (.node [])

def copySurface (t : Tree) : Option Tree := copyFrom plain t surfacePaths (.node [])

/-- The special cases of line 297. -/
def special (p : List String) (t : Tree) : Option Tree :=
  if p = ["Segments"] then copyContainer copySegment t
  else if p = ["control_surfaces"] then copyContainer copySurface t
  else some t

/-- One wing of `copy_wings`. -/
def copyWing (t : Tree) : Option Tree := copyFrom special t wingPaths (.node [])

/-- What the checks look at: the class of the wing, its hinge and its control surfaces. -/
structure Checked where
  allMoving : Bool
  hinge : ℝ × ℝ × ℝ
  constantHinge : Bool
  surfaces : ℕ
  /-- The entry `control_surfaces` of every segment, with the number of them, if there is one. -/
  segments : List (Option ℕ)

/-- Number of fields. -/
def sizeOfTree : Tree → ℕ
  | .leaf _ => 0
  | .node f => f.length

/-- The entry of a segment. -/
def segmentEntry (t : Tree) : Option ℕ := (deepGet t ["control_surfaces"]).map sizeOfTree

/-- The entries of the segments of a wing. -/
def segmentEntries (t : Tree) : List (Option ℕ) :=
  match deepGet t ["Segments"] with
  | some (.node f) => f.map fun kt => segmentEntry kt.2
  | _ => []

/-- Whether the wing gets through (72-91). -/
noncomputable def accepted (w : Checked) : Bool :=
  if w.segments.length = 0 then true
  else
    open Classical in
    if w.allMoving = true ∧ ((¬ w.hinge = (0, 0, 0) ∧ w.constantHinge = true) ∨ 0 < w.surfaces) then false
    else !(w.segments.any fun s => match s with | some n => decide (0 < n) | none => false)

/-- A wing as the user gives it, gone through copy and checks. -/
noncomputable def takenIn (allMoving : Bool) (hinge : ℝ × ℝ × ℝ) (constantHinge : Bool) (t : Tree) : Option Bool :=
  (copyWing t).map fun u => accepted ⟨allMoving, hinge, constantHinge,
    (match deepGet u ["control_surfaces"] with | some v => sizeOfTree v | none => 0), segmentEntries u⟩

end Verif.Vlm
