import Mathlib.Data.List.Sort
import Mathlib.Algebra.Order.Round
import Mathlib.Data.Rat.Floor

/-!
# The geometry file that AVL reads

`write_geometry` of `Methods/Aerodynamics/AVL/write_geometry.py` (20-63) with the texts it is made of (66-395).  The file
is a list of entries, one per keyword of AVL with its values; comment lines and blanks are left out.  Numbers are
rationals.  `round(x, 4)` of python decides exact ties by the binary value; `round4` takes the larger neighbour.  The
wings and bodies are those that `translate_avl_wing` and `translate_avl_body` return.
-/

namespace Verif.Avl.File

/-- A control surface of a section, `Data/Wing.py` 144-188 with the `order` given by `create_avl_datastructure.py`. -/
structure Control where
  tag : String
  gain : ℚ
  hinge : ℚ
  vector : String
  sign : String
  order : ℤ
  deriving DecidableEq

/-- A section of a wing or body, `Data/Wing.py` 66-109. -/
structure Section where
  x : ℚ
  y : ℚ
  z : ℚ
  chord : ℚ
  twist : ℚ
  afile : Option String
  naca : Option String
  controls : List Control
  deriving DecidableEq

/-- A wing, `Data/Wing.py` 36-48. -/
structure Lifting where
  tag : String
  symmetric : Bool
  vertical : Bool
  sections : List Section

/-- A body, `Data/Body.py` 60-77: the two halves of the cross. -/
structure Cross where
  tag : String
  horizontal : List Section
  vertical : List Section

/-- An entry of the file. -/
inductive Entry where
  | surface (name : String)
  | twin
  | sec (x y z chord twist : ℚ)
  | afile (name : String)
  | naca (name : String)
  | control (tag : String) (gain hinge : ℚ) (vector sign : String)
  deriving DecidableEq

/-- `round(x, 4)`, see the head of the file. -/
def round4 (x : ℚ) : ℚ := (round (x * 10000) : ℤ) / 10000

/-- `if airfoil_coord:` (297, 299, 352): neither `None` nor an empty text. -/
def given (s : Option String) : Option String := s.filter (· ≠ "")

/-- `sorted(…, key = …)`: stable, ascending. -/
def sortedBy {α : Type} {β : Type} [LinearOrder β] (key : α → β) (l : List α) : List α :=
  l.insertionSort (fun a b => key a ≤ key b)

/-- `make_controls_text` (358-395). -/
def controlEntry (c : Control) : Entry := .control c.tag c.gain c.hinge c.vector c.sign

/-- `make_wing_section_text` (252-308): the section, its airfoil file, its NACA number, its control surfaces in order. -/
def wingSectionEntries (s : Section) : List Entry :=
  .sec (round4 s.x) (round4 s.y) (round4 s.z) (round4 s.chord) (round4 s.twist) ::
    (((given s.afile).map Entry.afile).toList ++ ((given s.naca).map Entry.naca).toList ++
      (sortedBy Control.order s.controls).map controlEntry)

/-- `make_body_section_text` (311-355): a file for the airfoil, no number and no control surfaces. -/
def bodySectionEntries (s : Section) : List Entry :=
  .sec (round4 s.x) (round4 s.y) (round4 s.z) (round4 s.chord) (round4 s.twist) ::
    ((given s.afile).map Entry.afile).toList

/-- `make_surface_text` (128-192): `YDUPLICATE` for symmetric wings; sections from bottom to top for vertical wings and
from left to right for the others. -/
def surfaceEntries (w : Lifting) : List Entry :=
  .surface w.tag :: ((if w.symmetric then [.twin] else []) ++
    ((if w.vertical then sortedBy Section.z w.sections else sortedBy Section.y w.sections).map
      wingSectionEntries).flatten)

/-- `make_body_text` (195-250): two surfaces. -/
def bodyEntries (b : Cross) : List Entry :=
  (.surface (b.tag ++ "_horizontal") :: ((sortedBy Section.y b.horizontal).map bodySectionEntries).flatten) ++
    (.surface (b.tag ++ "_vertical") :: ((sortedBy Section.z b.vertical).map bodySectionEntries).flatten)

/-- The head of the file: reference area, chord, span, point and the Mach number. -/
structure Head where
  name : String
  mach : ℚ
  area : ℚ
  chord : ℚ
  span : ℚ
  point : ℚ × ℚ × ℚ
  deriving DecidableEq

/-- The reference values of a wing of the vehicle. -/
structure Ref where
  tag : String
  area : ℚ
  chord : ℚ
  span : ℚ

/-- `make_header_text` (66-125): the values of the wing called `main_wing`; `none` is the error of the missing key.  The
three symmetry settings are passed through and left out. -/
def headOf (name : String) (refs : List Ref) (cg : ℚ × ℚ × ℚ) : Option Head :=
  (refs.find? (fun r => r.tag = "main_wing")).map fun r => ⟨name, 0, r.area, r.chord, r.span, cg⟩

/-- `write_geometry` (20-63): the content of the file, empty where the head fails since the file is opened first (47-51).
The second component says whether the call returned. -/
def writeGeometry (name : String) (refs : List Ref) (cg : ℚ × ℚ × ℚ) (wings : List Lifting) (bodies : List Cross) :
    Option (Head × List Entry) × Bool :=
  match headOf name refs cg with
  | none => (none, false)
  | some h => (some (h, (wings.map surfaceEntries).flatten ++ (bodies.map bodyEntries).flatten), true)

end Verif.Avl.File
