import Mathlib.Data.Real.Basic

/-!
The pressures handed on from wing to wing when the wings of a vehicle are saved.

Source: trunk/SUAVE/Input_Output/VTK/save_wing_vtk.py 54-56, 100-104, 112-113, 135-138; save_vehicle_vtk.py 200-213.

Simplifications: of the results only the pressure coefficients are kept. An array is a scalar, a row or a matrix; `none` stands for the
exception raised by indexing. Only what is passed to `write_wing_vtk` as `CP` is recorded, not the file (see Verif/IO/Vtk.lean).
-/

namespace Verif.IO.SavedPressures

/-- A numpy array of up to two dimensions. -/
inductive Arr
  | scalar (x : ℝ)
  | row (l : List ℝ)
  | mat (l : List (List ℝ))

/-- `a[0]`. -/
def first : Arr → Option Arr
  | .scalar _ => none
  | .row [] => none
  | .row (x :: _) => some (.scalar x)
  | .mat [] => none
  | .mat (r :: _) => some (.row r)

/-- `a[:n]` and `a[n:]`. -/
def halves (n : ℕ) : Arr → Option (Arr × Arr)
  | .scalar _ => none
  | .row l => some (.row (l.take n), .row (l.drop n))
  | .mat l => some (.mat (l.take n), .mat (l.drop n))

/-- A wing: symmetric or not, and the number of panels of one half. -/
structure Wing where
  symmetric : Bool
  half : ℕ

/-- `save_wing_vtk` (54-56, 100-104, 112-113, 135-138): the pressures afterwards and the ones written, left half first. -/
def saveWing (cp : Arr) (w : Wing) : Option (Arr × List Arr) :=
  if w.symmetric then do
    let c ← first cp
    let p ← halves w.half c
    some (cp, [p.2, p.1])
  else do
    let c ← first cp
    some (c, [c])

/-- The loop over the wings (`save_vehicle_vtk.py` 200-213). -/
def saveWings : Arr → List Wing → Option (Arr × List Arr)
  | cp, [] => some (cp, [])
  | cp, w :: ws => do
    let a ← saveWing cp w
    let b ← saveWings a.1 ws
    some (b.1, a.2 ++ b.2)

end Verif.IO.SavedPressures
