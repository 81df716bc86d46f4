import Mathlib.Algebra.Order.Archimedean.Real.Basic

/-!
Sections of a fuselage written to OpenVSP.

Source: trunk/SUAVE/Input_Output/OpenVSP/vsp_fuselage.py, `write_vsp_fuselage` (183-429).

Simplifications: of a section only place, size and shape are kept, the angles are those of `Verif.Vsp` (C320). OpenVSP is modelled by what
the comments in the file say of it: a new fuselage has five sections of which the first and the last are points (356-359), a section
is inserted half way behind the one named, and a section does not move past an adjacent one (365).
-/

namespace Verif.Vsp.Export

/-- A section in OpenVSP: place along and above the axis as fractions of the length, size and whether it is a point. -/
structure XSec where
  x : ℝ
  z : ℝ
  width : ℝ
  height : ℝ
  point : Bool

/-- A fuselage in OpenVSP: number of sections, and the sections. -/
structure Shape where
  count : ℕ
  sec : ℕ → XSec

/-- A segment of the fuselage (275-279). -/
structure Segment where
  x : ℝ
  z : ℝ
  width : ℝ
  height : ℝ

/-- `vsp.CutXSec`. -/
def cut (k : ℕ) (b : Shape) : Shape := ⟨b.count - 1, fun j => if j < k then b.sec j else b.sec (j + 1)⟩

/-- `vsp.InsertXSec` of an ellipse behind section `k`. -/
noncomputable def insert (k : ℕ) (b : Shape) : Shape :=
  ⟨b.count + 1, fun j => if j ≤ k then b.sec j
    else if j = k + 1 then ⟨((b.sec k).x + (b.sec (k + 1)).x) / 2, (b.sec k).z, 1, 1, false⟩ else b.sec (j - 1)⟩

/-- `n` ellipses inserted behind the nose (360-362). -/
noncomputable def insertMany : ℕ → Shape → Shape
  | 0, b => b
  | n + 1, b => insertMany n (insert 0 b)

/-- Changes section `k`. -/
def modify (k : ℕ) (f : XSec → XSec) (b : Shape) : Shape := { b with sec := fun j => if j = k then f (b.sec j) else b.sec j }

/-- The place section `k` gets if asked for `v`: not past an adjacent section, nor past the ends. -/
noncomputable def allowed (b : Shape) (k : ℕ) (v : ℝ) : ℝ :=
  max (if k = 0 then 0 else (b.sec (k - 1)).x) (min (if k + 1 < b.count then (b.sec (k + 1)).x else 1) v)

/-- `vsp.SetParmVal` of `XLocPercent`. -/
noncomputable def setX (k : ℕ) (v : ℝ) (b : Shape) : Shape := modify k (fun s => { s with x := allowed b k v }) b

/-- `vsp.SetParmVal` of `ZLocPercent`. -/
def setZ (k : ℕ) (v : ℝ) (b : Shape) : Shape := modify k (fun s => { s with z := v }) b

/-- `vsp.SetParmVal` of width and height of the curve. -/
def setSize (k : ℕ) (w h : ℝ) (b : Shape) : Shape := modify k (fun s => { s with width := w, height := h }) b

/-- `vsp.ChangeXSecShape` to a point. -/
def setPoint (k : ℕ) (b : Shape) : Shape := modify k (fun s => { s with point := true }) b

/-- The right number of sections (356-362). -/
noncomputable def prepare (n : ℕ) (b : Shape) : Shape := if n ≠ 5 then insertMany (n - 2) (cut 1 (cut 1 (cut 1 b))) else b

/-- The sections 1 to `m` bunched behind the nose (363-367). -/
noncomputable def bunch (b : Shape) : ℕ → Shape
  | 0 => b
  | m + 1 => setX (m + 1) (1e-6 * ((m : ℝ) + 1)) (bunch b m)

/-- The sections `m` to 1 moved to their places and sized, the last one first (370-376). -/
noncomputable def spread (seg : ℕ → Segment) : ℕ → Shape → Shape
  | 0, b => b
  | m + 1, b => spread seg m (setSize (m + 1) (seg (m + 1)).width (seg (m + 1)).height (setZ (m + 1) (seg (m + 1)).z (setX (m + 1) (seg (m + 1)).x b)))

/-- The ends (379-382). -/
noncomputable def ends (seg : ℕ → Segment) (n : ℕ) (b : Shape) : Shape :=
  setZ (n - 1) (seg (n - 1)).z (setX (n - 1) (seg (n - 1)).x (setZ 0 (seg 0).z (setX 0 (seg 0).x b)))

open Classical in
/-- A blunt tail (385-402): the last segment becomes an ellipse in front of the point. -/
noncomputable def tail (seg : ℕ → Segment) (n : ℕ) (b : Shape) : Shape :=
  let s := seg (n - 1)
  if 0 < s.height then
    setZ n s.z (setX n s.x (setPoint n (setZ (n - 1) s.z (setX (n - 1) s.x (setSize (n - 1) s.width s.height (insert (n - 2) b))))))
  else b

/-- `write_vsp_fuselage` for `n` segments (342-402), one or more; a single one raises (368). -/
noncomputable def exported (seg : ℕ → Segment) (n : ℕ) (b : Shape) : Option Shape :=
  if n < 2 then none else some (tail seg n (ends seg n (spread seg (n - 2) (bunch (prepare n b) (n - 2)))))

/-- Place of the second section of a fuselage without segments (252-264): `wing` is the origin of the root and its chord; without main
wing the origin is a number, which cannot be indexed. -/
noncomputable def atWing (length : ℝ) (wing : Option (ℝ × ℝ)) : Option ℝ := wing.map fun w => (w.1 + w.2 / 4) / length

end Verif.Vsp.Export
