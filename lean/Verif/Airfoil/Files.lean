import Verif.Airfoil.Coordinates
import Verif.Num.Interp1
import Mathlib.Data.Rat.Floor
import Mathlib.Analysis.Real.Pi.Bounds

/-!
# Section files in the two-block format, polars, and the mask of a section

Model of `trunk/SUAVE/Methods/Geometry/Two_Dimensional/Cross_Section/Airfoil/import_airfoil_dat.py`,
`import_airfoil_polars.py` and `convert_airfoil_to_meshgrid.py`. A file is the list of its lines, a line the list of its characters;
numbers read are exact decimals, `none` stands for an exception.
-/

namespace Verif.Airfoil

/-! ### import_airfoil_dat -/

/-- `line.strip()` is empty, lines 53-63. -/
def blankLine (l : List Char) : Bool := words l = []

/-- Line 65: all the numbers of a line. -/
def numbersOf (l : List Char) : Option (List ℚ) := (words l).mapM parseFloat

/-- `data['upper']` and `data['lower']`. -/
structure DatSurfaces where
  upper : List (List ℚ)
  lower : List (List ℚ)
deriving DecidableEq

/-- `data[section].append`, line 66, for several points; `true` is `'upper'`. -/
def DatSurfaces.add (d : DatSurfaces) (s : Bool) (p : List (List ℚ)) : DatSurfaces :=
  if s then { d with upper := d.upper ++ p } else { d with lower := d.lower ++ p }

/-- The loop of lines 48-66 over the remaining lines, with the current section and the list `sections`. -/
def datLoop : Option Bool → List Bool → DatSurfaces → List (List Char) → Option DatSurfaces
  | _, _, d, [] => some d
  | some s, left, d, l :: ls =>
    if blankLine l then datLoop none left d ls
    else (numbersOf l).bind fun p => datLoop (some s) left (d.add s [p]) ls
  | none, left, d, l :: ls =>
    if blankLine l then datLoop none left d ls
    else match left with
      | [] => none
      | s :: left => (numbersOf l).bind fun p => datLoop (some s) left (d.add s [p]) ls

/-- `import_airfoil_dat.py` 37-69 without the header text: two lines of header and one more are read first (39-41). -/
def importDat (lines : List (List Char)) : Option DatSurfaces := datLoop none [true, false] ⟨[], []⟩ (lines.drop 3)

/-! ### import_airfoil_polars -/

/-- `line[a:b]`. -/
def slice (a b : ℕ) (l : List Char) : List Char := (l.drop a).take (b - a)

/-- `strip()`. -/
def stripped (l : List Char) : List Char := ((l.dropWhile isBlank).reverse.dropWhile isBlank).reverse

/-- `pat in line`. -/
def hasSub (pat l : List Char) : Bool := l.tails.any fun t => pat.isPrefixOf t

/-- Reynolds and Mach number of a polar. -/
structure PolarHead where
  re : ℚ
  ma : ℚ
deriving DecidableEq

/-- `float(line[a:b].strip().replace(" ", ""))`, lines 59, 61. -/
def headNumber (a b : ℕ) (l : List Char) : Option ℚ := parseFloat ((stripped (slice a b l)).filter (· ≠ ' '))

/-- One line of the header, lines 58-61. -/
def headLine (h : PolarHead) (l : List Char) : Option PolarHead :=
  (if hasSub ['R', 'e', ' ', '='] l then (headNumber 25 40 l).map fun x => { h with re := x } else some h).bind fun h =>
    if hasSub ['M', 'a', 'c', 'h', ' ', '='] l then (headNumber 7 20 l).map fun x => { h with ma := x } else some h

/-- The scan of lines 56-64: the numbers of the header and the lines after the first with a rule; all lines when there is
no rule. -/
def scanHead (all : List (List Char)) : PolarHead → List (List Char) → Option (PolarHead × List (List Char))
  | h, [] => some (h, all)
  | h, l :: ls => (headLine h l).bind fun h => if hasSub ['-', '-', '-'] l then some (h, ls) else scanHead all h ls

/-- Lines 67-72: empty lines at the end are dropped; a block of empty lines runs out of entries. -/
def trimEnd (ls : List (List Char)) : Option (List (List Char)) :=
  let r := (ls.reverse.dropWhile (· = ['\n'])).reverse
  if r = [] then none else some r

/-- A line of data, 81-83: angle, lift and drag from fixed columns. -/
def polarRow (l : List Char) : Option (ℚ × ℚ × ℚ) :=
  (parseFloat (stripped (slice 0 8 l))).bind fun a => (parseFloat (stripped (slice 10 17 l))).bind fun c =>
    (parseFloat (stripped (slice 20 27 l))).map fun d => (a, c, d)

/-- One polar file, lines 51-83. -/
def polarFile (lines : List (List Char)) : Option (PolarHead × List (ℚ × ℚ × ℚ)) :=
  (scanHead lines ⟨0, 0⟩ lines).bind fun r => (trimEnd r.2).bind fun b => (b.mapM polarRow).map fun t => (r.1, t)

/-- `np.linspace(-6,16,n)`, line 47 (`n` at least 2). -/
noncomputable def polarAngle (n i : ℕ) : ℝ := -6 + 22 * i / (n - 1)

/-- Lift (drag) column of a table. -/
noncomputable def liftColumn (t : List (ℚ × ℚ × ℚ)) : List (ℝ × ℝ) := t.map fun r => ((r.1 : ℝ), (r.2.1 : ℝ))
noncomputable def dragColumn (t : List (ℚ × ℚ × ℚ)) : List (ℝ × ℝ) := t.map fun r => ((r.1 : ℝ), (r.2.2 : ℝ))

/-- What is returned for one polar: angles in radians (89), lift and drag at them, Reynolds and Mach number. -/
structure Polar where
  angle : ℕ → ℝ
  lift : ℕ → ℝ
  drag : ℕ → ℝ
  re : ℚ
  ma : ℚ

/-- Lines 85-87 and 89 for one polar with `n` angles. -/
noncomputable def polarOf (n : ℕ) (r : PolarHead × List (ℚ × ℚ × ℚ)) : Polar where
  angle i := polarAngle n i * (Real.pi / 180)
  lift i := Num.npInterp (liftColumn r.2) (polarAngle n i)
  drag i := Num.npInterp (dragColumn r.2) (polarAngle n i)
  re := r.1.re
  ma := r.1.ma

/-- `import_airfoil_polars`: at least three files (35). -/
noncomputable def importPolars (n : ℕ) (files : List (List (List Char))) : Option (List Polar) :=
  if files.length < 3 then none else (files.mapM polarFile).map fun l => l.map (polarOf n)

/-! ### convert_airfoil_to_meshgrid -/

/-- `np.diff`. -/
def diffQ (l : List ℚ) : List ℚ := List.zipWith (fun a b => b - a) l l.tail
def diffZ (l : List ℤ) : List ℤ := List.zipWith (fun a b => b - a) l l.tail

/-- `np.max` and `np.min`. -/
def maxQ : List ℚ → ℚ
  | [] => 0
  | a :: l => l.foldl max a
def minQ : List ℚ → ℚ
  | [] => 0
  | a :: l => l.foldl min a

/-- The three arrays read, lines 41-43. -/
structure Outline2 where
  xl : List ℚ
  yl : List ℚ
  yu : List ℚ

/-- `x_length`, line 52. -/
def Outline2.xlen (o : Outline2) : ℚ := maxQ o.xl

/-- `Nx`, line 56. -/
def Outline2.nx (o : Outline2) : ℤ := ⌈o.xlen / |minQ (diffQ o.xl)|⌉

/-- Lines 66, 141. -/
def Outline2.ny (o : Outline2) (nx : ℤ) : ℤ := ⌈nx * (maxQ o.yu - minQ o.yl)⌉

/-- `X_INDICES`, line 80. -/
def Outline2.xIdx (o : Outline2) : List ℤ := o.xl.map fun x => ⌈o.nx / o.xlen * x⌉

/-- `Y_LOWER_INDICES` and `Y_UPPER_INDICES`, lines 87-97. -/
def Outline2.lowIdx (o : Outline2) : List ℤ := o.yl.map fun y => ⌊o.nx / o.xlen * (y - minQ o.yl)⌋
def Outline2.upIdx (o : Outline2) : List ℤ := o.yu.map fun y => ⌈o.nx / o.xlen * (y - minQ o.yl)⌉

/-- Lines 122-132: exchange of the entries `k` and `k+1` for every `k` in `neg`; no two of them follow each other. -/
def swapAt (neg : List ℕ) (l : List ℤ) : List ℤ :=
  (List.range l.length).map fun i => if i ∈ neg then l.getD (i + 1) 0 else if 0 < i ∧ i - 1 ∈ neg then l.getD (i - 1) 0 else l.getD i 0

/-- `np.repeat`; a negative count is an exception. -/
def repeatBy (l : List ℤ) (n : List ℤ) : Option (List ℤ) :=
  if n.any (· < 0) then none else some ((l.zip n).flatMap fun p => List.replicate p.2.toNat p.1)

/-- The mask, lines 147-164: one row per station in x, one entry per station in y. Arrays of another length than `Nx` do not
broadcast. -/
def maskOf (nx ny : ℤ) (low up : List ℤ) : Option (List (List Bool)) :=
  if low.length = nx.toNat ∧ up.length = nx.toNat then
    some (List.zipWith (fun a b => (List.range ny.toNat).map fun j : ℕ => decide (a < (j : ℤ)) && decide ((j : ℤ) < b)) low up)
  else none

/-- `convert_airfoil_to_meshgrid`, lines 41-166; consecutive steps backwards return `None` (118-120), also `none` here. -/
def Outline2.mask (o : Outline2) : Option (List (List Bool)) :=
  let rep := diffZ o.xIdx ++ [0]
  let neg := (List.range rep.length).filter fun i => rep.getD i 0 < 0
  if neg = [] then
    (repeatBy o.lowIdx rep).bind fun a => (repeatBy o.upIdx rep).bind fun b => maskOf o.nx (o.ny o.nx) a b
  else if neg.any fun i => i + 1 ∈ neg then none
  else
    let rep := diffZ (swapAt neg o.xIdx) ++ [0]
    let nx := rep.sum
    (repeatBy (swapAt neg o.lowIdx) rep).bind fun a => (repeatBy (swapAt neg o.upIdx) rep).bind fun b => maskOf nx (o.ny nx) a b

end Verif.Airfoil
