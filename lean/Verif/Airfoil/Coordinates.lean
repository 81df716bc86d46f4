import Mathlib.Data.Rat.Defs
import Mathlib.Algebra.Order.Ring.Rat
import Mathlib.Data.List.Lex
import Mathlib.Tactic.NormNum

/-!
# Files of section coordinates

Model of `trunk/SUAVE/Methods/Geometry/Two_Dimensional/Cross_Section/Airfoil/import_airfoil_geometry.py` lines 50-165 and
204-226.  A file is the list of its lines, a line the list of its characters; numbers are exact decimals (rationals), `none`
stands for an exception.
-/

namespace Verif.Airfoil

/-- Value of a word of digits. -/
def digitsVal (w : List Char) : ℕ := w.foldl (fun a c => 10 * a + (c.toNat - 48)) 0

/-- Unsigned decimal with or without a point. -/
def parseUnsigned (w : List Char) : Option ℚ :=
  let a := w.takeWhile (· ≠ '.')
  let b := (w.dropWhile (· ≠ '.')).drop 1
  if (a ++ b) ≠ [] ∧ (a ++ b).all Char.isDigit then some (digitsVal (a ++ b) / 10 ^ b.length) else none

/-- Sign and unsigned decimal. -/
def parseFixed : List Char → Option ℚ
  | '-' :: w => (parseUnsigned w).map (- ·)
  | '+' :: w => parseUnsigned w
  | w => parseUnsigned w

/-- Exponent after the letter `e`. -/
def parseExp : List Char → Option ℤ
  | '-' :: w => if w ≠ [] ∧ w.all Char.isDigit then some (-(digitsVal w : ℤ)) else none
  | '+' :: w => if w ≠ [] ∧ w.all Char.isDigit then some (digitsVal w : ℤ) else none
  | w => if w ≠ [] ∧ w.all Char.isDigit then some (digitsVal w : ℤ) else none

/-- Python's `float` on a word without blanks (`inf`, `nan` and underscores are left out). -/
def parseFloat (w : List Char) : Option ℚ :=
  let isE := fun c : Char => c = 'e' ∨ c = 'E'
  match w.dropWhile (fun c => !isE c) with
  | [] => parseFixed w
  | _ :: e => (parseFixed (w.takeWhile fun c => !isE c)).bind fun m => (parseExp e).map fun k => m * (10 : ℚ) ^ k

/-- White space. -/
def isBlank (c : Char) : Bool := c = ' ' || c = '\t' || c = '\n' || c = '\r'

/-- `line.strip().split()`. -/
def words (l : List Char) : List (List Char) := (l.splitOnP isBlank).filter (· ≠ [])

/-- `line.strip().replace(',','').split()` (lines 119, 122). -/
def bareWords (l : List Char) : List (List Char) := words (l.filter (· ≠ ','))

/-- Order of words as Python compares strings. -/
def wordLt (a b : List Char) : Prop := a.map Char.toNat < b.map Char.toNat

instance (a b : List Char) : Decidable (wordLt a b) := by unfold wordLt; infer_instance

/-- A point read from the words of a line (lines 100-104, 122-136). -/
def pointOf : List (List Char) → Option (ℚ × ℚ)
  | a :: b :: _ => (parseFloat a).bind fun x => (parseFloat b).map fun y => (x, y)
  | _ => none

/-- Points of the upper and of the lower surface, from the leading edge on. -/
abbrev Surfaces := List (ℚ × ℚ) × List (ℚ × ℚ)

/-- Loop of the format with one block per surface (lines 92-104); `up` is the flag. -/
def readBlocks : Bool → List (List Char) → Option Surfaces
  | _, [] => some ([], [])
  | up, l :: rest =>
    if words l = [] then readBlocks false rest
    else (pointOf (words l)).bind fun q => (readBlocks up rest).map fun s =>
      if up then (q :: s.1, s.2) else (s.1, q :: s.2)

/-- Loop of the format that runs round the section (lines 113-145): the upper points are returned in the order of the file.
A line without words raises an `IndexError` (line 121), as does the end of the file before the surface has changed (line 141). -/
def readRound : Bool → List (List Char) → Option Surfaces
  | _, [] => some ([], [])
  | up, l :: rest =>
    (bareWords l).head?.bind fun w => (parseFloat w).bind fun x => (pointOf (bareWords l)).bind fun q =>
      if x = 0 then (readRound false rest).map fun s => (q :: s.1, q :: s.2)
      else if up then
        rest.head?.bind fun nl => (bareWords nl).head?.bind fun nw =>
          if wordLt w nw then (parseFloat nw).bind fun nx =>
            (readRound (decide (¬ 0 < nx)) rest).map fun s => (q :: s.1, s.2)
          else (readRound true rest).map fun s => (q :: s.1, s.2)
      else (readRound false rest).map fun s => (s.1, q :: s.2)

/-- First number of the second line (lines 68-71): blanks or else commas separate. -/
def formatFlag (l : List Char) : Option ℚ :=
  match (words l).head?.bind parseFloat with
  | some v => some v
  | none => ((l.filter fun c => !isBlank c).splitOnP (· = ',')).head?.bind parseFloat

/-- Lines 57-152: the format is chosen by the first character of the file and the first number of its second line.  A first
character that is a digit other than one leaves the format unset, which raises an exception at line 85. -/
def readSection (file : List (List Char)) : Option Surfaces :=
  let round := fun d => (readRound true d).map fun s => (s.1.reverse, s.2)
  match file.head?.bind (fun l => l.head?.bind fun c => parseFloat [c]) with
  | some v => if v = 1 then round file else none
  | none => file[1]?.bind fun l => (formatFlag l).bind fun flag =>
      if 1.01 < flag then readBlocks true (file.drop 3) else round (file.drop 1)

/-- Lines 160-164: when a station of the upper surface occurs twice the first point of both surfaces is dropped. -/
def dropDouble (s : Surfaces) : Surfaces := if (s.1.map Prod.fst).Nodup then s else (s.1.tail, s.2.tail)

/-- Lines 204-223 when both surfaces have as many points as are asked for, so that the interpolation by index returns the points
themselves: the thicknesses pair the points by index. -/
def thicknesses (s : Surfaces) : List ℚ := List.zipWith (fun a b => a.2 - b.2) s.1 s.2

end Verif.Airfoil
