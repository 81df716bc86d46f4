import Mathlib.Analysis.SpecialFunctions.Pow.Real
import Mathlib.Analysis.Real.Sqrt

/-!
# NACA four-digit sections

Model of `trunk/SUAVE/Methods/Geometry/Two_Dimensional/Cross_Section/Airfoil/compute_naca_4series.py` and of its call in
`compute_airfoil_properties.py` lines 287-290.  Real numbers stand for floats, `none` for exceptions.
-/

namespace Verif.Airfoil
open Real

/-- `np.linspace(0,1,k)`. -/
noncomputable def unitStations (k : ℕ) : List ℝ := (List.range k).map fun i : ℕ => (i : ℝ) / ((k - 1 : ℕ) : ℝ)

/-- Lines 50-53: the stations gathered at the edges, `te` being the resolution factor. -/
noncomputable def stretch (te : Option ℝ) (s : ℝ) : ℝ :=
  match te with
  | none => s
  | some t => 1 - (t + 1) * s * (1 - s) ^ t - (1 - s) ^ (t + 1)

/-- Half thickness for the thickness ratio `τ` (lines 56-59). -/
noncomputable def halfThickness (τ x : ℝ) : ℝ :=
  (0.2969 * sqrt x - 0.126 * x - 0.3516 * x ^ 2 + 0.2843 * x ^ 3 - 0.1015 * x ^ 4) * τ / 0.2

open Classical in
/-- Camber line (lines 60-71) for height `m` and place `p`. -/
noncomputable def camberLine (m p x : ℝ) : ℝ :=
  if m = 0 ∧ p = 0 then m / (1 - p) ^ 2 * ((1 - 2 * p) + 2 * p * x - x ^ 2)
  else if x < p then m / p ^ 2 * (2 * p * x - x ^ 2)
  else m / (1 - p) ^ 2 * ((1 - 2 * p) + 2 * p * x - x ^ 2)

/-- What the function returns (lines 86-94). -/
structure Section where
  maxThickness : ℝ
  x : List ℝ
  y : List ℝ
  xUpper : List ℝ
  xLower : List ℝ
  yUpper : List ℝ
  yLower : List ℝ

/-- Number of stations of the upper and lower surface (lines 48-49). -/
def upperCount (n : ℕ) : ℕ := (n + 1) / 2 + (if n % 2 = 0 then 1 else 0)
/-- See `upperCount`. -/
def lowerCount (n : ℕ) : ℕ := (n + 1) / 2

open Classical in
/-- `compute_naca_4series` (lines 41-96) for the integers read from the name; fewer than four raise an `IndexError`, a camber
with its place at the leading edge a `ZeroDivisionError` (line 70), as does a place at the trailing edge (line 62). -/
noncomputable def naca (digits : List ℕ) (n : ℕ) (te : Option ℝ) : Option Section :=
  match digits with
  | d0 :: d1 :: d2 :: d3 :: _ =>
    let m : ℝ := d0 / 100
    let p : ℝ := d1 / 10
    let τ : ℝ := d2 / 10 + d3 / 100
    if 1 - p = 0 then none
    else if ¬ (m = 0 ∧ p = 0) ∧ p = 0 then none
    else
      let xu := (unitStations (upperCount n)).map (stretch te)
      let xl := (unitStations (lowerCount n)).map (stretch te)
      let yu := xu.map fun x => camberLine m p x + halfThickness τ x
      let yl := xl.map fun x => camberLine m p x - halfThickness τ x
      some ⟨τ, xl.reverse ++ xu.tail, yl.reverse ++ yu.tail, xu, xl, 0 :: yu.tail, yl⟩
  | _ => none

/-- `int` of a word of decimal digits; `none` for the `ValueError` (signs, blanks and underscores are left out). -/
def wordInt (w : List Char) : Option ℕ :=
  if w ≠ [] ∧ w.all Char.isDigit then some (w.foldl (fun a c => 10 * a + (c.toNat - 48)) 0) else none

/-- `[int(x) for x in airfoil_geometry_file]` (line 43) for an argument whose items are the given words. -/
def itemDigits (items : List (List Char)) : Option (List ℕ) := items.mapM wordInt

/-- Items of a string: its characters. -/
def stringItems (s : List Char) : List (List Char) := s.map fun c => [c]

/-- The section used when none is given (`compute_airfoil_properties.py` lines 287-290): the name is handed over inside a list. -/
noncomputable def defaultSection : Option Section := (itemDigits [['0', '0', '1', '2']]).bind fun d => naca d 100 (some 1.5)

end Verif.Airfoil
