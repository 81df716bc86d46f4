import Mathlib.Analysis.SpecialFunctions.Pow.Real

/-!
Heights of the webs in the sections of wings and rotor blades.

Source: trunk/SUAVE/Methods/Weights/Buildups/Common/wing.py 194-200, 211, 305-310; prop.py 186-192, 199, 251-254.

Simplifications: numbers are real. Rounding of the webs (`round(… ,2)`) is any function `rnd`. The stations along the chord
(`np.unique`) are a list in increasing order that begins at the nose. `np.interp` is its C code (binary_search_with_guess): beyond the
last abscissa the last value, before the first the first value, and only then a search, which is linear here.
-/

namespace Verif.Weights.WebHeight

/-- Half thickness of the section (wing.py 194-197; prop.py 186-189). -/
noncomputable def half (toc c : ℝ) : ℝ :=
  5 * toc * 0.2969 * √c + 5 * toc * -0.1260 * c + 5 * toc * -0.3516 * c ^ 2 + 5 * toc * 0.2843 * c ^ 3 + 5 * toc * -0.1015 * c ^ 4

/-- Outline (wing.py 198-200; prop.py 190-192): the upper side from the rear to the nose, which is left out, then the lower side back. -/
noncomputable def outline (y : ℝ → ℝ) (xs : ℝ) (cs : List ℝ) : List (ℝ × ℝ) :=
  (cs.drop 1).reverse.map (fun c => (c - xs, y c)) ++ cs.map fun c => (c - xs, -y c)

open Classical in
/-- The search of `np.interp` between its first and last abscissa. -/
noncomputable def scan (x : ℝ) : List (ℝ × ℝ) → Option ℝ
  | [] => none
  | [p] => some p.2
  | p :: q :: r => if x < q.1 then some (p.2 + (q.2 - p.2) / (q.1 - p.1) * (x - p.1)) else scan x (q :: r)

open Classical in
/-- `np.interp(x, xp, fp)`; `none` for empty arrays. -/
noncomputable def interp (x : ℝ) (l : List (ℝ × ℝ)) : Option ℝ :=
  match l.head?, l.getLast? with
  | some a, some b => if b.1 < x then some b.2 else if x < a.1 then some a.2 else scan x l
  | _, _ => none

open Classical in
/-- Height of the web of a wing (wing.py 305-310): `r₀`, `r₁` are the forward webs after rounding. -/
noncomputable def wingHeight (y : ℝ → ℝ) (xs : ℝ) (cs : List ℝ) (r₀ r₁ chord : ℝ) : Option ℝ :=
  let box := (outline y xs cs).filter fun p => p.1 ≤ r₁
  match interp r₀ (box.filter fun p => 0 < p.2), interp r₀ (box.filter fun p => p.2 < 0) with
  | some a, some b => some |a * chord - b * chord|
  | _, _ => none

open Classical in
/-- Height of the web of a blade (prop.py 251-254); `none` for the `IndexError`. -/
noncomputable def bladeHeight (y : ℝ → ℝ) (xs : ℝ) (cs : List ℝ) (r₀ r₁ chord : ℝ) : Option ℝ :=
  let box := (outline y xs cs).filter fun p => p.1 ≤ r₁
  match (box.filter fun p => p.1 = r₀).map fun p => p.2 * chord with
  | a :: b :: _ => some |a - b|
  | _ => none

end Verif.Weights.WebHeight
