import Mathlib.Analysis.SpecialFunctions.Trigonometric.Basic
import Mathlib.Algebra.BigOperators.Fin
/-
Model of the lifting line method (trunk/SUAVE/Methods/Aerodynamics/Lifting_Line/Lifting_Line.py) and
of the analysis around it (trunk/SUAVE/Analyses/Aerodynamics/Lifting_Line.py).

Simplifications
* Exact real arithmetic, one angle of attack at a time (the code repeats the system for each).
* `N` stations, `r = N+1` in the code; station and coefficient `i : Fin N` stand for number `i+1`.
* `np.linalg.solve` is an arbitrary vector that satisfies the equations; that there is exactly one is
  proved.
* `np.polyfit` is an arbitrary polynomial of the degree with the least sum of squares.
* The profile drag (lines 164-171) is zero in the code and left out.
-/

namespace Verif.Aero

open Finset

/-- `thetan` (line 86-88). -/
noncomputable def llTheta {N : Nat} (i : Fin N) : ℝ := ((i : ℝ) + 1) * Real.pi / ((N : ℝ) + 1)
/-- `etan` (lines 89-90) for span `b`. -/
noncomputable def llEta {N : Nat} (b : ℝ) (i : Fin N) : ℝ := |2 * (-b * Real.cos (llTheta i) / 2) / b|
/-- `etam` (line 91). -/
noncomputable def llEtam {N : Nat} (i : Fin N) : ℝ := Real.pi * Real.sin (llTheta i) / (2 * ((N : ℝ) + 1))

/-- What the function reads of a wing. -/
structure LLWing where
  span : ℝ
  aspect : ℝ
  taper : ℝ
  twistRoot : ℝ
  twistTip : ℝ
  chordRoot : ℝ
  chordTip : ℝ
  vertical : Bool

/-- Chord and geometric angle at `eta` of a wing without segments (lines 69-70, 129-130): the two
twists are read into each other's name. -/
def llPlain (w : LLWing) (eta : ℝ) : ℝ × ℝ :=
  let tip_twist := w.twistRoot
  let root_twist := w.twistTip
  (w.chordRoot + w.chordRoot * (w.taper - 1) * eta, (tip_twist - root_twist) * eta + root_twist)

/-- A wing segment: span location, chord over root chord, twist. -/
structure LLSeg where
  x : ℝ
  l : ℝ
  t : ℝ

open Classical in
/-- The loop over the segments (lines 100-120) for one station, from the root values of lines 98-99.
`none`: the key of a segment beyond the last is asked for.  A last segment at the tip has no
station beyond it. -/
noncomputable def llSegments (w : LLWing) (eta : ℝ) : List LLSeg → ℝ × ℝ → Option (ℝ × ℝ)
  | [], acc => some acc
  | [s], acc => if s.x = 1 then some acc else none
  | s :: s' :: rest, acc => llSegments w eta (s' :: rest)
      (if s.x < eta ∧ eta < s'.x then
        ((s.l + (eta - s.x) * (s'.l - s.l) / (s'.x - s.x)) * w.chordRoot, s.t + (eta - s.x) * (s'.t - s.t) / (s'.x - s.x))
       else acc)

/-- Chord and geometric angle (lines 97-130). -/
noncomputable def llGeometry (w : LLWing) (segs : List LLSeg) (eta : ℝ) : Option (ℝ × ℝ) :=
  if segs = [] then some (llPlain w eta) else llSegments w eta segs (w.chordRoot, w.twistRoot)

/-- `k` (line 132). -/
noncomputable def llK (b c : ℝ) : ℝ := c * (2 * Real.pi) / (4 * b)

/-- The equation of a station (lines 135-147), with zero lift angle zero. -/
def IsCirculation {N : Nat} (k ageo : Fin N → ℝ) (alpha : ℝ) (A : Fin N → ℝ) : Prop :=
  ∀ i, ∑ j : Fin N, Real.sin (((j : ℝ) + 1) * llTheta i) * (Real.sin (llTheta i) + ((j : ℝ) + 1) * k i) * A j
    = k i * Real.sin (llTheta i) * (alpha + ageo i - 0)

/-- `CL` (line 150) for the first coefficient. -/
noncomputable def llLift (aspect A1 : ℝ) : ℝ := A1 * Real.pi * aspect

/-- Running sum (`np.cumsum`). -/
def llCumsum {N : Nat} (f : Fin N → ℝ) (i : Fin N) : ℝ := ∑ j : Fin N, if j ≤ i then f j else 0

/-- `Cl` (line 153): products of the same number, running sum over the number. -/
noncomputable def llCl {N : Nat} (b : ℝ) (c A : Fin N → ℝ) (i : Fin N) : ℝ :=
  b * llCumsum (fun j => 4 * A j * Real.sin (((j : ℝ) + 1) * llTheta j)) i / c i
/-- `alpha_i` (line 156). -/
noncomputable def llAlphaI {N : Nat} (A : Fin N → ℝ) (i : Fin N) : ℝ :=
  llCumsum (fun j => ((j : ℝ) + 1) * A j * Real.sin (((j : ℝ) + 1) * A j) / Real.sin (llTheta j)) i
/-- `CDv` (lines 159-162). -/
noncomputable def llDrag {N : Nat} (b aspect : ℝ) (c A : Fin N → ℝ) : ℝ :=
  ∑ i, llCl b c A i * llAlphaI A i * aspect * llEtam i

/-- `lifting_line` for a wing without segments (lines 52-175): lift and drag for a solution `A`. -/
noncomputable def liftingLine {N : Nat} (w : LLWing) (A : Fin (N + 1) → ℝ) : ℝ × ℝ :=
  if w.vertical then (0, 0) else
    (llLift w.aspect (A 0), llDrag w.span w.aspect (fun i => (llPlain w (llEta w.span i)).1) A)

/-! ### The analysis -/

/-- `calculate_lift_lifting_line` (Analyses/…/Lifting_Line.py:324-339): coefficients and reference areas. -/
noncomputable def llTotal (sref : ℝ) (wings : List ((ℝ × ℝ) × ℝ)) : ℝ × ℝ :=
  wings.foldl (fun t w => (t.1 + w.1.1 * w.2 / sref, t.2 + w.1.2 * w.2 / sref)) (0, 0)

/-- `sample_training` for one angle (lines 210-227): `Data.fromkeys` gives all wings the same array, so
the entry is written once per wing and every wing reads the last. -/
noncomputable def llTrained (wings : List (String × ℝ)) (tag : String) : Option ℝ :=
  if tag ∈ wings.map Prod.fst then wings.foldl (fun _ w => some w.2) (some 0) else none

/-- Sum of squares of a fit. -/
def sumSq {m : Nat} (x y : Fin m → ℝ) (f : ℝ → ℝ) : ℝ := ∑ i, (f (x i) - y i) ^ 2

/-- `np.polyfit(x,y,1)`: a line of least squares. -/
def IsLineFit {m : Nat} (x y : Fin m → ℝ) (f : ℝ → ℝ) : Prop :=
  (∃ a b, ∀ t, f t = a * t + b) ∧ ∀ a b, sumSq x y f ≤ sumSq x y fun t => a * t + b
/-- `np.polyfit(x,y,2)`. -/
def IsQuadFit {m : Nat} (x y : Fin m → ℝ) (f : ℝ → ℝ) : Prop :=
  (∃ a b c, ∀ t, f t = a * t ^ 2 + b * t + c) ∧ ∀ a b c, sumSq x y f ≤ sumSq x y fun t => a * t ^ 2 + b * t + c

/-- `build_surrogate` for a wing (lines 283-284): lift and drag surrogates, both fitted to the lift
data. -/
def IsWingSurrogate {m : Nat} (x lift _drag : Fin m → ℝ) (cl cd : ℝ → ℝ) : Prop :=
  IsLineFit x lift cl ∧ IsQuadFit x lift cd

end Verif.Aero
