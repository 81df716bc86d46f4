import Mathlib.Analysis.SpecialFunctions.Trigonometric.Arctan
import Mathlib.Algebra.BigOperators.Group.Finset.Basic
import Verif.Weights.Flops

/-!
# FLOPS wing, detailed method

Model of the stations, sweeps, loads and engines of the detailed wing weight of
`trunk/SUAVE/Methods/Weights/Correlations/FLOPS/wing.py` (103-188, 234-320, 377-435).  Real numbers stand
for floats.  Lengths are in feet.  The interpolation of chord and thickness between stations and the
segments made up for a wing without any are not modelled.
-/

namespace Verif.Weights.FlopsWing

open Verif.Weights

/-- A segment: station as a fraction of the semispan, fraction of the root chord, quarter chord sweep
and thickness if it has one (`hasattr` in 300, 307, 314). -/
structure Seg where
  eta : ℝ
  frac : ℝ
  sweep : ℝ
  tc : Option ℝ

/-- `ETA` (296, 304, 312). -/
noncomputable def etas (semispan width : ℝ) (s0 : Seg) (rest : List Seg) : List ℝ :=
  s0.eta :: width / 2 * 1 / semispan :: rest.map Seg.eta

/-- `C` (297, 305, 313); the chord at the fuselage is `determine_fuselage_chord` of the first two
segments. -/
noncomputable def chords (fuse root semispan : ℝ) (s0 : Seg) (rest : List Seg) : List ℝ :=
  root * s0.frac * 1 / semispan :: fuse * 1 / semispan :: rest.map fun s => root * s.frac * 1 / semispan

/-- `T` (300-303, 307-310, 314-317); `wingTc` is `wing.thickness_to_chord`. -/
noncomputable def thicknesses (wingTc : ℝ) (s0 : Seg) (rest : List Seg) : List ℝ :=
  s0.tc.getD wingTc :: s0.tc.getD wingTc :: rest.map fun s => s.tc.getD wingTc

/-- `SWP` (298, 318, 319) for the segments `segs` and the chords `C`. -/
noncomputable def sweeps (segs : List Seg) (C : List ℝ) : List ℝ :=
  let at' := fun i : ℕ => Real.arctan (Real.tan ((segs.map Seg.sweep).getD (i - 1) 0) - (C.getD (i - 1) 0 - C.getD i 0))
  0 :: ((List.range (segs.length - 1)).map fun i => at' (i + 1)) ++
    [Real.arctan (Real.tan ((segs.map Seg.sweep).getD (segs.length - 2) 0) -
      (C.getD (segs.length - 1) 0 - C.getD segs.length 0))]

open Classical in
/-- `find_sweep` (398-405) at one station. -/
noncomputable def findSweep (y : ℝ) (lst swp : List ℝ) : ℝ :=
  (List.range (lst.length - 1)).foldl (fun acc i => if lst.getD i 0 ≤ y then swp.getD i 0 else acc) (swp.getD 0 0)

/-- An engine: whether it is mounted on the wing and its lateral position. -/
structure Engine where
  mounted : Bool
  y : ℝ

open Classical in
/-- `get_spanwise_engine` (428-435): `N2` places are filled in order; `none` for the index error when
there are more engines than places; places left over stay zero. -/
noncomputable def spanwiseEngines (semispan : ℝ) (es : List Engine) : Option (List ℝ) :=
  let n2 := (es.filter fun e => e.mounted).length / 2
  let right := (es.filter fun e => e.mounted && decide (0 < e.y)).map fun e => e.y * 1 / semispan
  if n2 < right.length then none else some (right ++ List.replicate (n2 - right.length) 0)

/-- `DELP` (143) of a panel. -/
noncomputable def delp (dy c0 c1 p0 p1 : ℝ) : ℝ := dy / 6 * (c0 * (2 * p0 + p1) + c1 * (2 * p1 + p0))

/-- `DELM` (144) of a panel. -/
noncomputable def delm (dy c0 c1 p0 p1 : ℝ) : ℝ := dy ^ 2 * (c0 * (3 * p0 + p1) + c1 * (p1 + p0)) / 12

/-- `EL` (147-148). -/
noncomputable def el (DELP : ℕ → ℝ) (k : ℕ) : ℝ := ∑ j ∈ Finset.range k, DELP j

/-- `EM` (151); `cosS` is `np.cos(SWP1)`. -/
noncomputable def em (DELM DELP DY cosS : ℕ → ℝ) (k : ℕ) : ℝ :=
  ∑ j ∈ Finset.range (k + 1), (DELM j + DY j * el DELP j) * 1 / cosS j

open Classical in
/-- `np.argmin(distances)` after the negative ones became infinite (173-176), over the first `M`
stations: the index and the distance; `none` if all are infinite (then `argmin` is 0 and the distance is
infinite). -/
noncomputable def nearest (e : ℝ) (Y : ℕ → ℝ) : ℕ → Option (ℕ × ℝ)
  | 0 => none
  | M + 1 =>
    match nearest e Y M with
    | none => if e - Y M < 0 then none else some (M, e - Y M)
    | some (i, x) => if e - Y M < 0 then some (i, x) else if e - Y M < x then some (M, e - Y M) else some (i, x)

/-- `DELM2` (167-180) at station `j` for the engines `es` and `M` stations; `none` if an engine has no
station inboard of it (an infinite distance). -/
noncomputable def delm2 (es : List ℝ) (Y DY : ℕ → ℝ) (M j : ℕ) : Option ℝ := do
  let locs ← es.mapM fun e => nearest e Y M
  let own := (locs.map fun p => if p.1 = j then p.2 else 0).sum
  let eel := (locs.map fun p => if p.1 < j then (1 : ℝ) else 0).sum
  pure (own + eel * DY j)

/-- `EEM` (182) at station `k`. -/
noncomputable def eem (es : List ℝ) (Y DY cosS : ℕ → ℝ) (M k : ℕ) : Option ℝ := do
  let xs ← (List.range (k + 1)).mapM fun j => (delm2 es Y DY M j).map (· / cosS j)
  pure xs.sum

end Verif.Weights.FlopsWing
