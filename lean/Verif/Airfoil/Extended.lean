import Mathlib.Data.Real.Basic
import Mathlib.Algebra.Order.Group.Abs

/-!
# Extended polars of an airfoil

Model of the measured part of the extended polars:
`trunk/SUAVE/Methods/Geometry/Two_Dimensional/Cross_Section/Airfoil/compute_airfoil_properties.py`,
`compute_extended_polars` 160-188 and `apply_pre_stall_data` 251-264.  Arrays are functions of the index
with a length, real numbers stand for floats, `none` for exceptions.  The AERODAS coefficients are given;
they are modelled in `Verif.Aero.Aerodas`.  All angles are in degrees.
-/

namespace Verif.Airfoil.Extended

/-- Index of the smallest positive lift coefficient, the first one (160-161); `none` for `min` of an
empty array. -/
noncomputable def minPos (cl : ℕ → ℝ) : ℕ → Option ℕ
  | 0 => none
  | m + 1 =>
    match minPos cl m with
    | none => if 0 < cl m then some m else none
    | some i => if 0 < cl m ∧ cl m < cl i then some m else some i

/-- `np.interp(0, [x0, x1], [y0, y1])` for `0 < x1` (165). -/
noncomputable def interpZero (x0 x1 y0 y1 : ℝ) : ℝ := if 0 < x0 then y0 else (y1 - y0) / (x1 - x0) * (0 - x0) + y0

/-- `A0` (160-167): for index 0 the slices are empty, `np.interp` raises and the angle itself is taken. -/
noncomputable def zeroLift (aoa cl : ℕ → ℝ) (m : ℕ) : Option ℝ :=
  (minPos cl m).map fun i => if i = 0 then aoa 0 else interpZero (cl (i - 1)) (cl i) (aoa (i - 1)) (aoa i)

/-- `np.where(f == v)[0][0]`; `none` for the index error. -/
noncomputable def firstIdx (f : ℕ → ℝ) (v : ℝ) : ℕ → Option ℕ
  | 0 => none
  | n + 1 =>
    match firstIdx f v n with
    | some i => some i
    | none => if f n = v then some n else none

/-- `np.where(f == v)[0][-1]`. -/
noncomputable def lastIdx (f : ℕ → ℝ) (v : ℝ) : ℕ → Option ℕ
  | 0 => none
  | n + 1 => if f n = v then some n else lastIdx f v n

/-- Lift curve slope between 0 and 4 degrees (175-178), per degree; `int` of an empty array or of more
than one number raises. -/
noncomputable def slope (aoa cl : ℕ → ℝ) (m : ℕ) : Option ℝ := do
  let i ← firstIdx aoa 0 m
  let i' ← lastIdx aoa 0 m
  let j ← firstIdx aoa 4 m
  let j' ← lastIdx aoa 4 m
  if i = i' ∧ j = j' then pure ((cl j - cl i) / (aoa j - aoa i)) else none

/-- `abs(x - airfoil_aoa).argmin()` (255). -/
noncomputable def nearestIdx (x : ℝ) (aoa : ℕ → ℝ) : ℕ → ℕ
  | 0 => 0
  | m + 1 => if m = 0 then 0 else if |x - aoa m| < |x - aoa (nearestIdx x aoa m)| then m else nearestIdx x aoa m

/-- `apply_pre_stall_data` (251-264): `n` angles `s` of the sweep, `m` angles of the data. -/
noncomputable def applyData (n : ℕ) (s : ℕ → ℝ) (m : ℕ) (aoa cl cd CL CD : ℕ → ℝ) : Option ((ℕ → ℝ) × (ℕ → ℝ)) :=
  let CL1 := fun i => if aoa 0 ≤ s i ∧ s i ≤ aoa (m - 1) then cl (nearestIdx (s i) aoa m) else CL i
  let CD1 := fun i => if aoa 0 ≤ s i ∧ s i ≤ aoa (m - 1) then cd (nearestIdx (s i) aoa m) else CD i
  match firstIdx CD1 (cd 0) n, lastIdx CD1 (cd (m - 1)) n with
  | some lb, some ub =>
    let CD2 := fun i => if i < lb then max (CD1 i) (CD1 lb) else CD1 i
    some (CL1, fun i => if ub ≤ i then max (CD2 i) (CD2 ub) else CD2 i)
  | _, _ => none

end Verif.Airfoil.Extended
