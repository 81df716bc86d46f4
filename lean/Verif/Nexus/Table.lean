import Mathlib.Algebra.Order.Field.Basic
import Mathlib.Algebra.Order.Ring.Rat
import Mathlib.Data.Rat.Defs
import Verif.Core.Model
/-
Model of the table arithmetic of the optimization framework
(trunk/SUAVE/Optimization/helper_functions.py and the constraint and gradient methods of
trunk/SUAVE/Optimization/Nexus.py).

Simplifications
* Numbers are elements of a linearly ordered field `K` (no rounding, NaN or inf).
* An input table row is `[name, value, lower, upper, scale, units]`, a constraint row
  `[name, sense, bound, scale, units]`, an objective row `[name, scale, units]`: the columns
  the code addresses by 0,1,2,3,-2,-1.
-/

namespace Verif.Nexus
open Verif.Core (Key Err)

variable {K : Type} [Field K] [LinearOrder K]

/-- A row of `optimization_problem.inputs`. -/
structure InRow (K : Type) where
  name : Key
  value : K
  lower : K
  upper : K
  scale : K
  units : K
deriving DecidableEq

/-- `scale_input_values` (helper_functions.py:124-147): column 1 becomes `x*scale`.  NumPy
broadcasts an `x` of length one and raises ValueError on any other length mismatch. -/
def scaleInputs (rows : List (InRow K)) (x : List K) : Except Err (List (InRow K)) :=
  if x.length = rows.length then
    .ok (List.zipWith (fun r v => { r with value := v * r.scale }) rows x)
  else match x with
    | [v] => .ok (rows.map fun r => { r with value := v * r.scale })
    | _ => .error .valueError

/-- `limit_input_values` on one row (helper_functions.py:149-180): first the lower bound is
imposed (174), then the upper one on the result (177). -/
def limitRow (r : InRow K) : InRow K :=
  let v := if r.value < r.lower then r.lower else r.value
  let w := if v > r.upper then r.upper else v
  { r with value := w }

/-- `unpack_inputs` up to the conversion (Nexus.py:315-324): the new table. -/
def unpackTable (hard : Bool) (x : Option (List K)) (rows : List (InRow K)) :
    Except Err (List (InRow K)) := do
  let rows ← match x with
    | some x => scaleInputs rows x
    | none => pure rows
  pure (if hard then rows.map limitRow else rows)

/-- `convert_values` (helper_functions.py:184-211): what is written to the vehicle. -/
def convertValues (rows : List (InRow K)) : List K := rows.map fun r => r.value * r.units

/-- The comparison symbol of a constraint row. -/
inductive Sense where
  | lt | gt | eq | other
deriving DecidableEq

/-- A row of `optimization_problem.constraints`. -/
structure ConRow (K : Type) where
  name : Key
  sense : Sense
  bound : K
  scale : K
  units : K

/-- `scale_const_values` (helper_functions.py:293-316) on one row. -/
def scaleConst (r : ConRow K) (x : K) : K := x / r.scale

/-- `scale_const_bnds` (helper_functions.py:319-346) on one row; the scale is not used. -/
def scaleBound (r : ConRow K) : K := r.bound * r.units

/-- `unscale_const_values` (helper_functions.py:349-373) on one row. -/
def unscaleConst (r : ConRow K) (x : K) : K := x * r.scale / r.units

/-- `inequality_constraint` (Nexus.py:196-222): rows whose sense is not '=' (198-201),
scaled value minus bound (217), negated for '<' (220).  `val r` is the value `get_values`
reads for the row. -/
def inequality (rows : List (ConRow K)) (val : ConRow K → K) : List K :=
  (rows.filter fun r => r.sense ≠ .eq).map fun r =>
    let e := scaleConst r (val r) - scaleBound r
    if r.sense = .lt then -e else e

/-- `equality_constraint` (Nexus.py:248-263). -/
def equality (rows : List (ConRow K)) (val : ConRow K → K) : List K :=
  (rows.filter fun r => ¬ (r.sense = .gt ∨ r.sense = .lt)).map fun r =>
    scaleConst r (val r) - scaleBound r

/-- `all_constraints` (Nexus.py:286-292). -/
def allConstraints (rows : List (ConRow K)) (val : ConRow K → K) : List K :=
  rows.map fun r => scaleConst r (val r)

/-- A row of `optimization_problem.objective`. -/
structure ObjRow (K : Type) where
  name : Key
  scale : K
  units : K

/-- `scale_obj_values` (helper_functions.py:264-290) on one row. -/
def scaleObj (r : ObjRow K) (x : K) : K := x / (r.scale * r.units)

/-- `unscale_const_values` applied to the objective table, as `translate` does
(Nexus.py:433-435): columns -1 and -2 of an objective row are units and scale. -/
def unscaleObj (r : ObjRow K) (x : K) : K := x * r.scale / r.units

/-- `finite_difference` (Nexus.py:352-401), objective part: the i-th entry uses a copy of
`x` with `diff_interval` added at i (387-391), then the base value is subtracted and the
result divided by the interval (394).  The vector length is the number of input rows. -/
def fdGrad {n : Nat} (obj : (Fin n → K) → K) (x : Fin n → K) (h : K) : Fin n → K :=
  fun i => (obj (Function.update x i (x i + h)) - obj x) / h

/-- `finite_difference`, constraint part (383-385, 392, 396): rows of the work array are
variables, the result is transposed. -/
def fdJac {n m : Nat} (con : (Fin n → K) → (Fin m → K)) (x : Fin n → K) (h : K) :
    Fin m → Fin n → K :=
  let jac : Fin n → Fin m → K := fun i => con (Function.update x i (x i + h))
  let con2 : Fin n → Fin m → K := fun _ => con x
  fun c i => (jac i c - con2 i c) / h

end Verif.Nexus
