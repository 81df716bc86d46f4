import Mathlib.Data.EReal.Basic
import Mathlib.Algebra.Order.Field.Basic

/-!
The problem posed to SNOPT by the two multifidelity set-ups.

Source: trunk/SUAVE/Optimization/Package_Setups/additive_setup.py, `scale_vals` (599-630) and `initialize_opt_vals` (662-678);
trunk/SUAVE/Optimization/Package_Setups/TRMM/Trust_Region_Optimization.py, `scale_vals` (636-669) and the calls in `optimize` (195-205).

Simplifications: a constraint of pyOpt is its name and the interval of its values; the edges are scaled before
(C290).  The value of a variable to begin with is not modelled.
-/

namespace Verif.Optim.Snopt

/-- The relation in a row of the table of constraints; `other` is any text that is not compared with. -/
inductive Relation
  | below | above | equal | other
  deriving DecidableEq

/-- A row of the table: tag, relation and scaled edge. -/
structure Constraint where
  tag : String
  rel : Relation
  edge : ℝ

/-- `con_up_edge` (613-623; 652-662): nothing is appended for a relation that is not known. -/
noncomputable def upEdges (rows : List Constraint) : List EReal := rows.filterMap fun r =>
  match r.rel with
  | .below => some (r.edge : EReal)
  | .above => some ⊤
  | .equal => some (r.edge : EReal)
  | .other => none

/-- `con_low_edge`. -/
noncomputable def lowEdges (rows : List Constraint) : List EReal := rows.filterMap fun r =>
  match r.rel with
  | .below => some ⊥
  | .above => some (r.edge : EReal)
  | .equal => some (r.edge : EReal)
  | .other => none

/-- A constraint of pyOpt: name, smallest and largest value. -/
structure Posed where
  name : String
  low : EReal
  high : EReal

/-- `addCon` for row number `i` (671-676; 200-205): `none` is an index error, `some none` no constraint. -/
noncomputable def poseOne (names : List String) (up low : List EReal) (i : ℕ) (r : Constraint) : Option (Option Posed) :=
  match r.rel with
  | .below => do some (some ⟨← names[i]?, ⊥, ← up[i]?⟩)
  | .above => do some (some ⟨← names[i]?, ← low[i]?, ⊤⟩)
  | .equal => do let e ← up[i]?; some (some ⟨← names[i]?, e, e⟩)
  | .other => some none

/-- The loop over the rows. -/
noncomputable def poseFrom (names : List String) (up low : List EReal) : ℕ → List Constraint → Option (List Posed)
  | _, [] => some []
  | i, r :: rs => do
    let p ← poseOne names up low i r
    let ps ← poseFrom names up low (i + 1) rs
    some (p.toList ++ ps)

/-- The trust region names constraints by their tags (`name .append(con[ii][0])`, 651). -/
noncomputable def trustRegion (rows : List Constraint) : Option (List Posed) :=
  poseFrom (rows.map Constraint.tag) (upEdges rows) (lowEdges rows) 0 rows

/-- The additive set-up passes the names of the variables (`nam = inp[:,0]`, 88 and 135). -/
noncomputable def additive (vars : List String) (rows : List Constraint) : Option (List Posed) :=
  poseFrom vars (upEdges rows) (lowEdges rows) 0 rows

/-- Bounds of a variable (609-611) over its scale. -/
noncomputable def varBounds (bnd : ℝ × ℝ) (scl : ℝ) : ℝ × ℝ := (bnd.1 / scl, bnd.2 / scl)

end Verif.Optim.Snopt
