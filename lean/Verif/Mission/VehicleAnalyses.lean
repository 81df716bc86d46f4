import Mathlib.Tactic.Common

/-!
# The analyses of a vehicle

`Analyses/Vehicle.py`: a container with one entry for each kind of analysis (49-57), `append` (59-80), `get_root` (119-147), and
`extend` (`Core/Container.py` 118-141), which for another such container is `Data.update` (`Core/Data.py` 436-447).
-/

namespace Verif.Mission.Analyses

/-- The entries, in the order of the table (108-116). -/
inductive Kind where
  | sizing | weights | aerodynamics | stability | energy | atmosphere | planet | noise | costs
  deriving DecidableEq

/-- The table (107-117). -/
def kinds : List Kind := [.sizing, .weights, .aerodynamics, .stability, .energy, .atmosphere, .planet, .noise, .costs]

/-- Classes: the base class of a kind (the `class X(Analysis)` of the nine packages), a class derived from another one (such as
`Markup`, `Fidelity_Zero`, `Weights_UAV` or a class of the user), and any class outside of these. -/
inductive Cls where
  | base (k : Kind)
  | derived (name : String) (parent : Cls)
  | foreign (name : String)

/-- `isinstance` of an object of the class `c` with the base class of `k`. -/
def Cls.isinst : Cls → Kind → Bool
  | .base j, k => j = k
  | .derived _ p, k => p.isinst k
  | .foreign _, _ => false

/-- `get_root` (141-147): the first kind of the table, or an exception. -/
def getRoot (c : Cls) : Option Kind := kinds.find? fun k => c.isinst k

/-- An analysis: its class and its contents. -/
structure Obj (F : Type) where
  cls : Cls
  fields : F

/-- The container; `none` is python's `None`. -/
abbrev Slots (F : Type) := Kind → Option (Obj F)

/-- A new container (49-57). -/
def Slots.empty {F : Type} : Slots F := fun _ => none

/-- `append` (78-80). -/
def Slots.append {F : Type} (s : Slots F) (a : Obj F) : Option (Slots F) :=
  (getRoot a.cls).map fun k => Function.update s k (some a)

/-- Several calls of `append`; the first exception ends them. -/
def Slots.appends {F : Type} (s : Slots F) : List (Obj F) → Option (Slots F)
  | [] => some s
  | a :: as => (s.append a).bind fun t => t.appends as

/-- `extend` with another container (Core/Container.py 138-139, Core/Data.py 438-446): where both have an analysis, the contents of
the other are merged into the present one; in all other cases, as the `update` of line 444 fails, the entry is replaced, also by `None`. -/
def Slots.extend {F : Type} (merge : F → F → F) (s o : Slots F) : Slots F := fun k =>
  match s k, o k with
  | some a, some b => some { a with fields := merge a.fields b.fields }
  | _, v => v

end Verif.Mission.Analyses
