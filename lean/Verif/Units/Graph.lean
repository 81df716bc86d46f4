import Mathlib.Data.Finset.Union
import Mathlib.Data.Fintype.Card

/-!
# Dependency layers and path search of the units registry

Models of `solve_dependencies` and `find_shortest_path` in `trunk/SUAVE/Plugins/pint/util.py`.
-/

namespace Verif.Units

variable {α : Type} [DecidableEq α]

/-- A dependency dictionary: its keys and the set of dependencies of each key.  (`dep` is only
looked at on the keys.) -/
structure Deps (α : Type) where
  keys : Finset α
  dep : α → Finset α

/-- The layer computed in one pass (`util.py` 265-267): values which are not keys, and keys without
dependencies. -/
def layer (d : Deps α) : Finset α := (d.keys.biUnion d.dep \ d.keys) ∪ d.keys.filter fun k => d.dep k = ∅

/-- The dictionary after one pass (271): keys without dependencies dropped, the layer removed from
the values. -/
def next (d : Deps α) : Deps α := ⟨d.keys.filter fun k => d.dep k ≠ ∅, fun k => d.dep k \ layer d⟩

/-- `solve_dependencies` (254-272), given up after `n` passes of the loop (`none`). -/
def solve : ℕ → Deps α → Option (List (Finset α))
  | 0, d => if d.keys = ∅ then some [] else none
  | n + 1, d => if d.keys = ∅ then some [] else (solve n (next d)).map (layer d :: ·)

/-- The successors of a node: none if the node is not in the dictionary. -/
def succs (g : α → Option (List α)) (a : α) : List α := (g a).getD []

/-- One turn of the loop over the neighbours (283-288): `newpath` is the result of the recursive
call. -/
def better (shortest newpath : Option (List α)) : Option (List α) :=
  match newpath with
  | none => shortest
  | some p =>
    match shortest with
    | none => some p
    | some s => if p.length < s.length then some p else some s

/-- `find_shortest_path` (276-289).  The counter bounds the depth of the recursion; since paths do
not repeat nodes, one more than the number of nodes is never used up. -/
def search (g : α → Option (List α)) (e : α) : ℕ → α → List α → Option (List α)
  | 0, _, _ => none
  | n + 1, s, path =>
    let path := path ++ [s]
    if s = e then some path
    else
      match g s with
      | none => none
      | some nodes => nodes.foldl (fun shortest node => if node ∈ path then shortest else better shortest (search g e n node path)) none

/-- The call with the default `path=[]`. -/
def findShortestPath [Fintype α] (g : α → Option (List α)) (s e : α) : Option (List α) :=
  search g e (Fintype.card α + 1) s []

end Verif.Units
