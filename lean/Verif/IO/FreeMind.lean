import Verif.Core.Model

/-!
# Mind maps

`trunk/SUAVE/Input_Output/FreeMind/save.py`.  The attributes other than `TEXT` are times of creation and are left out;
how the map is written as XML is in `Verif.IO.Xml`.
-/

namespace Verif.IO
open Verif.Core (Key)

mutual
/-- What `build_nodes` tells apart: dictionaries, lists and tuples, `None`, and anything else by its `str`. -/
inductive PyVal where
  | dict (kvs : PyItems)
  | list (xs : PyList)
  | none
  | atom (s : Key)
/-- The items of a dictionary in order. -/
inductive PyItems where
  | nil
  | cons (k : Key) (v : PyVal) (rest : PyItems)
/-- The members of a list. -/
inductive PyList where
  | nil
  | cons (v : PyVal) (rest : PyList)
end

mutual
/-- A node of the map: its text and the nodes below it. -/
inductive MapNode where
  | mk (text : Key) (below : MapNodes)
/-- Nodes in order. -/
inductive MapNodes where
  | nil
  | cons (n : MapNode) (rest : MapNodes)
end

/-- `elements` after those of the second argument have been appended. -/
def MapNodes.join : MapNodes → MapNodes → MapNodes
  | .nil, b => b
  | .cons n rest, b => .cons n (rest.join b)

mutual
/-- The nodes `build_nodes(prev,data)` adds to `prev` (54-67). -/
def buildNodes : PyVal → MapNodes
  | .dict kvs => buildItems kvs
  | .list xs => buildList xs
  | .none => .nil
  | .atom s => .cons (.mk s .nil) .nil
/-- The loop over items (57-59). -/
def buildItems : PyItems → MapNodes
  | .nil => .nil
  | .cons k v rest => .cons (.mk k (buildNodes v)) (buildItems rest)
/-- The loop over members (62-63): they are added to `prev` itself. -/
def buildList : PyList → MapNodes
  | .nil => .nil
  | .cons v rest => (buildNodes v).join (buildList rest)
end

/-- `save` (41-69): the nodes of the map; `tag` the attribute of that name, if `data` has one. -/
def freeMind (tag : Option Key) (data : PyVal) : MapNodes :=
  match tag with
  | some t => buildNodes (.dict (.cons t data .nil))
  | none => buildNodes data

end Verif.IO
