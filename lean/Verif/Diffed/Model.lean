import Verif.Core.Model
/-!
Model of vehicle configurations: trunk/SUAVE/Core/Diffed_Data.py.

Simplifications: `Data` and `DataOrdered` sub-dictionaries are not told apart (lines
321-335 treat the two kinds in the same way; a `Data` facing a `DataOrdered` is not
modelled).  Object aliasing (the configuration may share sub-objects with its base after
`pull_base`) is not modelled.  The iteration order of the Python `set` of keys (line
307-318) is an arbitrary reordering `ord`.
-/

namespace Verif.Core
variable {R : Type}

namespace Items
/-- Concatenation of item lists. -/
def app : Items R → Items R → Items R
  | nil, b => b
  | cons k v rest, b => cons k v (app rest b)
end Items

/-- Entries of `diff(A,B)` for the keys of `B` that `A` lacks (Diffed_Data.py:318-338 with
`va = A.get(key,None) = None`): a `Data` in `B` stores `None` (line 326-327), a leaf stores
`None` unless it compares equal to `None` (line 337-338). -/
def onlyB (same : Leaf R → Leaf R → Bool) (A : Items R) : Items R → Items R
  | .nil => .nil
  | .cons k v rest =>
    if k ∈ A.keys then onlyB same A rest
    else match v with
      | .node _ => .cons k (.leaf .none) (onlyB same A rest)
      | .leaf y => if same .none y then onlyB same A rest
                   else .cons k (.leaf .none) (onlyB same A rest)

mutual
/-- What the loop body of `diff` stores for a key with `va` in `A` and `vb` in `B`
(`none`: nothing stored) – Diffed_Data.py:319-338.  A key missing from `B` has `vb = None`.
`same va vb` is `np.all(va == vb)`, `ord` the iteration order of the key set. -/
def diffVal (same : Leaf R → Leaf R → Bool) (ord : Items R → Items R) :
    Val R → Val R → Option (Val R)
  | .node a, .node b =>
    match ord ((fromA same ord a b).app (onlyB same a b)) with
    | .nil => none
    | s => some (.node s)
  | .node a, .leaf _ => some (.node a)
  | .leaf x, .node _ => some (.leaf x)
  | .leaf x, .leaf y => if same x y then none else some (.leaf x)
/-- Entries of `diff(A,B)` for the keys of `A`. -/
def fromA (same : Leaf R → Leaf R → Bool) (ord : Items R → Items R) :
    Items R → Items R → Items R
  | .nil, _ => .nil
  | .cons k v rest, b =>
    match diffVal same ord v ((b.find? k).getD (.leaf .none)) with
    | none => fromA same ord rest b
    | some w => .cons k w (fromA same ord rest b)
end

/-- `diff(A,B)` (Diffed_Data.py:287-340). -/
def diff (same : Leaf R → Leaf R → Bool) (ord : Items R → Items R) (a b : Items R) : Items R :=
  ord ((fromA same ord a b).app (onlyB same a b))

/-- A vehicle (`plain`) or a configuration over a base.  The attributes `_base` and `_diff`
are separate fields instead of private dictionary entries; `diff` removes them from the key
set (lines 311-313). -/
inductive Chain (R : Type) where
  | plain (content : Items R)
  | config (content : Items R) (delta : Items R) (base : Chain R)

/-- The dictionary entries of the object. -/
def Chain.content : Chain R → Items R
  | .plain c => c
  | .config c _ _ => c

/-- `Diffed_Data.__init__` (Diffed_Data.py:57-78): a copy of the base. -/
def newConfig (base : Chain R) : Chain R :=
  .config (updItems .nil base.content) .nil base

/-- `store_diff` (Diffed_Data.py:80-99); on a plain vehicle there is no such method and the
container ignores the AttributeError (line 206-207). -/
def storeDiff (same : Leaf R → Leaf R → Bool) (ord : Items R → Items R) : Chain R → Chain R
  | .plain c => .plain c
  | .config c _ b => .config c (diff same ord c b.content) b

/-- `pull_base` (Diffed_Data.py:101-122). -/
def pullBase : Chain R → Chain R
  | .plain c => .plain c
  | .config c d b =>
    let b' := pullBase b
    .config (updItems (updItems c b'.content) d) d b'

end Verif.Core
