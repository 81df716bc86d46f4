/-
Model of merging the states of sub-segments into one mission state and of handing the
mission-level unknowns back to the sub-segments
(trunk/SUAVE/Analyses/Mission/Segments/Conditions/State.py:131-186,
trunk/SUAVE/Analyses/Mission/Segments/Segment.py:184-213,
trunk/SUAVE/Core/Data.py:418-482 and 799-854,
trunk/SUAVE/Methods/Missions/Segments/Common/Sub_Segments.py:145-202).

Simplifications
* A `Data`/`Conditions` object is its insertion-ordered content; class identity matters only
  through the default content `dflt` of a freshly made object of the class (`tag` for `Unknowns`
  and `Residuals`, nothing for `Conditions`).  Aliasing between the merged and the original
  states is not modelled.
* An array of rank two or more is its trailing shape and the list of its rows, rows being of an
  arbitrary type `R`; a 1-d array of length `n` is one row of shape `[n]`.  Everything that is
  not an `ndarray` is `other`.
-/

namespace Verif.Mission.Merge

/-- Leaves of a state. -/
inductive Leaf (R : Type) where
  | arr (shape : List Nat) (rows : List R)
  | vec (n : Nat) (row : R)
  | other (id : Nat)
deriving DecidableEq

mutual
/-- A value stored in a state. -/
inductive Val (R : Type) where
  | leaf (x : Leaf R)
  | node (kvs : Items R)
/-- Insertion-ordered dictionary content. -/
inductive Items (R : Type) where
  | nil
  | cons (k : String) (v : Val R) (rest : Items R)
end

deriving instance DecidableEq for Val, Items
deriving instance DecidableEq for Except

variable {R : Type}

/-- `dict.get(k)`. -/
def Items.find? : Items R → String → Option (Val R)
  | .nil, _ => none
  | .cons k v rest, q => if k = q then some v else rest.find? q

/-- `dict[k] = v`. -/
def Items.set : Items R → String → Val R → Items R
  | .nil, q, w => .cons q w .nil
  | .cons k v rest, q, w => if k = q then .cons k w rest else .cons k v (rest.set q w)

/-- Errors. -/
inductive Err where
  | valueError | keyError | attributeError
deriving DecidableEq

/-- What `np.vstack` sees of a leaf: trailing shape and rows, for arrays. -/
def Leaf.rows? : Leaf R → Option (List Nat × List R)
  | .arr s r => some (s, r)
  | .vec n r => some ([n], [r])
  | .other _ => none

/-- `append_array` (State.py:164-186): `np.vstack` of two arrays (a `ValueError` when the trailing
shapes differ), `None` for anything else. -/
def appendArray (a : Leaf R) (b : Val R) : Except Err (Option (Val R)) :=
  match b with
  | .node _ => .ok none
  | .leaf b => match a.rows?, b.rows? with
    | some (s, r), some (s', r') =>
      if s = s' then .ok (some (.leaf (.arr s (r ++ r')))) else .error .valueError
    | _, _ => .ok none

/-- The operand found in `B` for key `k` (Data.py:827-834): `none` when `B` is a `Data` without
that key. -/
def operand (B : Val R) (k : String) : Option (Val R) :=
  match B with
  | .node bs => bs.find? k
  | .leaf _ => some B

mutual
/-- Lines 836-847 for one value: what is to be stored, if anything. -/
def doVal (dflt : Items R) : Val R → Val R → Except Err (Option (Val R))
  | .leaf x, b => appendArray x b
  | .node as, b => match doItems dflt as b dflt with
    | .ok c => .ok (some (.node c))
    | .error e => .error e
/-- `do_operation(A,B,C)` (Data.py:825-847) with `method = append_array`. -/
def doItems (dflt : Items R) : Items R → Val R → Items R → Except Err (Items R)
  | .nil, _, C => .ok C
  | .cons k a rest, B, C => match operand B k with
    | none => doItems dflt rest B (C.set k a)
    | some b => match doVal dflt a b with
      | .ok (some c) => doItems dflt rest B (C.set k c)
      | .ok none => doItems dflt rest B C
      | .error e => .error e
end

/-- `Data.update` (Data.py:418-447) into a freshly made object: keys starting with an underscore
are skipped, the others are stored (the fresh object holds no `Data`). -/
def updateFresh : Items R → Items R → Items R
  | C, .nil => C
  | C, .cons k v rest => if k.front = '_' then updateFresh C rest else updateFresh (C.set k v) rest

/-- Further sub-states are appended one at a time (156-157). -/
def appendAll (dflt : Items R) : Items R → List (Items R) → Except Err (Items R)
  | acc, [] => .ok acc
  | acc, s :: ss => match doItems dflt acc (.node s) dflt with
    | .ok acc' => appendAll dflt acc' ss
    | .error e => .error e

/-- One of the three keys of `Container.merged` (150-159) over the sub-states in order. -/
def merged (dflt : Items R) : List (Items R) → Except Err (Items R)
  | [] => .ok dflt
  | s :: ss => appendAll dflt (updateFresh dflt s) ss

/-! ### `Segment.merged` -/

/-- Python's `None` stored in a state. -/
def pyNone : Val R := .leaf (.other 0)

mutual
/-- What `append_or_update` (Data.py:469-481) stores under a key, given the other object's value
and the present one (`none`: no such key).  An array is stacked on what is there (`None` if that
is no array, lines 475-476); otherwise the present value's own `append_or_update` is tried and any
exception whatsoever replaces the present value by the other one (478-481). -/
def aouVal : Val R → Option (Val R) → Except Err (Val R)
  | .leaf x, cur => match x.rows?, cur with
    | some (s', r'), some (.leaf y) => match y.rows? with
      | some (s, r) => if s = s' then .ok (.leaf (.arr s (r ++ r'))) else .error .valueError
      | none => .ok pyNone
    | some _, some (.node _) => .ok pyNone
    | some _, none => .ok (.leaf x)
    | none, _ => .ok (.leaf x)
  | .node bs, some (.node as) => match aouItems bs as with
    | .ok c => .ok (.node c)
    | .error _ => .ok (.node bs)
  | .node bs, some (.leaf _) => .ok (.node bs)
  | .node bs, none => .ok (.node bs)
/-- `A.append_or_update(B)` (Data.py:449-482), recursion on `B`.  Keys that are names of methods
of `Data` (for which `hasattr` is true without an entry) are left out. -/
def aouItems : Items R → Items R → Except Err (Items R)
  | .nil, A => .ok A
  | .cons k v rest, A =>
    if k.front = '_' then aouItems rest A
    else match aouVal v (A.find? k) with
      | .ok c => aouItems rest (A.set k c)
      | .error e => .error e
end

/-- The loop of `Segment.merged` (Segment.py:205-211) after the first sub-segment. -/
def aouAll : Items R → List (Items R) → Except Err (Items R)
  | acc, [] => .ok acc
  | acc, s :: ss => match aouItems s acc with
    | .ok acc' => aouAll acc' ss
    | .error e => .error e

/-- One of the three keys of `Segment.merged` (Analyses/Mission/Segments/Segment.py:184-213), the
version used by `merge_sub_segment_states`. -/
def segMerged (dflt : Items R) : List (Items R) → Except Err (Items R)
  | [] => .ok dflt
  | s :: ss => aouAll s ss

/-! ### Unpacking -/

/-- An unknown of a sub-segment: a 2-d array of `cols` columns. -/
structure Unknown (R : Type) where
  cols : Nat
  rows : List R
deriving DecidableEq

/-- `unknowns[key].size`. -/
def Unknown.size (u : Unknown R) : Nat := u.cols * u.rows.length

/-- The unknowns of a sub-segment, `tag` left out (Sub_Segments.py:196-197). -/
abbrev Unknowns (R : Type) := List (String × Unknown R)

/-- The inner loop 195-200; `M` gives the rows of the mission-level unknowns, `none` a missing
key (then `counter[key]` and `segment.state.unknowns[key]` are a `KeyError`). -/
def unpackOne (M : String → Option (List R)) : Unknowns R → (String → Nat) → Except Err (Unknowns R × (String → Nat))
  | [], c => .ok ([], c)
  | (k, u) :: us, c => match M k with
    | none => .error .keyError
    | some rows =>
      let u' : Unknown R := { u with rows := (rows.drop (c k)).take u.size }
      match unpackOne M us (fun q => if q = k then c k + u.size else c q) with
      | .ok (us', c') => .ok ((k, u') :: us', c')
      | .error e => .error e

/-- The outer loop 194-200. -/
def unpackFrom (M : String → Option (List R)) : List (Unknowns R) → (String → Nat) → Except Err (List (Unknowns R))
  | [], _ => .ok []
  | s :: ss, c => match unpackOne M s c with
    | .error e => .error e
    | .ok (s', c') => match unpackFrom M ss c' with
      | .ok ss' => .ok (s' :: ss')
      | .error e => .error e

/-- `unpack_subsegments` (170-202). -/
def unpack (M : String → Option (List R)) (ss : List (Unknowns R)) : Except Err (List (Unknowns R)) :=
  unpackFrom M ss (fun _ => 0)

end Verif.Mission.Merge
