import Verif.Core.Model
/-
Model of the ordered dictionary `DataOrdered` (trunk/SUAVE/Core/DataOrdered.py), down to
the doubly linked list that carries the key order.

Simplifications
* The three-element Python lists `[prev, next, key]` are heap nodes; a heap is a partial
  map from addresses to nodes.  Address 0 is the sentinel `root`.
* Values live in an arbitrary type `V`; `upd x v` says what `x.update(v)` does to a value
  (`none`: it raises).
* `cls k` says whether the class of the object (or a base class) has an attribute `k`
  (`hasattr(self.__class__, k)`): method names such as `keys`, `update`, `clear`.
* `__new__`/`__defaults__` only perform attribute assignments and are covered by `set`.
-/

namespace Verif.Ordered
open Verif.Core (Key Err isPrivate norm)

/-- One link `[prev, next, key]` of the order list; the key of the sentinel is `None`. -/
structure Node where
  prev : Nat
  next : Nat
  key : Option Key

/-- The heap of links. -/
abbrev Heap := Nat → Option Node

/-- Store a node. -/
def Heap.put (h : Heap) (i : Nat) (n : Node) : Heap := fun j => if j = i then some n else h j

/-- `node[1] = j`. -/
def Heap.setNext (h : Heap) (i j : Nat) : Heap :=
  fun a => if a = i then (h a).map fun n => { n with next := j } else h a

/-- `node[0] = j`. -/
def Heap.setPrev (h : Heap) (i j : Nat) : Heap :=
  fun a => if a = i then (h a).map fun n => { n with prev := j } else h a

/-- Association-list dictionaries (Python `dict`: insertion ordered, unique keys). -/
def dget {α : Type} : List (Key × α) → Key → Option α
  | [], _ => none
  | (k, v) :: r, q => if k = q then some v else dget r q

/-- `d[k] = v`. -/
def dset {α : Type} : List (Key × α) → Key → α → List (Key × α)
  | [], q, w => [(q, w)]
  | (k, v) :: r, q, w => if k = q then (k, w) :: r else (k, v) :: dset r q w

/-- `del d[k]`. -/
def ddel {α : Type} : List (Key × α) → Key → List (Key × α)
  | [], _ => []
  | (k, v) :: r, q => if k = q then r else (k, v) :: ddel r q

/-- A `DataOrdered` object: heap of links, next free address, `_map` and `__dict__`. -/
structure OD (V : Type) where
  heap : Heap
  free : Nat
  map : List (Key × Nat)
  dict : List (Key × V)

variable {V : Type}

/-- `DataOrdered.__new__` (lines 229-237): sentinel linked to itself, empty `_map`. -/
def OD.new : OD V :=
  { heap := fun a => if a = 0 then some ⟨0, 0, none⟩ else none, free := 1, map := [], dict := [] }

/-- `last = root[0]` (line 687). -/
def OD.last (s : OD V) : Nat := match s.heap 0 with | some n => n.prev | none => 0

/-- `__setattr__` (lines 663-690): a name that neither the object nor its class has is
linked in before the sentinel; the value goes to the instance `__dict__` in every case. -/
def OD.set (cls : Key → Bool) (s : OD V) (k : Key) (v : V) : OD V :=
  if (dget s.dict k).isNone && !cls k then
    let new := s.free
    let last := s.last
    { heap := ((s.heap.put new ⟨last, 0, some k⟩).setNext last new).setPrev 0 new
      free := s.free + 1
      map := dset s.map k new
      dict := dset s.dict k v }
  else { s with dict := dset s.dict k v }

/-- `__delattr__` (lines 548-571): `OrderedDict.__delattr__` raises AttributeError when the
instance has no such attribute; afterwards the link is popped from `_map` (KeyError when it
was never linked) and cut out of the list.  Returns the new state and the exception. -/
def OD.del (s : OD V) (k : Key) : OD V × Option Err :=
  match dget s.dict k with
  | none => (s, some .attributeError)
  | some _ =>
    let s1 := { s with dict := ddel s.dict k }
    match dget s.map k with
    | none => (s1, some .keyError)
    | some i =>
      match s.heap i with
      | none => (s1, some .valueError)          -- unpacking an emptied link
      | some n =>
        ({ s1 with map := ddel s.map k
                   heap := (s.heap.setNext n.prev n.next).setPrev n.next n.prev }, none)

/-- `clear` (lines 766-793): every link is emptied, the sentinel linked to itself. -/
def OD.clear (s : OD V) : OD V :=
  { heap := fun a => if a = 0 then some ⟨0, 0, none⟩
                     else if a ∈ s.map.map Prod.snd then none else s.heap a
    free := s.free, map := [], dict := [] }

/-- One step of `update` (lines 539-545): private names are skipped; a value that can
`update` itself does so in place; otherwise the attribute is assigned. -/
def OD.updateStep (cls : Key → Bool) (upd : V → V → Option V) (s : OD V) (kv : Key × V) : OD V :=
  if isPrivate kv.1 then s
  else match dget s.dict kv.1 with
    | some x => match upd x kv.2 with
      | some x' => { s with dict := dset s.dict kv.1 x' }     -- mutated in place
      | none => s.set cls kv.1 kv.2
    | none => s.set cls kv.1 kv.2

/-- `update` (lines 517-546) with a dictionary argument given by its items. -/
def OD.update (cls : Key → Bool) (upd : V → V → Option V) (s : OD V) (o : List (Key × V)) : OD V :=
  o.foldl (OD.updateStep cls upd) s

/-- `__iter_basic__` from a link on (lines 633-637).  The Python loop has no bound; the
model takes fuel and answers `none` when it runs out or meets an emptied link. -/
def walk (h : Heap) : Nat → Nat → Option (List Key)
  | 0, _ => none
  | fuel + 1, cur =>
    if cur = 0 then some []
    else match h cur with
      | none => none
      | some n => match n.key with
        | none => none
        | some k => (walk h fuel n.next).map (k :: ·)

/-- `keys()` (line 857).  The fuel is one more than the number of links ever made. -/
def OD.keys (s : OD V) : Option (List Key) :=
  match s.heap 0 with
  | none => none
  | some r => walk s.heap (s.free + 1) r.next

/-- Attribute or item access by name to an instance attribute (lines 205-206). -/
def OD.attr (s : OD V) (k : Key) : Option V := dget s.dict k

/-- `items()` (line 897); `none` if the walk or one of the lookups fails. -/
def OD.items (s : OD V) : Option (List (Key × V)) :=
  s.keys.bind fun ks => ks.mapM fun k => (s.attr k).map fun v => (k, v)

/-- `values()` (line 877). -/
def OD.values (s : OD V) : Option (List V) := s.keys.bind fun ks => ks.mapM s.attr

/-- `__len__` (line 613). -/
def OD.len (s : OD V) : Nat := s.dict.length

/-- Access by a non-negative integer (lines 207-208). -/
def OD.getIndex (s : OD V) (i : Nat) : Option V :=
  s.keys.bind fun ks => ks[i]?.bind s.attr

/-- The operations a user can perform. -/
inductive Op (V : Type) where
  | set (k : Key) (v : V)
  | del (k : Key)
  | update (o : List (Key × V))
  | clear

/-- One operation: new state and exception. -/
def OD.step (cls : Key → Bool) (upd : V → V → Option V) (s : OD V) : Op V → OD V × Option Err
  | .set k v => (s.set cls k v, none)
  | .del k => s.del k
  | .update o => (s.update cls upd o, none)
  | .clear => (s.clear, none)

/-- A history; exceptions are caught by the caller and collected. -/
def OD.run (cls : Key → Bool) (upd : V → V → Option V) : OD V → List (Op V) → OD V × List (Option Err)
  | s, [] => (s, [])
  | s, op :: ops =>
    let r := s.step cls upd op
    let r' := OD.run cls upd r.1 ops
    (r'.1, r.2 :: r'.2)

/-- Is `k` a key of the *underlying* C dictionary?  `key in self` (line 164) asks this, and
the only entries ever stored there are `_root` and `_map` (lines 236-237). -/
def inStorage (k : Key) : Bool := k = "_root".toList || k = "_map".toList

/-- `append(value, key)` (lines 142-165) with the tag or key given as a string. -/
def OD.append (cls : Key → Bool) (s : OD V) (key : Key) (v : V) : Except Err (OD V) :=
  let k := norm key
  if inStorage k then .error .keyError
  else .ok (s.set cls k v)

/-- A history of appends; a raising append leaves the container as it was. -/
def OD.appends (cls : Key → Bool) (s : OD V) : List (Key × V) → OD V
  | [] => s
  | (k, v) :: r => match s.append cls k v with
    | .ok s' => OD.appends cls s' r
    | .error _ => OD.appends cls s r

end Verif.Ordered
