/-
Model of SUAVE's basic nested dictionary `Data` (trunk/SUAVE/Core/Data.py) and of the
component container built on it (trunk/SUAVE/Core/Container.py).

General simplifications, valid for the whole file
* Python `str` is a list of characters (`Key`).
* A `Data` object is its insertion-ordered dictionary content.  Class identity, object
  identity (aliasing) and attributes that shadow methods are not modelled.
* Leaves are the kinds of values the modelled methods distinguish; numbers live in an
  arbitrary type `R` (floating point rounding is not modelled).
-/

namespace Verif.Core

/-- Python `str`. -/
abbrev Key := List Char

/-- Values that are not `Data`.  The constructors are the kinds told apart by
`pack_array`/`unpack_array` (Core/Data.py:645-665, 728-753) and `deep_set` (555-576):
`num` is an `int`/`float` scalar, `list` a Python list of numbers, `vec` a 1-d array,
`mat n m rows` a 2-d array of shape (n,m) given by its rows, `tensor` an array of rank
greater than two, `obj` any other object (function, class instance, ...). -/
inductive Leaf (R : Type) where
  | none
  | num (x : R)
  | str (s : Key)
  | list (xs : List R)
  | vec (xs : List R)
  | mat (n m : Nat) (rows : List (List R))
  | tensor (id : Nat)
  | obj (id : Nat)
deriving DecidableEq, Repr

mutual
/-- A Python value: a leaf or a nested `Data`. -/
inductive Val (R : Type) where
  | leaf (x : Leaf R)
  | node (kvs : Items R)
/-- The insertion-ordered content of a `Data` dictionary. -/
inductive Items (R : Type) where
  | nil
  | cons (k : Key) (v : Val R) (rest : Items R)
end

variable {R : Type}

/-- Exceptions raised by the modelled methods. -/
inductive Err where
  | keyError | typeError | indexError | valueError | attributeError
deriving DecidableEq, Repr

namespace Items

/-- `dict.get(k)` on the items. -/
def find? : Items R → Key → Option (Val R)
  | nil, _ => .none
  | cons k v rest, q => if k = q then some v else find? rest q

/-- `list(dict.keys())`. -/
def keys : Items R → List Key
  | nil => []
  | cons k _ rest => k :: keys rest

/-- `dict[k] = v`: an existing key keeps its position, a new key goes to the end. -/
def set : Items R → Key → Val R → Items R
  | nil, q, w => cons q w nil
  | cons k v rest, q, w => if k = q then cons k w rest else cons k v (set rest q w)

/-- The items as a list of pairs. -/
def toList : Items R → List (Key × Val R)
  | nil => []
  | cons k v rest => (k, v) :: toList rest

end Items

/-! ### `Data.update` -/

/-- `k.startswith('_')` (Core/Data.py:440). -/
def isPrivate (k : Key) : Bool := k.head? == some '_'

mutual
/-- The value stored under a key by one step of the loop of `Data.update`
(Core/Data.py:442-445): `try: self[k].update(v)  except: self[k] = v`.
`self[k].update(v)` succeeds exactly if `self[k]` is a `Data` and `v` a dictionary (a leaf
has no `update`; `Data.update` raises TypeError on a non-dictionary). -/
def updVal : Option (Val R) → Val R → Val R
  | some (.node xs), .node ys => .node (updItems xs ys)
  | some (.leaf _), .node ys => .node ys
  | .none, .node ys => .node ys
  | _, .leaf x => .leaf x
/-- The loop of `Data.update` (Core/Data.py:436-445). -/
def updItems : Items R → Items R → Items R
  | a, .nil => a
  | a, .cons k v rest =>
    if isPrivate k then updItems a rest
    else updItems (a.set k (updVal (a.find? k) v)) rest
end

/-- `Data.update` (Core/Data.py:418-447) including the type check of line 433-434. -/
def update (a : Items R) (other : Val R) : Except Err (Items R) :=
  match other with
  | .leaf _ => .error .typeError
  | .node b => .ok (updItems a b)

/-! ### `Data.deep_set` and `Data.deep_get` -/

/-- `data[k]` when `data` may be any value: only a `Data` can be indexed by a string. -/
def getItem (d : Val R) (k : Key) : Except Err (Val R) :=
  match d with
  | .leaf _ => .error .typeError
  | .node kvs => match kvs.find? k with
    | some v => .ok v
    | .none => .error .keyError

/-- `Data.deep_get` on a list of keys (Core/Data.py:580-610; the string form is split at
the dots first, lines 597-598). -/
def deepGet (d : Val R) : List Key → Except Err (Val R)
  | [] => .error .indexError          -- `keys[-1]` of an empty list
  | [k] => getItem d k
  | k :: ks => do
    let d' ← getItem d k
    deepGet d' ks

/-- `s.split('[')`. -/
def splitBracket : Key → List Key
  | [] => [[]]
  | c :: cs =>
    if c = '[' then [] :: splitBracket cs
    else match splitBracket cs with
      | [] => [[c]]
      | w :: ws => (c :: w) :: ws

/-- `int(s)` for a string of decimal digits (Python also accepts signs, blanks and
underscores; those spellings are rejected here). -/
def parseNat (s : Key) : Except Err Nat :=
  if s.isEmpty then .error .valueError
  else if s.all Char.isDigit then
    .ok (s.foldl (fun n c => 10 * n + (c.toNat - '0'.toNat)) 0)
  else .error .valueError

/-- The indices of an index-suffixed key: the `split('[')` pieces after the first with
their last character removed (Core/Data.py:565, 568, 571). -/
def keyIndices (k : Key) : Except Err (List Nat) :=
  ((splitBracket k).drop 1).mapM (fun s => parseNat s.dropLast)

/-- `xs[i] = x` with IndexError. -/
def setAt (xs : List R) (i : Nat) (x : R) : Except Err (List R) :=
  if i < xs.length then .ok (xs.set i x) else .error .indexError

/-- `thing[i0]...[in] = val` (Core/Data.py:566-572) for the leaves that support item
assignment of a number. -/
def setIndexed (v : Val R) (is : List Nat) (x : R) : Except Err (Val R) :=
  match v, is with
  | .leaf (.vec xs), [i] => do .ok (.leaf (.vec (← setAt xs i x)))
  | .leaf (.list xs), [i] => do .ok (.leaf (.list (← setAt xs i x)))
  | .leaf (.mat n m rows), [i, j] =>
    match rows[i]? with
    | .none => .error .indexError
    | some r => do .ok (.leaf (.mat n m (rows.set i (← setAt r j x))))
  | _, _ => .error .typeError

/-- The number assigned by an indexed `deep_set`; anything else raises
(`float() argument must be ...`). -/
def asNum (v : Val R) : Except Err R :=
  match v with
  | .leaf (.num x) => .ok x
  | _ => .error .typeError

/-- The last step of `Data.deep_set` (Core/Data.py:563-576) on the final key. -/
def setLast (d : Val R) (k : Key) (val : Val R) : Except Err (Val R) :=
  match k.getLast? with
  | .none => .error .indexError                    -- `keys[-1][-1]` of ''
  | some c =>
    if c = ']' then do
      let base := (splitBracket k).headD []
      let thing ← getItem d base
      let is ← keyIndices k
      let x ← asNum val
      let thing' ← setIndexed thing is x
      match d with
      | .leaf _ => .error .typeError
      | .node kvs => .ok (.node (kvs.set base thing'))
    else
      match d with
      | .leaf _ => .error .typeError
      | .node kvs => .ok (.node (kvs.set k val))

/-- `Data.deep_set` on a list of keys (Core/Data.py:538-578).  The Python method mutates
in place and returns the innermost container; here the whole new tree is returned. -/
def deepSet (d : Val R) : List Key → Val R → Except Err (Val R)
  | [], _ => .error .indexError
  | [k], val => setLast d k val
  | k :: ks, val => do
    let d' ← getItem d k
    let d'' ← deepSet d' ks val
    match d with
    | .leaf _ => .error .typeError
    | .node kvs => .ok (.node (kvs.set k d''))

/-! ### `Data.append` and `Container.append` -/

/-- `string.punctuation + string.whitespace` (Core/Data.py:24). -/
def tableChars : List Char :=
  "!\"#$%&'()*+,-./:;<=>?@[\\]^_`{|}~ \t\n\r\x0b\x0c".toList

/-- One character through `t_table` (Core/Data.py:24-26): punctuation and white space
become '_', ASCII capitals become lower case. -/
def normChar (c : Char) : Char :=
  if c ∈ tableChars then '_' else if c.isUpper then c.toLower else c

/-- `key.translate(t_table)`. -/
def norm (k : Key) : Key := k.map normChar

/-- `value.tag` (AttributeError when there is none). -/
def tagOf (v : Val R) : Except Err Key :=
  match v with
  | .node kvs => match kvs.find? "tag".toList with
    | some (.leaf (.str s)) => .ok s
    | _ => .error .attributeError
  | .leaf _ => .error .attributeError

/-- `value.tag = s`. -/
def setTag (v : Val R) (s : Key) : Val R :=
  match v with
  | .node kvs => .node (kvs.set "tag".toList (.leaf (.str s)))
  | .leaf x => .leaf x

/-- `Data.append` (Core/Data.py:514-536). -/
def append (self : Items R) (value : Val R) (key : Option Key) : Except Err (Items R) := do
  let key ← match key with
    | some k => pure k
    | .none => tagOf value
  let key := norm key
  match self.find? key with
  | some _ => .error .keyError
  | .none => .ok (self.set key value)

/-- `pre` is a prefix of `s`: the remainder. -/
def stripPrefix? : Key → Key → Option Key
  | [], s => some s
  | _ :: _, [] => .none
  | p :: ps, c :: cs => if p = c then stripPrefix? ps cs else .none

/-- `s.count(pat)` for a non-empty `pat`: non-overlapping occurrences, left to right.
The first argument is fuel (`s.length` suffices). -/
def countFuel : Nat → Key → Key → Nat
  | 0, _, _ => 0
  | _ + 1, _, [] => 0
  | n + 1, pat, c :: cs =>
    match stripPrefix? pat (c :: cs) with
    | some rest => countFuel n pat rest + 1
    | .none => countFuel n pat cs

/-- `s.count(pat)`; the empty pattern counts `len(s)+1`. -/
def count (s pat : Key) : Nat :=
  match pat with
  | [] => s.length + 1
  | _ => countFuel s.length pat s

/-- `str(n)`. -/
def showNat (n : Nat) : Key := (Nat.toDigits 10 n)

/-- `str.lower` restricted to ASCII. -/
def lower (k : Key) : Key := k.map Char.toLower

/-- `Container.append` (Core/Container.py:82-116).  `rnd` is the value returned by
`random.randint(0,1000)`.  Returns the new container and the (possibly retagged) element. -/
def containerAppend (rnd : Nat) (self : Items R) (val : Val R) :
    Except Err (Items R × Val R) := do
  let raw ← tagOf val
  let tag := lower (norm raw)
  if tag ∈ self.keys then
    let n := count self.keys.flatten raw
    let t1 := tag ++ showNat (n + 1)
    let t2 := if t1 ∈ self.keys then tag ++ showNat (n + rnd) else t1
    let val := setTag val t2
    let self ← append self val .none
    .ok (self, val)
  else
    let self ← append self val .none
    .ok (self, val)

/-! ### `pack_array` / `unpack_array`, vector mode -/

/-- `v.ravel(order='F')` of a matrix given by rows with `m` columns: column by column
(Core/Data.py:671). -/
def ravelF (m : Nat) (rows : List (List R)) : List R :=
  (List.range m).flatMap fun j => rows.filterMap fun r => r[j]?

/-- The numbers a leaf contributes to the packed vector (Core/Data.py:655-679, vector
mode).  Rank-0/1 leaves become one column, so their numbers in order. -/
def packLeaf : Leaf R → List R
  | .num x => [x]
  | .vec xs => xs
  | .mat _ m rows => ravelF m rows
  | _ => []

mutual
/-- `do_pack` (Core/Data.py:653-679) on one value. -/
def packVal : Val R → List R
  | .leaf x => packLeaf x
  | .node kvs => packItems kvs
/-- `do_pack` on the values of a dictionary, in order. -/
def packItems : Items R → List R
  | .nil => []
  | .cons _ v rest => packVal v ++ packItems rest
end

/-- `np.reshape(M,[n,m],order='F')` of a list of `n*m` numbers as rows
(Core/Data.py:778). -/
def reshapeF (n m : Nat) (xs : List R) : List (List R) :=
  (List.range n).map fun i => (List.range m).filterMap fun j => xs[i + j * n]?

/-- The slice `M[index:index+n]` assigned to a 1-d array of length `n`
(Core/Data.py:768): a slice of length one is broadcast. -/
def assignSlice (n : Nat) (xs : List R) : Except Err (List R) :=
  let s := xs.take n
  if s.length = n then .ok s
  else match s with
    | [x] => .ok (List.replicate n x)
    | _ => .error .valueError

/-- `do_unpack` on a leaf in vector mode (Core/Data.py:738-786).  The second argument is
`M[index:]`; the result is the new leaf and what remains of `M`. -/
def unpackLeaf (l : Leaf R) (xs : List R) : Except Err (Leaf R × List R) :=
  match l with
  | .num _ => match xs with
    | [] => .error .indexError
    | y :: ys => .ok (.num y, ys)
  | .vec v => do
    let s ← assignSlice v.length xs
    .ok (.vec s, xs.drop v.length)
  | .mat n m _ =>
    if (xs.take (n * m)).length = n * m then
      .ok (.mat n m (reshapeF n m (xs.take (n * m))), xs.drop (n * m))
    else .error .valueError
  | l => .ok (l, xs)

mutual
/-- `do_unpack` (Core/Data.py:736-786) on one value. -/
def unpackVal : Val R → List R → Except Err (Val R × List R)
  | .leaf l, xs => do
    let (l', ys) ← unpackLeaf l xs
    .ok (.leaf l', ys)
  | .node kvs, xs => do
    let (kvs', ys) ← unpackItems kvs xs
    .ok (.node kvs', ys)
/-- `do_unpack` on the items of a dictionary, in order. -/
def unpackItems : Items R → List R → Except Err (Items R × List R)
  | .nil, xs => .ok (.nil, xs)
  | .cons k v rest, xs => do
    let (v', ys) ← unpackVal v xs
    let (rest', zs) ← unpackItems rest ys
    .ok (.cons k v' rest', zs)
end

end Verif.Core
