import Mathlib.Algebra.BigOperators.Group.List.Basic

/-!
# Saving and loading data as JSON

Models of `trunk/SUAVE/Input_Output/SUAVE/archive.py` and `trunk/SUAVE/Input_Output/SUAVE/load.py`.

`json.dumps` followed by `json.loads` is taken to be the identity on trees of numbers, strings,
booleans, nulls, arrays and objects with string keys (numbers are printed exactly).  The difference
between `Data` (top level) and `DataOrdered` (below) in the loaded result is not represented.
Numbers are of an arbitrary type `N`.
-/

namespace Verif.IO

variable {N : Type}

/-- Values in a data structure.  `num` is a `float` or `int`, `f64` an `np.float64`, `npScalar` any
other numpy scalar, `unknown` any other type.  `arr` is a numerical `np.ndarray` by shape and flat
contents; `data` is a `Data`, by keys and values in order. -/
inductive V (N : Type) where
  | num (x : N)
  | f64 (x : N)
  | npScalar (x : N)
  | str (s : String)
  | bool (b : Bool)
  | none
  | func
  | unknown
  | arr (shape : List ℕ) (flat : List N)
  | list (l : List (V N))
  | tuple (l : List (V N))
  | data (keys : List String) (vals : List (V N))

/-- JSON trees. -/
inductive J (N : Type) where
  | num (x : N)
  | str (s : String)
  | bool (b : Bool)
  | null
  | arr (l : List (J N))
  | obj (keys : List String) (vals : List (J N))

/-- Loaded values; `objArr` is an `np.array` that is not numerical. -/
inductive L (N : Type) where
  | num (x : N)
  | str (s : String)
  | bool (b : Bool)
  | none
  | arr (shape : List ℕ) (flat : List N)
  | objArr (l : List (J N))
  | data (keys : List String) (vals : List (L N))

/-- `ndarray.tolist()`: nested lists along the shape; a zero-dimensional array gives its number. -/
def toList : List ℕ → List N → J N
  | [], x :: _ => .num x
  | [], [] => .null
  | n :: s, d => .arr ((List.range n).map fun i => toList s ((d.drop (i * s.prod)).take s.prod))

mutual
/-- What `json.dumps` makes of a value inside a raw list; `none` for its `TypeError`. -/
def raw : V N → Option (J N)
  | .num x => some (.num x)
  | .f64 x => some (.num x)
  | .str s => some (.str s)
  | .bool b => some (.bool b)
  | .none => some .null
  | .list l => (rawL l).map .arr
  | .tuple l => (rawL l).map .arr
  | .data k v => (rawL v).map (.obj k)
  | .npScalar _ => none
  | .func => none
  | .unknown => none
  | .arr _ _ => none
/-- The same for all elements of a list. -/
def rawL : List (V N) → Option (List (J N))
  | [] => some []
  | a :: l => do
    let j ← raw a
    let js ← rawL l
    return j :: js
end

mutual
/-- `build_dict_r` followed by `json.dumps` (`archive.py` 86-135, 46): by exact type; a type that is
not listed and has no keys is always `callable`, so it becomes `None` and never raises. -/
def enc : V N → Option (J N)
  | .arr s d => some (toList s d)
  | .f64 x => some (.num x)
  | .str s => some (.str s)
  | .bool b => some (.bool b)
  | .none => some .null
  | .num x => some (.num x)
  | .func => some .null
  | .list l => (rawL l).map .arr
  | .data k v => (encL v).map (.obj k)
  | .npScalar _ => some .null
  | .unknown => some .null
  | .tuple _ => some .null
/-- The same for all values of a `Data` (131-133, 80-82). -/
def encL : List (V N) → Option (List (J N))
  | [] => some []
  | a :: l => do
    let j ← enc a
    let js ← encL l
    return j :: js
end

mutual
/-- Shape and contents of nested lists in `np.array`, if they are numerical and rectangular. -/
def infer : J N → Option (List ℕ × List N)
  | .num x => some ([], [x])
  | .arr l => do
    let rs ← inferL l
    match rs with
    | [] => some ([0], [])
    | r :: rest =>
      if rest.all fun q => q.1 == r.1 then some ((rest.length + 1) :: r.1, r.2 ++ (rest.map Prod.snd).flatten) else none
  | _ => none
/-- The same for all elements. -/
def inferL : List (J N) → Option (List (List ℕ × List N))
  | [] => some []
  | a :: l => do
    let r ← infer a
    let rs ← inferL l
    return r :: rs
end

/-- `np.array(v)` for a list (`load.py` 113-114). -/
def npArray (l : List (J N)) : L N :=
  match infer (.arr l) with
  | some (s, d) => .arr s d
  | none => .objArr l

mutual
/-- `build_data_r` (`load.py` 85-126). -/
def dec : J N → L N
  | .obj k v => .data k (decL v)
  | .arr l => npArray l
  | .str s => .str s
  | .bool b => .bool b
  | .null => .none
  | .num x => .num x
/-- The same for all values (110-112, 78-81). -/
def decL : List (J N) → List (L N)
  | [] => []
  | a :: l => dec a :: decL l
end

/-- `load` after `archive`: `none` if saving raises. -/
def saveLoad (v : V N) : Option (L N) := (enc v).map dec

end Verif.IO
