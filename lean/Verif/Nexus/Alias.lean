import Verif.Core.Model
/-
Model of the alias mechanism of the optimization framework
(trunk/SUAVE/Optimization/helper_functions.py: `set_values` 20-83, `find_a_star` 86-121,
`get_values` 219-261).

Simplifications
* Dotted path strings are lists of keys (`s.split('.')`).
* The Nexus is a nested `Data` tree (`Core.Val`); values written are numbers.
* An exception leaves the Python object partly written; here the error is returned without
  the partial tree.
-/

namespace Verif.Nexus
open Verif.Core

variable {R : Type}

/-- A dotted path. -/
abbrev Path := List Key

/-- The second entry of an alias row: one path or a list of paths. -/
inductive Pointer where
  | one (p : Path)
  | many (ps : List Path)

/-- An alias row `[name, pointer]`. -/
structure Alias where
  name : Key
  target : Pointer

/-- The paths a pointer names. -/
def Pointer.paths : Pointer → List Path
  | .one p => [p]
  | .many ps => ps

/-- `'*' in component`. -/
def hasStar (k : Key) : Bool := k.contains '*'

/-- `pointer`: for each provided name in order, the targets of all alias rows of that name
in order (lines 49-53 and 244-248). -/
def pointers (names : List Key) (aliases : List Alias) : List Pointer :=
  names.flatMap fun n => (aliases.filter fun a => n = a.name).map Alias.target

/-- Follow a path by attribute access (`eval('dictionary.a.b')`). -/
def follow (d : Val R) : Path → Except Err (Val R)
  | [] => .ok d
  | k :: ks => do follow (← getItem d k) ks

/-- `find_a_star` (lines 107-121) on a path split as `pre ++ [star] ++ post` at its last
starred component.  A second star in `pre` makes the `eval` of line 114 a syntax error.
When `pre` is empty the generated strings begin with a dot, i.e. with an empty component;
when `post` is empty they end with one. -/
def expandStar (d : Val R) (pre post : Path) : Except Err (List Path) := do
  if pre.any hasStar then .error .valueError
  else
    let c ← follow d pre
    match c with
    | .leaf _ => .error .attributeError
    | .node kvs =>
      let pre' := if pre.isEmpty then [[]] else pre
      let post' := if post.isEmpty then [[]] else post
      .ok (kvs.keys.map fun k => pre' ++ k :: post')

/-- Split a path at its last starred component. -/
def splitLastStar (p : Path) : Option (Path × Path) :=
  match p with
  | [] => none
  | k :: ks => match splitLastStar ks with
    | some (a, b) => some (k :: a, b)
    | none => if hasStar k then some ([], ks) else none

/-- The paths actually written for one path of a pointer (lines 58-68 and 71-81). -/
def writtenPaths (d : Val R) (p : Path) : Except Err (List Path) :=
  match splitLastStar p with
  | none => .ok [p]
  | some (pre, post) => expandStar d pre post

/-- `deep_set` of one value to a list of paths, in order. -/
def setPaths (d : Val R) (v : R) : List Path → Except Err (Val R)
  | [] => .ok d
  | p :: ps => do setPaths (← deepSet d p (.leaf (.num v))) v ps

/-- One pointer (lines 56-81): its paths are expanded one after the other, each on the
tree as it is then. -/
def setPointer (d : Val R) (v : R) : List Path → Except Err (Val R)
  | [] => .ok d
  | p :: ps => do
    let w ← writtenPaths d p
    let d ← setPaths d v w
    setPointer d v ps

/-- The loop over the pointers (lines 55-81); `converted_values[ii]` raises IndexError when
there are more pointers than values. -/
def setLoop (d : Val R) : List Pointer → List R → Except Err (Val R)
  | [], _ => .ok d
  | _ :: _, [] => .error .indexError
  | p :: ps, v :: vs => do
    let d ← setPointer d v p.paths
    setLoop d ps vs

/-- `set_values` (lines 20-83). -/
def setValues (d : Val R) (names : List Key) (values : List R) (aliases : List Alias) :
    Except Err (Val R) :=
  setLoop d (pointers names aliases) values

/-- One value read by `get_values` (lines 251-259): the pointer must be a single path
without a star; the value must be a number (NumPy would also accept an array of size one). -/
def getPointer (d : Val R) (p : Pointer) : Except Err R :=
  match p with
  | .many _ => .error .typeError
  | .one p =>
    if p.any hasStar then .error .typeError
    else do
      let v ← follow d p
      match v with
      | .leaf (.num x) => .ok x
      | _ => .error .typeError

/-- `get_values` (lines 219-261): row `ii` uses `pointer[ii]`. -/
def getValues (d : Val R) (names : List Key) (aliases : List Alias) : Except Err (List R) :=
  let ptr := pointers names aliases
  (List.range names.length).mapM fun i =>
    match ptr[i]? with
    | none => .error .indexError
    | some p => getPointer d p

end Verif.Nexus
