import Mathlib.Data.Rat.Defs

/-!
# Values as columns and rows

Model of `atleast_2d`, `atleast_2d_col`, `atleast_2d_row` and `append_array`
(`trunk/SUAVE/Core/Arrays.py`).

Simplifications
* An array is its shape and its entries in row-major order.  Entries are of any type.
* A list argument holds numbers, or rows of numbers; rows of unequal lengths make `np.array` raise
  (numpy 1.24 and later).
* `np.vstack` is modelled for arrays of two dimensions: it raises unless both have as many columns.
-/

namespace Verif.Core.TwoDim

/-- A numpy array. -/
structure Arr (V : Type) where
  shape : List Nat
  data : List V
deriving DecidableEq

/-- What may be passed. -/
inductive Arg (V : Type) where
  | num (v : V)
  | list (l : List V)
  | rows (l : List (List V))
  | array (a : Arr V)

variable {V : Type}

/-- `np.array` of rows. -/
def ofRows (l : List (List V)) : Option (Arr V) :=
  match l with
  | [] => some ⟨[0], []⟩
  | r :: rs => if rs.all (fun q => q.length == r.length) then some ⟨[l.length, r.length], l.flatten⟩ else none

/-- Lines 85-88: anything that is no array becomes one; a bare number becomes a list first. -/
def asArr : Arg V → Option (Arr V)
  | .num v => some ⟨[1], [v]⟩
  | .list l => some ⟨[l.length], l⟩
  | .rows l => ofRows l
  | .array a => some a

/-- `A[None,:]` and `A[:,None]`: an `IndexError` for an array without dimensions. -/
def addAxis (row : Bool) (a : Arr V) : Option (Arr V) :=
  match a.shape with
  | [] => none
  | n :: s => some ⟨if row then 1 :: n :: s else n :: 1 :: s, a.data⟩

/-- `atleast_2d` (65-100) for `oned_as` a row or a column. -/
def atleast2d (row : Bool) (x : Arg V) : Option (Arr V) :=
  (asArr x).bind fun a => if a.shape.length < 2 then addAxis row a else some a

/-- `np.vstack([A,B])` of two matrices. -/
def vstack (a b : Arr V) : Option (Arr V) :=
  match a.shape, b.shape with
  | [m, n], [k, n'] => if n = n' then some ⟨[m + k, n], a.data ++ b.data⟩ else none
  | _, _ => none

end Verif.Core.TwoDim
