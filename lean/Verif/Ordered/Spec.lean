import Verif.Core.Model
/-
Abstract specification of an ordered dictionary: a list of key/value pairs in which a new
key goes to the end.  Nothing here mentions the linked list.
-/

namespace Verif.Ordered.Spec
open Verif.Core (Key Err isPrivate)

variable {V : Type}

/-- The abstract state. -/
abbrev Dict (V : Type) := List (Key × V)

/-- Is the key present? -/
def has (l : Dict V) (k : Key) : Bool := l.any fun p => p.1 == k

/-- Value under a key. -/
def get (l : Dict V) (k : Key) : Option V := (l.find? fun p => p.1 == k).map Prod.snd

/-- Assign: in place if present, else at the end. -/
def set (l : Dict V) (k : Key) (v : V) : Dict V :=
  if has l k then l.map fun p => if p.1 == k then (k, v) else p else l ++ [(k, v)]

/-- Remove. -/
def del (l : Dict V) (k : Key) : Dict V := l.filter fun p => p.1 != k

/-- One entry of an update. -/
def updateStep (upd : V → V → Option V) (l : Dict V) (kv : Key × V) : Dict V :=
  if isPrivate kv.1 then l
  else set l kv.1 (match get l kv.1 with
    | some x => (upd x kv.2).getD kv.2
    | none => kv.2)

end Verif.Ordered.Spec
