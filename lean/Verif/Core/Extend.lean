import Verif.Core.Model

/-!
# Several elements at once

`Container.extend` (`Core/Container.py` 118-141) and `ContainerOrdered.extend` (`Core/ContainerOrdered.py` 94-117), which
has the same text.
-/

namespace Verif.Core

variable {R : Type}

/-- What is given to `extend`. -/
inductive Many (R : Type) where
  | list (l : List (Val R))
  | dict (d : Items R)
  | other

/-- How `extend` can fail: the name `val` is not defined, or the type is not known. -/
inductive ExtendErr where
  | nameError
  | unrecognized
  deriving DecidableEq

/-- `extend` (136-141): the loop for lists and tuples runs over `val` instead of `vals`, which raises before the first
step; dictionaries go to `Data.update`. -/
def extend (self : Items R) : Many R → Except ExtendErr (Items R)
  | .list _ => .error .nameError
  | .dict d => .ok (updItems self d)
  | .other => .error .unrecognized

end Verif.Core
