import Verif.Core.Model

/-!
# Segments and airfoils attached to parts

`Components/Wings/Main_Wing.py` (segments), `Components/Wings/Wing.py`, `Components/Wings/Segment.py`,
`Components/Fuselages/Fuselage.py` (segments and airfoils), `Components/Energy/Converters/Rotor.py` (airfoils) and
`Components/Nacelles/Nacelle.py` (airfoils).  Keys are compared as in `Data.append`; `DataOrdered.append`
(Core/DataOrdered.py:142-165) does the same on its own storage.
-/

namespace Verif.Core

variable {R : Type}

/-- Appending under a name that is completed when `taken` lists it: `names` the keys counted
(`Main_Wing.py` 138-142, `Rotor.py` 130-134).  The tag is compared as it is, without `t_table`. -/
def completeTag (names : List Key) (val : Val R) : Except Err (Val R) := do
  let raw ← tagOf val
  if raw ∈ names then .ok (setTag val (raw ++ showNat (count names.flatten raw + 1))) else .ok val

/-- `Wing.append_segment`, `Fuselage.append_segment`, `Nacelle.append_segment`, `Segment.append_airfoil`
(Wing.py:129-155, Fuselage.py:122-144, Nacelle.py:66-88, Wings/Segment.py:70-93): no names are completed. -/
def plainAttach (self : Items R) (val : Val R) : Except Err (Items R × Val R) := do
  let s ← append self val .none
  .ok (s, val)

/-- `Segment_Container.append` of a main wing (Main_Wing.py:116-144). -/
def mainWingAttach (self : Items R) (val : Val R) : Except Err (Items R × Val R) := do
  let v ← completeTag self.keys val
  plainAttach self v

/-- `Rotor.append_airfoil` (Rotor.py:125-137): the names looked at are the attributes of the rotor. -/
def rotorAttach (attributes : List Key) (airfoils : Items R) (val : Val R) : Except Err (Items R × Val R) := do
  let v ← completeTag attributes val
  plainAttach airfoils v

/-- `Nacelle.append_airfoil` (Nacelle.py:62, 110-114): `self.Airfoil` is itself an airfoil, and the new one becomes one
of its attributes. -/
def nacelleAttach (own : Items R) (val : Val R) : Except Err (Items R × Val R) := plainAttach own val

end Verif.Core
