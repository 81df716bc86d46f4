import Verif.Energy.GasTurbine
import Verif.Core.Model

/-!
The shaft power off-take of a turbofan as a component the user attaches to the network.

Source: trunk/SUAVE/Components/Energy/Networks/Turbofan.py 115-127, 173-183, 214-217; trunk/SUAVE/Core/Data.py 24-26, 514-536 (`append`).

Simplifications: the other components are already in the network (`engine`, whose own `offTake` is overridden); what is kept by name are
only the off-takes attached. `none` stands for the `KeyError` of `append`.
-/

namespace Verif.Energy.AppendedOffTake

open Verif.Energy.GasTurbine

/-- A turbofan with off-takes attached under names. -/
structure Assembly where
  engine : Turbofan
  parts : List (List Char × OffTake)

/-- `network.append(off_take)` (Core/Data.py 514-536): under the translated tag, which must be free. -/
def Assembly.append (a : Assembly) (tag : List Char) (o : OffTake) : Option Assembly :=
  if (Core.norm tag) ∈ a.parts.map Prod.fst then none else some { a with parts := a.parts ++ [(Core.norm tag, o)] }

/-- Appending several, one after the other. -/
def Assembly.appendAll (a : Assembly) : List (List Char × OffTake) → Option Assembly
  | [] => some a
  | (t, o) :: rest => (a.append t o).bind fun b => b.appendAll rest

/-- `network.name = off_take`: under the name as it is written. -/
def Assembly.assign (a : Assembly) (name : List Char) (o : OffTake) : Assembly :=
  { a with parts := (name, o) :: a.parts.filter fun p => p.1 ≠ name }

/-- The name `evaluate_thrust` looks for (Turbofan.py 174). -/
def wanted : List Char := "Shaft_Power_Off_Take".toList

/-- `evaluate_thrust` (Turbofan.py 79-298): without an attribute of that name both `try` blocks (173-183, 214-217) pass. -/
noncomputable def Assembly.evaluate (a : Assembly) (c : Amb) (throttle : ℝ) : Results :=
  { a.engine with offTake := a.parts.lookup wanted }.evaluate c throttle

/-- `turbofan_sizing` (turbofan_sizing.py 86-196), which leaves off-takes alone. -/
noncomputable def Assembly.size (a : Assembly) (c : Amb) (throttle design : ℝ) : Assembly :=
  { a with engine := a.engine.size c throttle design }

end Verif.Energy.AppendedOffTake
