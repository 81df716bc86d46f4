import Mathlib.Data.Rat.Defs
import Mathlib.Algebra.Order.Ring.Rat

/-!
The library of solids, and the properties of them that the buildup of weights reads for each role.

Source: trunk/SUAVE/Attributes/Solids; trunk/SUAVE/Methods/Weights/Buildups/Common/wing.py 137-187, prop.py 118-181, fuselage.py 81-119.

Simplifications: values are rational numbers in SI units. `none` stands for an attribute that is `None` or does not exist: the first use
of it raises.
-/

namespace Verif.Weights.Solids

/-- Properties of a solid (Solid.py 58-65); `minimum_width` is not among the defaults. -/
structure Solid where
  name : String
  uts : Option ℚ := none
  uss : Option ℚ := none
  ubs : Option ℚ := none
  yts : Option ℚ := none
  yss : Option ℚ := none
  ybs : Option ℚ := none
  mgt : Option ℚ := none
  density : Option ℚ := none
  width : Option ℚ := none

/-- `Acrylic.py 59-66`. -/
def acrylic : Solid := { name := "Acrylic", uts := some (75000000), uss := some (55200000), ubs := some (0), yts := some (75000000), yss := some (55200000), ybs := some (0), mgt := some (127 / 40000), density := some (1180) }

/-- `Aluminum.py 59-66`. -/
def aluminum : Solid := { name := "Aluminum", uts := some (310000000), uss := some (206000000), ubs := some (607000000), yts := some (276000000), yss := some (206000000), ybs := some (386000000), mgt := some (0), density := some (2700) }

/-- `Aluminum_Rib.py 60-61, on top of Aluminum.py`. -/
def aluminumRib : Solid := { name := "Aluminum_Rib", uts := some (310000000), uss := some (206000000), ubs := some (607000000), yts := some (276000000), yss := some (206000000), ybs := some (386000000), mgt := some (3 / 2000), density := some (2700), width := some (127 / 5000) }

/-- `Bidirectional_Carbon_Fiber.py 58-65`. -/
def bidirectionalCarbonFiber : Solid := { name := "Bidirectional_Carbon_Fiber", uts := some (600000000), uss := some (90000000), ubs := some (600000000), yts := some (600000000), yss := some (90000000), ybs := some (600000000), mgt := some (21 / 50000), density := some (1600) }

/-- `Carbon_Fiber_Honeycomb.py 58-65`. -/
def carbonFiberHoneycomb : Solid := { name := "Carbon_Fiber_Honeycomb", uts := some (1000000), uss := some (1000000), ubs := some (1000000), yts := some (1000000), yss := some (1000000), ybs := some (1000000), mgt := some (13 / 2000), density := some (55) }

/-- `Copper.py 62`. -/
def copper : Solid := { name := "Copper", density := some (8960) }

/-- `Epoxy.py 58-65`. -/
def epoxy : Solid := { name := "Epoxy", uts := some (0), uss := some (0), ubs := some (0), yts := some (0), yss := some (0), ybs := some (0), mgt := some (1 / 4000), density := some (1800) }

/-- `Magnesium.py 60-67`. -/
def magnesium : Solid := { name := "Magnesium", uts := some (200000000), uss := some (138000000), ubs := some (330000000), yts := some (135000000), yss := some (138000000), ybs := some (130000000), mgt := some (0), density := some (1840) }

/-- `Nickel.py 57-64`. -/
def nickel : Solid := { name := "Nickel", uts := some (1830000000), uss := some (1050000000), ubs := some (1830000000), yts := some (1550000000), yss := some (1050000000), ybs := some (1550000000), mgt := some (0), density := some (8430) }

/-- `Paint.py 58-65`. -/
def paint : Solid := { name := "Paint", uts := some (0), uss := some (0), ubs := some (0), yts := some (0), yss := some (0), ybs := some (0), mgt := some (3 / 20000), density := some (1800) }

/-- `Steel.py 58-65`. -/
def steel : Solid := { name := "Steel", uts := some (1110000000), uss := some (825000000), ubs := some (1110000000), yts := some (710000000), yss := some (410000000), ybs := some (710000000), mgt := some (0), density := some (7850) }

/-- `Titanium.py 60-67`. -/
def titanium : Solid := { name := "Titanium", uts := some (950000000), uss := some (550000000), ubs := some (1860000000), yts := some (880000000), yss := some (550000000), ybs := some (1480000000), mgt := some (0), density := some (4430) }

/-- `Unidirectional_Carbon_Fiber.py 59-66`. -/
def unidirectionalCarbonFiber : Solid := { name := "Unidirectional_Carbon_Fiber", uts := some (1500000000), uss := some (70000000), ubs := some (1500000000), yts := some (1500000000), yss := some (70000000), ybs := some (1500000000), mgt := some (21 / 50000), density := some (1600) }

/-- All solids of the library. -/
def library : List Solid :=
  [acrylic, aluminum, aluminumRib, bidirectionalCarbonFiber, carbonFiberHoneycomb, copper, epoxy,
    magnesium, nickel, paint, steel, titanium, unidirectionalCarbonFiber]

/-- Roles in the buildup of weights. -/
inductive Role
  | torsion | core | bending | glue | cover | rib | web | keelBending | keelShear | keelBearing | bolt | skin
  deriving DecidableEq

/-- What is read for a role, outside of the `try` (wing.py 141-187; fuselage.py 85-118). -/
def reads (s : Solid) : Role → List (Option ℚ)
  | .torsion => [s.uss, s.density, s.mgt]
  | .core => [s.density, s.mgt]
  | .bending => [s.uts, s.density]
  | .glue => [s.mgt, s.density]
  | .cover => [s.mgt, s.density]
  | .rib => [s.width, s.mgt, s.density]
  | .web => [s.mgt, s.density, s.uss]
  | .keelBending => [s.density, s.uts]
  | .keelShear => [s.density, s.uss]
  | .keelBearing => [s.density, s.ubs]
  | .bolt => [s.uss]
  | .skin => [s.mgt, s.density]

/-- The values for a role; `none` if one is missing. -/
def values (s : Solid) (r : Role) : Option (List ℚ) := (reads s r).mapM id

end Verif.Weights.Solids
