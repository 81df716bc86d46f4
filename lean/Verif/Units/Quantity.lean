import Mathlib.LinearAlgebra.Finsupp.LinearCombination
import Mathlib.Analysis.SpecialFunctions.Pow.Real

/-!
# Units: conversion to and from base units

Models of the registry's `convert`, `get_base_units`, `parse_units` and of `define` for offset units
(`trunk/SUAVE/Plugins/pint/unit.py`), of the quantity arithmetic used to compose units
(`trunk/SUAVE/Plugins/pint/quantity.py`), and of the operators `x * unit` and `x / unit` installed by
`trunk/SUAVE/Core/Units.py`.

A `UnitsContainer` (a dictionary from unit names to non-zero exponents, zero entries being deleted)
is a finitely supported function.  The registry is given in resolved form: for each canonical name
the total factor to base units, the base units, and the offset if its converter is an
`OffsetConverter`; the recursion of `get_base_units` through references, parsing of names and
prefixes, contexts and the `Decimal` branch are not modelled.  Exponents are assumed to be printed
exactly.  Real numbers stand for floats.
-/

namespace Verif.Units

variable {N : Type}

/-- What the registry knows about a name: `isBase`, `converter.scale` times the factor of the
reference, the base units of the reference (itself for a base unit), `converter.offset` for an
`OffsetConverter`, and the name `'delta_' + name`. -/
structure Atom (N : Type) where
  isBase : Bool
  scale : ℝ
  dims : N →₀ ℝ
  offset : Option ℝ
  delta : N

abbrev Reg (N : Type) := N → Atom N

/-- Exceptions: `DimensionalityError`, `ValueError` (not a multiplicative unit), `TypeError`. -/
inductive Err where
  | dimensionality
  | value
  | type
  deriving DecidableEq

/-- The units returned by `get_base_units` (`unit.py` 787-817). -/
noncomputable def baseUnits (r : Reg N) (u : N →₀ ℝ) : N →₀ ℝ := Finsupp.linearCombination ℝ (fun n => (r n).dims) u

open Classical in
/-- The factor returned by `get_base_units` (787-817): `None` as soon as a converter is not a
`ScaleConverter`. -/
noncomputable def factor (r : Reg N) (u : N →₀ ℝ) : Option ℝ :=
  if ∀ n ∈ u.support, (r n).offset = none then some (u.prod fun n e => (r n).scale ^ e) else none

/-- `len(units) == 1` and the only name. -/
noncomputable def only (u : N →₀ ℝ) : Option N :=
  match u.support.toList with
  | [n] => some n
  | _ => none

open Classical in
/-- `get_dimensionality` (733-785) raises a `ValueError` for an offset unit that is not a base unit
inside a product. -/
noncomputable def dimensionOk (r : Reg N) (u : N →₀ ℝ) : Bool :=
  (only u).isSome || decide (∀ n ∈ u.support, (r n).isBase = true ∨ (r n).offset = none)

open Classical in
/-- The multiplicative part of `convert` (870-879). -/
noncomputable def convertScale (r : Reg N) (value : ℝ) (src dst : N →₀ ℝ) : Except Err ℝ :=
  if baseUnits r (src - dst) ≠ 0 then .error .dimensionality
  else match factor r (src - dst) with
    | none => .error .type
    | some f => .ok (f * value)

open Classical in
/-- `convert` (819-879) without active contexts. -/
noncomputable def convert (r : Reg N) (value : ℝ) (src dst : N →₀ ℝ) : Except Err ℝ :=
  if src = dst then .ok value
  else if dimensionOk r src = false ∨ dimensionOk r dst = false then .error .value
  else match (only src).bind fun n => (r n).offset.map fun o => ((r n).scale, o) with
    | some (s, o) =>
      match (only dst).bind fun n => (r n).offset.map fun o => ((r n).scale, o) with
      | some (s', o') => .ok (((value / s + o) - o') * s')
      | none => .error .dimensionality
    | none => convertScale r value src dst

open Classical in
/-- `parse_units(str(units))` (923-958): in a product, or with an exponent other than ±1, offset
units are replaced by their `delta_` versions. -/
noncomputable def parseBack (r : Reg N) (u : N →₀ ℝ) : N →₀ ℝ :=
  match only u with
  | some n => if |u n| ≠ 1 then u.mapDomain fun n => if (r n).offset.isSome then (r n).delta else n else u
  | none => u.mapDomain fun n => if (r n).offset.isSome then (r n).delta else n

/-- A quantity object. -/
structure Q (N : Type) where
  mag : ℝ
  units : N →₀ ℝ

/-- `Units.name` or `Units['expression']`: a new object with magnitude one (`unit.py` 430-434). -/
def fresh (u : N →₀ ℝ) : Q N := ⟨1, u⟩

/-- `x * unit` and `unit * x` for a number `x` (`Core/Units.py` 28-51): the value and the unit object
afterwards. -/
noncomputable def rmul (r : Reg N) (q : Q N) (x : ℝ) : Except Err (ℝ × Q N) := do
  let m ← convert r x q.units (baseUnits r q.units)
  return (m, ⟨m, baseUnits r q.units⟩)

/-- `x / unit` for a number `x` (`Core/Units.py` 55-80). -/
noncomputable def rdiv (r : Reg N) (q : Q N) (x : ℝ) : Except Err (ℝ × Q N) := do
  let _ ← convert r q.mag q.units (baseUnits r q.units)
  let m ← convert r x (baseUnits r q.units) (parseBack r q.units)
  return (m, ⟨m, parseBack r q.units⟩)

/-- `unit * unit` (`quantity.py` 319-323). -/
noncomputable def qmul (a b : Q N) : Q N := ⟨a.mag * b.mag, a.units + b.units⟩

/-- `unit / unit` (`quantity.py` 327-339). -/
noncomputable def qdiv (a b : Q N) : Q N := ⟨a.mag / b.mag, a.units - b.units⟩

/-- `unit ** p` (`quantity.py` 370-378). -/
noncomputable def qpow (a : Q N) (p : ℝ) : Q N := ⟨a.mag ^ p, p • a.units⟩

/-- `define` for an offset unit (`unit.py` 608-625): the atom registered as `'delta_' + name`: a
`ScaleConverter` with the same scale, and the delta version of the reference. -/
noncomputable def deltaAtom (r : Reg N) (n : N) : Atom N :=
  { isBase := (r n).isBase, scale := (r n).scale, dims := (r n).dims.mapDomain fun b => (r b).delta,
    offset := none, delta := (r n).delta }

end Verif.Units
