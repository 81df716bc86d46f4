import Mathlib.Analysis.Real.Sqrt
import Mathlib.Data.List.Basic

/-!
Contexts, measurements and names of units of the units package (`trunk/SUAVE/Plugins/pint/{context,measurement,unit}.py`).
-/

namespace Verif.Units

/-! ### Contexts

A context is known by its name and has transformations between dimensions ("edges") and values of parameters (`defaults`).
With parameters a new context object is made for every activation (`from_context`), it is referred to weakly by its own table of
transformations and strongly only from the list `_contexts` of the chain. -/

/-- Parameters: the first entry of a name counts; `dict(a, **b)` is `b ++ a`. -/
abbrev Params (V : Type) := List (String × V)

/-- A context object: that of the registry or one made by `from_context`, which carries a serial number. -/
structure Ctx (N V : Type) where
  name : N
  serial : Option ℕ
  defaults : Params V
deriving DecidableEq

/-- The registry: transformations and parameters of the contexts by name. -/
structure Registry (N D V : Type) where
  edges : N → List (D × D)
  defaults : N → Params V

/-- `ContextChain`: `maps` (each the table of one context), `_contexts` (each entry a tuple), and the serial number of the next
object. -/
structure Chain (N V : Type) where
  maps : List (Ctx N V)
  strong : List (List (Ctx N V))
  next : ℕ

variable {N D V : Type} [DecidableEq N] [DecidableEq D] [DecidableEq V]

/-- Objects of the registry live on, others as long as a tuple of `_contexts` holds them (`context.py` 87, 206, 213). -/
def Chain.alive (s : Chain N V) (c : Ctx N V) : Bool := c.serial.isNone || decide (c ∈ s.strong.flatten)

/-- The table `relation_to_context` of a context as found in `maps`: empty once the object is gone. -/
def Chain.table (r : Registry N D V) (s : Chain N V) (c : Ctx N V) : List (D × D) := if s.alive c then r.edges c.name else []

/-- `ContextChain.__getitem__`: the first map with the transformation (`compat.py` 76-82). -/
def Chain.find (r : Registry N D V) (s : Chain N V) (e : D × D) : Option (Ctx N V) := s.maps.find? fun c => decide (e ∈ s.table r c)

/-- `ContextChain.defaults`, `context.py` 218-221: `none` is the `IndexError` when the first map is empty and another is not. -/
def Chain.defaults (r : Registry N D V) (s : Chain N V) : Option (Params V) :=
  if s.maps.all fun c => decide (s.table r c = []) then some []
  else match s.maps with
    | c :: _ => if s.table r c = [] then none else some c.defaults
    | [] => some []

/-- `Context.from_context`, `context.py` 90-104. -/
def fromContext (r : Registry N D V) (n : N) (kw : Params V) (serial : ℕ) : Ctx N V :=
  if kw = [] then ⟨n, none, r.defaults n⟩ else ⟨n, some serial, kw ++ r.defaults n⟩

/-- The objects made for a list of names, numbered from `k`. -/
def fromContexts (r : Registry N D V) (kw : Params V) : ℕ → List N → List (Ctx N V)
  | _, [] => []
  | k, n :: l => fromContext r n kw k :: fromContexts r kw (k + 1) l

/-- `enable_contexts`, `unit.py` 485-518 with `insert_contexts`, `context.py` 199-208, for contexts given by name. The check of
dimensions (502-511) is left out. -/
def Chain.enable (r : Registry N D V) (s : Chain N V) (names : List N) (kw : Params V) : Option (Chain N V) :=
  (s.defaults r).map fun d =>
    let kw := kw ++ d
    let cs := fromContexts r kw s.next names
    ⟨cs.reverse ++ s.maps, cs :: s.strong, s.next + names.length⟩

/-- `remove_contexts`, `context.py` 210-215. -/
def Chain.remove (s : Chain N V) (n : ℕ) : Chain N V := ⟨s.maps.drop n, s.strong.drop n, s.next⟩

/-- What a program does with contexts: look up a transformation, or run a block under `with ureg.context(*names, **kw)`. -/
inductive Use (N D V : Type) where
  | look (e : D × D)
  | block (names : List N) (kw : Params V) (body : List (Use N D V))

/-- The answers of the look-ups, in order, and the chain left behind; `with` removes `len(names)` contexts at the end
(`unit.py` 566-575). -/
def runUses (r : Registry N D V) : List (Use N D V) → Chain N V → Option (List (Option (N × Params V)) × Chain N V)
  | [], s => some ([], s)
  | .look e :: l, s => (runUses r l s).map fun o => ((s.find r e).map (fun c => (c.name, c.defaults)) :: o.1, o.2)
  | .block names kw body :: l, s => (s.enable r names kw).bind fun s1 => (runUses r body s1).bind fun o =>
      (runUses r l (o.2.remove names.length)).map fun o' => (o.1 ++ o'.1, o'.2)

/-! ### Measurements -/

/-- A measurement: value and error in the same units. -/
structure Meas where
  v : ℝ
  e : ℝ

open Classical in
/-- `Measurement.__init__`, `measurement.py` 25-37: the test of units divides by the error. -/
noncomputable def mkMeas (v e : ℝ) : Option Meas := if e = 0 then none else if e < 0 then none else some ⟨v, e⟩

/-- The other operand. -/
inductive Operand where
  | meas (m : Meas)
  | plain (q : ℝ)

/-- `_add_sub`, 51-57: the operator is not used, and `other.value` does not exist for a plain quantity. -/
noncomputable def Meas.addSub (m : Meas) (o : Operand) (_op : ℝ → ℝ → ℝ) : Option Meas :=
  match o with
  | .meas n => mkMeas (m.v + n.v) (Real.sqrt (m.e ^ 2 + n.e ^ 2))
  | .plain _ => none

/-- `__add__`, `__radd__`; `__sub__`, `__rsub__`. -/
noncomputable def Meas.add (m : Meas) (o : Operand) : Option Meas := m.addSub o (· + ·)
noncomputable def Meas.sub (m : Meas) (o : Operand) : Option Meas := m.addSub o (· - ·)

open Classical in
/-- `rel`, 47-49. -/
noncomputable def Meas.rel (m : Meas) : Option ℝ := if m.v = 0 then none else some |m.e / m.v|

open Classical in
/-- `_mul_div`, 69-75, with the operator as a function that may fail. The relative error is turned into an absolute one by
`plus_minus` (`quantity.py` 744-745). -/
noncomputable def Meas.mulDiv (m : Meas) (o : Operand) (op : ℝ → ℝ → Option ℝ) : Option Meas :=
  match o with
  | .meas n => (op m.v n.v).bind fun r => m.rel.bind fun a => n.rel.bind fun b => mkMeas r (Real.sqrt (a ^ 2 + b ^ 2) * |r|)
  | .plain q => (op m.v q).bind fun r => (op m.e q).bind fun e => mkMeas r |e|

open Classical in
/-- `operator.truediv`. -/
noncomputable def trueDiv (a b : ℝ) : Option ℝ := if b = 0 then none else some (a / b)

/-- `__mul__`, `__rmul__` and `__truediv__`. -/
noncomputable def Meas.mul (m : Meas) (o : Operand) : Option Meas := m.mulDiv o fun a b => some (a * b)
noncomputable def Meas.div (m : Meas) (o : Operand) : Option Meas := m.mulDiv o trueDiv

/-! ### Names -/

/-- The tables of the registry: spellings of prefixes and suffixes with their names in the order of the dictionaries, and the
canonical name of every spelling of a unit. -/
structure NameTables where
  suffixes : List (List Char × List Char)
  prefixes : List (List Char × List Char)
  units : List Char → Option (List Char)

/-- `parse_unit_name`, `unit.py` 907-921, for one suffix and prefix. -/
def NameTables.candidate (t : NameTables) (w : List Char) (sfx pre : List Char × List Char) : Option (List Char × List Char × List Char) :=
  if pre.1.isPrefixOf w && sfx.1.isSuffixOf w then
    let name := w.drop pre.1.length
    let name' := if sfx.1 = [] then name else name.take (name.length - sfx.1.length)
    if sfx.1 ≠ [] ∧ name'.length = 1 then none
    else (t.units name').map fun u => (pre.2, u, sfx.2)
  else none

/-- All candidates, suffixes in the outer loop. -/
def NameTables.candidates (t : NameTables) (w : List Char) : List (List Char × List Char × List Char) :=
  t.suffixes.flatMap fun s => t.prefixes.filterMap fun p => t.candidate w s p

/-- `_dedup_candidates`, 890-905: the loop starts with the third candidate. -/
def dedup {α : Type} [DecidableEq α] (l : List α) : List α :=
  match l with
  | [] => []
  | [a] => [a]
  | a :: _ :: rest => rest.foldl (fun unique c => if c ∈ unique then unique else unique ++ [c]) [a]

/-- `get_name`, 693-716: the canonical name and whether a warning about several readings was given; `none` is
`UndefinedUnitError`. Registered spellings are looked up first. The word `dimensionless`, answered by the empty name before all (689), is left out. -/
def NameTables.getName (t : NameTables) (w : List Char) : Option (List Char × Bool) :=
  match t.units w with
  | some n => some (n, false)
  | none =>
    match dedup (t.candidates w) with
    | [] => none
    | (p, u, _) :: l => some (p ++ u, decide (l ≠ []))

end Verif.Units
