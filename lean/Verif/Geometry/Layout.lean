import Mathlib.Data.Real.Basic
import Mathlib.Analysis.SpecialFunctions.Sqrt
import Mathlib.Analysis.SpecialFunctions.Trigonometric.Basic

/-!
# Control-surface sections, origins and fuselage lengths

Models of `trunk/SUAVE/Methods/Geometry/Two_Dimensional/Planform/`
* `populate_control_sections.py`,
* `rescale_non_dimensional.py`,
* `fuselage_planform.py`.
-/

namespace Verif.Geometry

/-! ### populate_control_sections.py -/

/-- The fields of a control surface that `populate_control_sections` reads and writes
(`populate_control_sections.py` 118-132).  `kind` stands for the class of the object (`type(cs)()`)
together with the optional `cs_type`. -/
structure Surface where
  kind : String
  tag : String
  span : ℝ
  start : ℝ
  stop : ℝ
  hinge : ℝ
  chord : ℝ
  sign : ℝ
  deflection : ℝ
  configuration : String
  gain : ℝ

/-- The case distinction of `populate_control_sections.py` 74-114 for one panel between the
stations `a` (segment `i-1`) and `b` (segment `i`): the span fractions of the piece, if any. -/
noncomputable def piece (sf0 sf1 a b : ℝ) : Option (ℝ × ℝ) :=
  if sf0 < a ∧ sf1 < b ∧ sf1 > a then some (a, sf1)
  else if sf0 < a ∧ sf1 = b then some (a, b)
  else if sf0 < a ∧ sf1 > b then some (a, b)
  else if sf0 = a ∧ sf1 < b then some (a, sf1)
  else if sf0 = a ∧ sf1 = b then some (a, b)
  else if sf0 > a ∧ sf1 < b then some (sf0, sf1)
  else if sf0 > a ∧ sf1 = b then some (sf0, b)
  else if sf0 > a ∧ sf1 > b ∧ sf0 < b then some (sf0, b)
  else none

/-- The new control surface stored on the segment (`populate_control_sections.py` 118-132). -/
noncomputable def section_ (cs : Surface) (s : ℝ × ℝ) : Surface :=
  { kind := cs.kind
    tag := cs.tag
    span := cs.span * (s.2 - s.1) / (cs.stop - cs.start)
    start := s.1
    stop := s.2
    hinge := cs.hinge
    chord := cs.chord
    sign := cs.sign
    deflection := cs.deflection
    configuration := cs.configuration
    gain := cs.gain }

/-- What one control surface contributes to the segments `1, 2, …`, in order: at most one section
each (`populate_control_sections.py` 66-134).  The argument is the list of span locations of all
segments; the first segment never gets a section (line 70). -/
noncomputable def sections (cs : Surface) : List ℝ → List (Option Surface)
  | a :: b :: rest => (piece cs.start cs.stop a b).map (section_ cs) :: sections cs (b :: rest)
  | _ => []

/-- `populate_control_sections`, all control surfaces of a wing: entry `i` of the result lists the
sections appended to segment `i + 1`, in the order of the wing's control surfaces
(`populate_control_sections.py` 56-134). -/
noncomputable def populate (css : List Surface) (stations : List ℝ) : List (List Surface) :=
  (List.range (stations.length - 1)).map fun i => css.filterMap fun cs => ((sections cs stations)[i]?).join

/-! ### rescale_non_dimensional.py -/

/-- A point. -/
abbrev P3 := ℝ × ℝ × ℝ

/-- Multiply a point by a number. -/
def P3.smul (k : ℝ) (p : P3) : P3 := (k * p.1, k * p.2.1, k * p.2.2)

/-- A component with an origin (a list of rows) and its non-dimensional copy. -/
structure Body where
  origin : List P3
  nonDim : List P3

/-- A network: number of engines, origins, non-dimensional origins. -/
structure Net where
  n : ℕ
  origin : List P3
  nonDim : List P3

/-- What the two functions read and write of a vehicle.  `fuselageLength` is
`vehicle.fuselages.fuselage.lengths.total` if that can be read, `wingLength` likewise
`vehicle.wings.main_wing.lengths.total`. -/
structure Veh where
  fuselageLength : Option ℝ
  wingLength : Option ℝ
  wings : List Body
  fuselages : List Body
  networks : List Net

/-- `length_scale` (`rescale_non_dimensional.py` 49-55 and 103-109). -/
def Veh.scale (v : Veh) : ℝ := v.fuselageLength.getD (v.wingLength.getD 1)

/-- Wing and fuselage loops of `set_origin_non_dimensional` (57-67). -/
noncomputable def Body.toNon (L : ℝ) (b : Body) : Body := { b with nonDim := b.origin.map (P3.smul L⁻¹) }

/-- Wing and fuselage loops of `set_origin_dimensional` (111-121). -/
noncomputable def Body.toDim (L : ℝ) (b : Body) : Body := { b with origin := b.nonDim.map (P3.smul L) }

/-- Network loop of `set_origin_non_dimensional` (69-74): `none` for the `IndexError` when there
are fewer origins than engines. -/
noncomputable def Net.toNon (L : ℝ) (b : Net) : Option Net :=
  if b.n ≤ b.origin.length then some { b with nonDim := (b.origin.take b.n).map (P3.smul L⁻¹) } else none

/-- One engine of `set_origin_dimensional` (131-139): always the first non-dimensional origin, the
lateral coordinate mirrored for odd engines and zero for an unpaired last engine. -/
def engineAt (n : ℕ) (p : P3) (eng : ℕ) : P3 :=
  if eng % 2 ≠ 0 then (p.1, -p.2.1, p.2.2)
  else if eng = n - 1 then (p.1, 0, p.2.2)
  else p

/-- Network loop of `set_origin_dimensional` (123-141): `none` for the `IndexError` when there are
engines but no non-dimensional origin. -/
noncomputable def Net.toDim (L : ℝ) (b : Net) : Option Net :=
  match b.nonDim with
  | [] => if b.n = 0 then some { b with origin := [] } else none
  | p :: _ => some { b with origin := (List.range b.n).map (engineAt b.n (P3.smul L p)) }

/-- `set_origin_non_dimensional` (19-77). -/
noncomputable def setNonDim (v : Veh) : Option Veh := do
  let nets ← v.networks.mapM (Net.toNon v.scale)
  return { v with wings := v.wings.map (Body.toNon v.scale), fuselages := v.fuselages.map (Body.toNon v.scale), networks := nets }

/-- `set_origin_dimensional` (84-143). -/
noncomputable def setDim (v : Veh) : Option Veh := do
  let nets ← v.networks.mapM (Net.toDim v.scale)
  return { v with wings := v.wings.map (Body.toDim v.scale), fuselages := v.fuselages.map (Body.toDim v.scale), networks := nets }

/-! ### fuselage_planform.py -/

/-- Fuselage data read and written by `fuselage_planform` (61-70, 117-124). -/
structure Fuselage where
  seats : ℝ
  pitch : ℝ
  abreast : ℝ
  noseFineness : ℝ
  tailFineness : ℝ
  fore : ℝ
  aft : ℝ
  width : ℝ
  height : ℝ
  total : ℝ
  nose : ℝ
  tail : ℝ
  cabin : ℝ
  wetted : ℝ
  front : ℝ
  diameter : ℝ

/-- `fuselage_planform` (61-126); `round` is `numpy.round`. -/
noncomputable def fuselagePlanform (round : ℝ → ℝ) (f : Fuselage) : Fuselage :=
  let nose := f.noseFineness * f.width
  let tail := f.tailFineness * f.width
  let r : ℝ × ℝ × ℝ × ℝ × ℝ :=
    if f.total = 0 then
      let cabin := f.seats * f.pitch / f.abreast + f.fore + f.aft
      (cabin + nose + tail, nose, tail, cabin, f.seats)
    else
      let cabin := f.total - nose - tail
      let total := if f.total ≤ 0 then 1 else f.total
      let nose := if nose ≤ 0 then 1 else nose
      let tail := if tail ≤ 0 then 1 else tail
      let cabin := if cabin ≤ 1 then 1 else cabin
      let seats := round (cabin * f.abreast / f.pitch)
      (total, nose, tail, cabin, if seats ≤ 0 then 0 else seats)
  let a := f.width / 2
  let b := f.height / 2
  let R := (a - b) / (a + b)
  let C := Real.pi * (a + b) * (1 + 3 * R ^ 2 / (10 + Real.sqrt (4 - 3 * R ^ 2)))
  let D := (a + b) * (64 - 3 * R ^ 4) / (64 - 16 * R ^ 2)
  { f with
    total := r.1
    nose := r.2.1
    tail := r.2.2.1
    cabin := r.2.2.2.1
    seats := r.2.2.2.2
    wetted := C * r.2.2.2.1 + 3 / 4 * Real.pi * D * (r.2.1 + r.2.2.1)
    front := Real.pi * a * b
    diameter := D }

end Verif.Geometry
