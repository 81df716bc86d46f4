import Mathlib.Analysis.SpecialFunctions.Trigonometric.Basic
import Mathlib.Analysis.SpecialFunctions.Pow.Real

/-!
The drag build-up of the subsonic analysis (`Analyses/Aerodynamics/Fidelity_Zero.py:94-115`), one row.
-/

namespace Verif.Aero
open Real

/-- An entry of `drag_breakdown.parasite` (parasite_drag_wing.py:167-180 and alike). -/
structure Entry where
  cd : ℝ
  wetted : ℝ
  ref : ℝ
  cf : ℝ
  kComp : ℝ
  kReyn : ℝ
  k : ℝ

/-- `drag_breakdown.parasite`, by tag. The attribute `total` is kept apart. -/
abbrev Breakdown := String → Option Entry

/-- Assignment of an entry. -/
def put (d : Breakdown) (t : String) (e : Entry) : Breakdown := fun s => if s = t then some e else d s

/-- A wing, fuselage or nacelle: tag, the area its coefficient refers to (parasite_total.py:60, 68, 73) and the entry its
own method computes. -/
structure Part where
  tag : String
  area : ℝ
  entry : Entry

/-- The methods of the parts store their entries (parasite_drag_wing.py:180, parasite_drag_fuselage.py:102,
parasite_drag_nacelle.py:91). -/
def record : List Part → Breakdown → Breakdown
  | [], d => d
  | p :: ps, d => record ps (put d p.tag p.entry)

/-- The loops of `parasite_total` (parasite_total.py:58-76) over the parts but a fuselage tagged `fuselage_bwb`;
`none` for a missing entry. -/
noncomputable def scaleAll (S : ℝ) : List Part → Breakdown → ℝ → Option (Breakdown × ℝ)
  | [], d, t => some (d, t)
  | p :: ps, d, t =>
    match d p.tag with
    | none => none
    | some e => scaleAll S ps (put d p.tag { e with cd := e.cd * p.area / S }) (t + e.cd * p.area / S)

/-- `parasite_total` (parasite_total.py:48-89). -/
noncomputable def parasiteTotal (S : ℝ) (parts : List Part) (d : Breakdown) : Option (Breakdown × ℝ) :=
  (scaleAll S parts d 0).map fun r =>
    (r.1, r.2 + match r.1 "pylon" with | some e => e.cd | none => 0)

/-- Sum of a field over the nacelles (parasite_drag_pylon.py:61-68); `none` for a missing entry. -/
noncomputable def pylonSum (f : Entry → ℝ) (d : Breakdown) : List Part → Option ℝ
  | [] => some 0
  | p :: ps =>
    match d p.tag, pylonSum f d ps with
    | some e, some r => some (f e + r)
    | _, _ => none

/-- The drag sum (parasite_drag_pylon.py:63). -/
noncomputable def pylonDrag (S : ℝ) (d : Breakdown) : List Part → Option ℝ
  | [] => some 0
  | p :: ps =>
    match d p.tag, pylonDrag S d ps with
    | some e, some r => some (0.2 * e.cd * (p.area / S) + r)
    | _, _ => none

/-- `parasite_drag_pylon` (parasite_drag_pylon.py:49-87); `networks` is `len(geometry.networks)`. The sums run from the
other end. -/
noncomputable def pylon (S : ℝ) (networks : ℕ) (nacelles : List Part) (d : Breakdown) : Option Breakdown :=
  if networks = 0 then none
  else do
    let cd ← pylonDrag S d nacelles
    let w ← pylonSum (fun e => 0.2 * e.wetted) d nacelles
    let cf ← pylonSum Entry.cf d nacelles
    let kc ← pylonSum Entry.kComp d nacelles
    let kr ← pylonSum Entry.kReyn d nacelles
    let k ← pylonSum Entry.k d nacelles
    pure (put d "pylon" ⟨cd, w, S, cf / networks, kc / networks, kr / networks, k / networks⟩)

/-- The process `compute.drag.parasite` (Fidelity_Zero.py:95-103). -/
noncomputable def parasite (S : ℝ) (networks : ℕ) (others nacelles : List Part) : Option (Breakdown × ℝ) := do
  let d ← pylon S networks nacelles (record (others ++ nacelles) fun _ => none)
  parasiteTotal S (others ++ nacelles) d

/-- What of a wing enters the induced drag: aspect ratio, `parasite[tag].reference_area`, `areas.reference`, lift and
inviscid drag coefficients on its own area, stored parasite coefficient. -/
structure IWing where
  ar : ℝ
  s : ℝ
  area : ℝ
  cl : ℝ
  cdi : ℝ
  cdp : ℝ

/-- `AR` (induced_drag_aircraft.py:86-87, 118-120 with `s`, 131-136 with `area`). -/
noncomputable def mainAR (f : IWing → ℝ) : List IWing → ℝ × ℝ → ℝ × ℝ
  | [], r => r
  | w :: ws, r => mainAR f ws (if r.1 < f w then (f w, w.ar) else r)

/-- `drag_breakdown.induced` after the call; `inviscid` is left as the lift analysis put it. -/
structure Induced where
  total : ℝ
  viscous : ℝ
  inviscid : ℝ
  oswald : ℝ
  inviscidWings : List ℝ

/-- The inviscid coefficient of a wing (induced_drag_aircraft.py:97, 104-112). -/
noncomputable def wingInviscid (eSpan : Option ℝ) (w : IWing) : ℝ :=
  match eSpan with
  | none => w.cdi
  | some e => w.cl ^ 2 / (π * w.ar * e)

/-- `induced_drag_aircraft` (induced_drag_aircraft.py:69-148). Division by zero yields zero. -/
noncomputable def induced (K : ℝ) (eOsw eSpan : Option ℝ) (CL CDi S : ℝ) (ws : List IWing) : Induced :=
  match eOsw with
  | none =>
    let v := (ws.map fun w => K * w.cdp * w.cl ^ 2 * (w.s / S)).sum
    let i := (ws.map fun w => wingInviscid eSpan w * (w.s / S)).sum
    let t := v + i
    ⟨t, v, CDi, CL ^ 2 / (π * (mainAR IWing.s ws (0, 0.01)).2 * t), ws.map (wingInviscid eSpan)⟩
  | some e =>
    let t := CL ^ 2 / (π * (mainAR IWing.area ws (0, 0.01)).2 * e)
    ⟨t, t - CDi, CDi, e, ws.map IWing.cdi⟩

/-- `untrimmed` (untrimmed.py:39-52). -/
noncomputable def untrimmed (par ind comp misc : ℝ) : ℝ := par + ind + comp + misc

/-- `trim` (trim.py:36-45). -/
noncomputable def trimmed (factor d : ℝ) : ℝ := factor * d

/-- `total_aircraft` (total_aircraft.py:43-59); `none` where the adjustment is minus one. -/
noncomputable def totalAircraft (d incr spoiler adj : ℝ) : Option ℝ :=
  if 1 + adj = 0 then none else some ((0 + (d + incr + spoiler)) / (1 + adj))

/-- `untrimmed`, `trim`, `spoiler_drag`, `total_aircraft` in turn (Fidelity_Zero.py:110-113). -/
noncomputable def aircraftDrag (par ind comp misc factor incr spoiler adj : ℝ) : Option ℝ :=
  totalAircraft (trimmed factor (untrimmed par ind comp misc)) incr spoiler adj

/-- `swet_tot` (miscellaneous_drag_aircraft_ESDU.py:54-64); nacelles with their wetted area and number of origins. -/
noncomputable def totalWetted (others : List ℝ) (nacelles : List (ℝ × ℕ)) : ℝ :=
  (others.sum + (nacelles.map fun n => n.1 * (n.2 : ℝ)).sum) * 1.10

/-- `D_q` (miscellaneous_drag_aircraft_ESDU.py:67). -/
noncomputable def excrescenceArea (s : ℝ) : ℝ := 0.40 * (0.0184 + 0.000469 * s - 1.13 * 10⁻¹ ^ 7 * s ^ 2)

/-- `cd_excrescence` (miscellaneous_drag_aircraft_ESDU.py:68). -/
noncomputable def excrescence (S : ℝ) (others : List ℝ) (nacelles : List (ℝ × ℕ)) : ℝ :=
  excrescenceArea (totalWetted others nacelles) / S

/-- `total_miscellaneous_drag` of the supersonic analysis (Supersonic_Zero miscellaneous_drag_aircraft.py:62-99), by
nacelle diameters. -/
noncomputable def miscSuper (S : ℝ) (diameters : List ℝ) : ℝ :=
  0 + (diameters.map fun d => 0.5 / 12 * π * d * 0.2 / S).sum + 0.006 / S + 0

/-- `windmilling_drag` (windmilling_drag.py:70-75), nacelles with wetted area and number of origins; the origins are not
looked at. -/
noncomputable def windmilling (S : ℝ) (nacelles : List (ℝ × ℕ)) : ℝ :=
  0.007274 * (nacelles.map Prod.fst).sum / S

end Verif.Aero
