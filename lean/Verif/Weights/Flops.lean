import Verif.Weights.Common
import Mathlib.Analysis.SpecialFunctions.Trigonometric.Basic

/-!
The FLOPS correlations, `Methods/Weights/Correlations/FLOPS`, and what of Raymer's, `Methods/Weights/Correlations/Raymer`,
differs in kind.  Lengths, areas and masses are in metres and kilograms on entry, as in the code.
-/

namespace Verif.Weights
open Real

/-- `Units.nmi` in metres (Plugins/pint/default_en.txt:157). -/
noncomputable def nmi : ℝ := 1852

/-! ### Payload, operating items, systems -/

open Classical in
/-- Baggage per passenger (FLOPS/payload.py:44-49), range in nautical miles. -/
noncomputable def baggageFlops (r : ℝ) : ℝ := if r ≤ 900 then 35 * lb else if r ≤ 2900 then 40 * lb else 44 * lb

/-- `payload_FLOPS` (FLOPS/payload.py:41-58). -/
noncomputable def payloadFlops (n cargo range : ℝ) (wp : ℝ := 165 * lb) : Payload :=
  let p := n * wp
  let b := baggageFlops (range / nmi) * n
  ⟨p, b, cargo, p + b + cargo / lb⟩

/-- First, business and tourist class passengers (FLOPS/operating_items.py:75-82); `coach` if the fuselage has
`number_coach_seats`. -/
noncomputable def classes (n : ℝ) (coach : Option ℝ) : ℝ × ℝ × ℝ :=
  match coach with
  | some t =>
    let f := (n - t) / 4
    (f, n - f - t, t)
  | none =>
    let f := n / 20
    let b := n / 10
    (f, b, n - f - b)

open Classical in
/-- `NGALC` (FLOPS/operating_items.py:89-94). -/
noncomputable def galleyCrew (n : ℝ) : ℝ := if n ≥ 150 then 1 + (⌊n / 250⌋ : ℤ) else 0

open Classical in
/-- `NTANK` (FLOPS/operating_items.py:65-71): tanks per wing and fuselage. -/
noncomputable def tanks (wings fuses : List ℕ) : ℝ :=
  let t := wings.sum + fuses.sum
  if t = 0 then 5 else t

/-- `operating_items_FLOPS` (FLOPS/operating_items.py:56-109). -/
noncomputable def operatingItemsFlops (n neng thrust S zf range mach cargo : ℝ) (coach : Option ℝ)
    (wt ftanks : List ℕ) : Oper :=
  let T := thrust / lbf
  let wuf := 11.5 * neng * T ^ (0.2 : ℝ) + 0.07 * (S / ft ^ 2) + 1.6 * tanks wt ftanks * (zf / lb) ^ (0.28 : ℝ)
  let woil := 0.082 * neng * T ^ (0.65 : ℝ)
  let c := classes n coach
  let wsrv := (5.164 * c.1 + 3.846 * c.2.1 + 2.529 * c.2.2) * (range / nmi / mach) ^ (0.255 : ℝ)
  let wcon := 175 * ((⌈cargo / lb * 1 / 950⌉ : ℤ) : ℝ)
  let l := wuf * lb + woil * lb + wsrv * lb + wcon * lb
  let cr := flightCrew n * 225 * lb
  let at' := (attendants n * 155 + galleyCrew n * 200) * lb
  ⟨l, cr, at', l + cr + at'⟩

/-- Items of the systems in pounds and their result (FLOPS/systems.py:119-129, Raymer/systems.py:108-118): every item is
converted to kilograms, `wt_systems` is not. -/
noncomputable def systemsOut (p : Sys) : Sys × ℝ :=
  (p.scale lb, p.control + p.apu + p.instruments + p.hyd + p.elec + p.avionics + p.furnish + p.ac + p.antiIce)

/-- `WAI`, anti-icing in pounds (FLOPS/systems.py:88-91, 116-117): the vehicle's entries are looked up for `nacelle`, `some`
its diameter if there is such an entry. -/
noncomputable def antiIceFlops (span sweep neng width : ℝ) (nacelle : Option ℝ) : ℝ :=
  let fnac := (nacelle.map (· / ft)).getD 0
  span / ft * 1 / cos sweep + 3.8 * fnac * neng + 1.5 * (width / ft)

/-- The entries a vehicle is created with (Vehicle.py:58-71). -/
def vehicleKeys : List String :=
  ["tag", "fuselages", "wings", "networks", "nacelles", "systems", "mass_properties", "payload", "costs", "envelope",
   "landing_gear", "reference_area", "passengers", "performance"]

/-- `vehicle.nacelle.diameter` if `'nacelle' in vehicle.keys()` (FLOPS/systems.py:88-91) on a vehicle whose nacelles, in the
container `nacelles`, have the diameter `d`, with further entries `extra`. -/
def nacelleEntry (extra : List String) (d : ℝ) : Option ℝ :=
  if "nacelle" ∈ vehicleKeys ++ extra then some d else none

/-! ### Propulsion -/

/-- `TNAC` (FLOPS/prop_system.py:111, 139). -/
noncomputable def tnac (n : ℝ) : ℝ := n + 1 / 2 * (n - 2 * (⌊n / 2⌋ : ℤ))

/-- `engine_FLOPS` (FLOPS/prop_system.py:232-247), thrust in newtons. -/
noncomputable def engineFlops (ac : String) (thrust : ℝ) : ℝ :=
  let T := thrust / lbf
  let w := if ac = "short-range" ∨ ac = "commuter" then T / 10.5 else T / 5.5
  (w * (T / T) ^ (1.15 : ℝ) + 0 + 0) * lb

/-- `nacelle_FLOPS` (FLOPS/prop_system.py:110-116). -/
noncomputable def nacelleFlops (n D L thrust : ℝ) : ℝ :=
  0.25 * tnac n * (D / ft) * (L / ft) * (thrust / lbf) ^ (0.36 : ℝ) * lb

/-- `thrust_reverser_FLOPS` (FLOPS/prop_system.py:138-142). -/
noncomputable def reverserFlops (n thrust : ℝ) : ℝ := 0.034 * (thrust / lbf) * tnac n * lb

/-- `misc_engine_FLOPS` (FLOPS/prop_system.py:173-179): controls and starter. -/
noncomputable def miscFlops (n thrust D mach : ℝ) : ℝ × ℝ :=
  (0.26 * n * (thrust / lbf) ^ (0.5 : ℝ) * lb, 11 * n * mach ^ (0.32 : ℝ) * (D / ft) ^ (1.6 : ℝ) * lb)

/-- `fuel_system_FLOPS`, `fuel_system_Raymer` (FLOPS/prop_system.py:200-203, Raymer/prop_system.py:150-153). -/
noncomputable def fuelSystemFlops (n zf mach : ℝ) : ℝ :=
  1.07 * (zf / lb) ^ (0.58 : ℝ) * n ^ (0.43 : ℝ) * mach ^ (0.34 : ℝ) * lb

/-- `total_prop_flops` (FLOPS/prop_system.py:62-80): `places` is the number of engine positions. -/
noncomputable def totalPropFlops (ac : String) (n places thrust D L mach zf : ℝ) : PropData :=
  totalProp n (engineFlops ac thrust) (fuelSystemFlops n zf mach) (miscFlops n thrust D mach).1
    (miscFlops n thrust D mach).2 (reverserFlops n thrust) (nacelleFlops places D L thrust)

/-! ### Wing -/

/-- `wing_weight_constants_FLOPS` (FLOPS/wing.py:438-450). -/
noncomputable def wingConstants (ac : String) : List ℝ :=
  if ac = "short_range" ∨ ac = "business" ∨ ac = "commuter" then [30, 0, 0.25, 0.5, 0.5, 0.16, 1.2]
  else [8.8, 6.25, 0.68, 0.34, 0.6, 0.035, 1.5]

/-- `W1NIR`, `W2` and `W3` (FLOPS/wing.py:222-227) from the bending factor `BT`, span, ultimate load, utilization factors,
`CAYF` and the number of main wings; flap and wing area in square feet, gross weight in pounds. -/
noncomputable def wingParts (A : List ℝ) (BT span ulf fcomp faert cayf nwings sflap SW DG : ℝ) : ℝ × ℝ × ℝ :=
  (A.getD 0 0 * BT * (1 + √(A.getD 1 0 / span)) * ulf * span * (1 - 0.4 * fcomp) * (1 - 0.1 * faert) * cayf * 1
      * (1 / nwings) / 10 ^ 6,
    A.getD 2 0 * (1 - 0.17 * fcomp) * sflap ^ A.getD 3 0 * DG ^ A.getD 4 0,
    A.getD 5 0 * (1 - 0.3 * fcomp) * SW ^ A.getD 6 0)

/-- `WWING` (FLOPS/wing.py:228-229) in pounds. -/
noncomputable def wwing (DG caye w1nir w2 w3 : ℝ) : ℝ :=
  let w1 := (DG * caye * w1nir + w2 + w3) / (1 + w1nir) - w2 - w3
  w1 + w2 + w3

/-- `CAYF` (FLOPS/wing.py:214-219): with more than one fuselage the code asks for `vehicle.fuselage`, which a vehicle does
not have; without any it asks for it too.  `none` for the exception. -/
noncomputable def cayf (nfuse : ℕ) : Option ℝ := if nfuse = 1 then some 1 else none

open Classical in
/-- `CAYA` (FLOPS/wing.py:74-77). -/
noncomputable def caya (AR : ℝ) : ℝ := if AR ≤ 5 then 0 else AR - 5

/-- `BT` of the simple method (FLOPS/wing.py:88-97). -/
noncomputable def btSimple (AR tr sweep tc faert fstrt : ℝ) : ℝ :=
  let ems := 1 - 0.25 * fstrt
  let tlam := tan sweep - 2 * (1 - tr) / (AR * (1 + tr))
  let slam := tlam / √(1 + tlam ^ 2)
  let c6 := 0.5 * faert - 0.16 * fstrt
  let c4 := 1 - 0.5 * faert
  let cayl := (1 - slam ^ 2) * (1 + c6 * slam ^ 2 + 0.03 * caya AR * c4 * slam)
  0.215 * (0.37 + 0.7 * tr) * AR ^ ems / (cayl * tc)

/-- `wing_weight_FLOPS` with 'Simple' (FLOPS/wing.py:62-98, 210-231): wing area and span in metres, `new` engines on the
wing. -/
noncomputable def wingFlopsSimple (ac : String) (S b tr sweep tc flap nult tow new faert fstrt fcomp nwings : ℝ)
    (nfuse : ℕ) : Option ℝ :=
  (cayf nfuse).map fun cf =>
    let SW := S / ft ^ 2
    let span := b / ft
    let AR := span ^ 2 / SW
    let DG := tow / lb
    let p := wingParts (wingConstants ac) (btSimple AR tr sweep tc faert fstrt) span nult fcomp faert cf nwings (flap * SW)
      SW DG
    wwing DG (1 - 0.03 * new) p.1 p.2.1 p.2.2 * lb

open Classical in
/-- `DEN` of the complex method (FLOPS/wing.py:202-203): `SA**2 / + .03 * CAYA * …` divides; `none` for the division by
zero. -/
noncomputable def denComplex (AR faert fstrt sa : ℝ) : Option ℝ :=
  let d := 0.03
  if d = 0 then none
  else some (AR ^ (0.25 * fstrt) * (1 + (0.5 * faert - 0.16 * fstrt) * sa ^ 2 / d * caya AR * (1 - 0.5 * faert) * sa))

/-- `determine_fuselage_chord` (FLOPS/wing.py:477-488) in feet: root chord, semispan, chord fraction and station of the first
two segments, fuselage width; all lengths in feet. -/
noncomputable def fuselageChord (root semispan c1 y1 c2 y2 width : ℝ) : ℝ :=
  let b := (y2 - y1) * semispan
  let taper := (root * c2) / (root * c1)
  root * c1 * (1 - (1 - taper) * 2 * (width / 2) / b)

/-- The inner loop of `generate_int_stations` (FLOPS/wing.py:350-352): `np` further points `step` apart after `y`. -/
noncomputable def addPoints (y step : ℝ) : ℕ → List ℝ
  | 0 => []
  | k + 1 => (y + step) :: addPoints (y + step) step k

open Classical in
/-- `NP` (FLOPS/wing.py:346-348); `int` truncates. -/
noncomputable def npoints (a b desired : ℝ) : ℕ := max 1 ⌊(b - a) / desired + 0.5⌋₊

/-- The loop of `generate_int_stations` (FLOPS/wing.py:345-352) over `ETA[i-1], ETA[i]`, from the last point so far. -/
noncomputable def intLoop (desired : ℝ) : ℝ → List ℝ → ℝ → List ℝ
  | prev, e :: es, y =>
    let n := npoints prev e desired
    let step := (e - prev) / n
    let pts := addPoints y step n
    pts ++ intLoop desired e es (pts.getLastD y)
  | _, [], _ => []

/-- `generate_int_stations` (FLOPS/wing.py:342-353) for `ETA = e0 :: e1 :: rest`: the points and `NS`. -/
noncomputable def intStations (nsd e1 : ℝ) (rest : List ℝ) : List ℝ × ℕ :=
  let desired := (rest.getLastD e1 - e1) / nsd
  let pts := intLoop desired e1 rest e1
  (e1 :: pts, pts.length)

/-- The stations over which the complex method integrates (FLOPS/wing.py:120-127): the points from tip to root, without the
first and the last two; and the widths of the intervals belonging to them. -/
noncomputable def usedStations (Y : List ℝ) : List ℝ × List ℝ :=
  let Y := Y.reverse
  let dy := (Y.zipWith (fun a b => b - a) Y.tail).dropLast.dropLast
  ((Y.tail).dropLast.dropLast, dy.map fun d => -d)

/-- `S[-1]` (FLOPS/wing.py:135-138, 162) of a wing of constant chord `c`: half the wing area in semispans. -/
noncomputable def areaComplex (c : ℝ) (Y : List ℝ) : ℝ := ((usedStations Y).2.map fun d => (c + c) * d / 2).sum

/-! ### Tails, fuselage, gear -/

/-- `tail_vertical_FLOPS` (FLOPS/tail.py:35-39). -/
noncomputable def tailVerticalFlops (S tr tow : ℝ) : ℝ :=
  0.32 * (tow / lb) ^ (0.3 : ℝ) * (tr + 0.5) * (1 : ℝ) ^ (0.7 : ℝ) * (S / ft ^ 2) ^ (0.85 : ℝ) * lb

/-- `tail_horizontal_FLOPS` (FLOPS/tail.py:63-67). -/
noncomputable def tailHorizontalFlops (S tr tow : ℝ) : ℝ :=
  0.53 * (S / ft ^ 2) * (tow / lb) ^ (0.2 : ℝ) * (tr + 0.5) * lb

/-- `fuselage_weight_FLOPS` for transports (FLOPS/fuselage.py:45-50, 62-71). -/
noncomputable def fuselageFlops (cargo : Bool) (length width height fnef : ℝ) : ℝ :=
  let XL := length / ft
  let DAV := (width + height) / 2 * 1 / ft
  1.35 * (XL * DAV) ^ (1.28 : ℝ) * (1 + 0.05 * fnef) * (1 + 0.38 * (if cargo then 1 else 0)) * 1 * lb

/-- `RFACT` (FLOPS/landing_gear.py:47-50, Raymer/landing_gear.py:48-51). -/
noncomputable def rfact (ac : String) : ℝ := if ac = "sst" then 0.00009 else 0.00004

/-- `WLDG`, the landing weight in pounds (FLOPS/landing_gear.py:51-52). -/
noncomputable def landingWeight (ac : String) (tow range : ℝ) : ℝ := tow / lb * (1 - rfact ac * (range / nmi))

/-- `XMLG`, the strut length in inches (FLOPS/landing_gear.py:60-67): `eng` the diameter of the nacelle, dihedral and largest
distance from the centre line of the engines on the wing. -/
noncomputable def strut (eng : Option (ℝ × ℝ × ℝ)) (width length : ℝ) : ℝ :=
  match eng with
  | some (d, dih, y) => 12 * (d / ft) + (0.26 - tan dih) * (y / ft - 6 * (width / ft))
  | none => 0.75 * length / ft

open Classical in
/-- `landing_gear_FLOPS` (FLOPS/landing_gear.py:45-75): main and nose; `none` for nan, the power of a negative number. -/
noncomputable def gearFlops (ac : String) (tow range : ℝ) (eng : Option (ℝ × ℝ × ℝ)) (width length : ℝ) :
    Option (ℝ × ℝ) :=
  let w := landingWeight ac tow range
  let x := strut eng width length
  if w < 0 ∨ x < 0 then none
  else some (0.0117 * w ^ (0.95 : ℝ) * x ^ (0.43 : ℝ) * lb, 0.048 * w ^ (0.67 : ℝ) * (0.7 * x) ^ (0.43 : ℝ) * (1 + 0) * lb)

/-! ### Raymer -/

/-- `tail_vertical_Raymer` (Raymer/tail.py:42-61): tail arm in metres. -/
noncomputable def tailVerticalRaymer (S AR tc sweep nult tow arm : ℝ) (ttail : Flag) : ℝ :=
  let H : ℝ := if ttail.truthy then 1 else 0
  let Lt := arm / ft
  0.0026 * (1 + H) ^ (0.225 : ℝ) * (tow / lb) ^ (0.556 : ℝ) * nult ^ (0.536 : ℝ) * Lt ^ (-0.5 : ℝ)
    * (S / ft ^ 2) ^ (0.5 : ℝ) * Lt ^ (0.875 : ℝ) * (cos sweep)⁻¹ * AR ^ (0.35 : ℝ) * tc ^ (-0.5 : ℝ) * lb

/-- `wing_main_raymer` (Raymer/wing_main_raymer.py:45-65). -/
noncomputable def wingRaymer (ac : String) (S AR tr sweep tc nult tow : ℝ) : ℝ :=
  let sweep := if ac = "sst" then 0 else sweep
  let Sw := S / ft ^ 2
  0.0051 * (tow / lb * nult) ^ (0.557 : ℝ) * Sw ^ (0.649 : ℝ) * AR ^ (0.5 : ℝ) * tc ^ (-0.4 : ℝ) * (1 + tr) ^ (0.1 : ℝ)
    * (cos sweep)⁻¹ * (Sw * 0.1) ^ (0.1 : ℝ) * lb

/-- `total_prop_Raymer` (Raymer/prop_system.py:47-63) from the engine weight and the nacelle's, which is computed for
`len(vehicle.nacelles)` nacelles. -/
noncomputable def totalPropRaymer (ac : String) (n thrust length mach zf wnac : ℝ) : PropData :=
  let we := engineFlops ac thrust
  totalProp n we (fuelSystemFlops n zf mach) ((5 * n + 0.8 * (n * length / ft)) * lb)
    (49.19 * (n * we / 1000) ^ (0.541 : ℝ) * lb) 0 wnac

end Verif.Weights
