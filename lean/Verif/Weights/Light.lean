import Verif.Weights.Common

/-!
Weights of light aircraft, blended wing bodies, human-powered aircraft and UAVs:
`Methods/Weights/Correlations/General_Aviation`, `BWB`, `Human_Powered`, `UAV`.  Warnings are not modelled; exceptions are
`none`.
-/

namespace Verif.Weights
open Real Verif.Vehicle

/-- `Units.inches` in metres (Plugins/pint/default_en.txt:149). -/
noncomputable def inch : ℝ := 0.0254
/-- `Units.gallons` in cubic metres (Plugins/pint/default_en.txt: 231 cubic inches). -/
noncomputable def gallon : ℝ := 231 * inch ^ 3

/-! ### General aviation -/

/-- `wing_main` (General_Aviation/wing_main.py:42-53); the dynamic pressure is divided by pounds of mass. -/
noncomputable def gaWing (S fuel AR sweep q tr tc nult tow : ℝ) : ℝ :=
  0.036 * (S / ft ^ 2) ^ (0.758 : ℝ) * (fuel / lb) ^ (0.0035 : ℝ) * (AR / cos sweep ^ 2) ^ (0.6 : ℝ)
    * (q / (lb / ft ^ 2)) ^ (0.006 : ℝ) * tr ^ (0.04 : ℝ) * (100 * tc / cos sweep) ^ (-0.3 : ℝ)
    * (nult * (tow / lb)) ^ (0.49 : ℝ) * lb

/-- `tail_horizontal` (General_Aviation/tail_horizontal.py:42-50). -/
noncomputable def gaHorizontal (S AR sweep q tr tc nult tow : ℝ) : ℝ :=
  0.016 * (nult * (tow / lb)) ^ (0.414 : ℝ) * (q / (lbf / ft ^ 2)) ^ (0.168 : ℝ) * (S / ft ^ 2) ^ (0.896 : ℝ)
    * (100 * tc / cos sweep) ^ (-0.12 : ℝ) * (AR / cos sweep ^ 2) ^ (0.043 : ℝ) * tr ^ (-0.02 : ℝ) * lb

/-- `tail_vertical` (General_Aviation/tail_vertical.py:48-65). -/
noncomputable def gaVertical (S AR sweep q tr tc nult tow : ℝ) (ttail : Flag) : ℝ :=
  0.073 * (1 + 0.2 * (if ttail.isYes then 1 else 0)) * (nult * (tow / lb)) ^ (0.376 : ℝ)
    * (q / (lbf / ft ^ 2)) ^ (0.122 : ℝ) * (S / ft ^ 2) ^ (0.873 : ℝ) * (100 * tc / cos sweep) ^ (-0.49 : ℝ)
    * (AR / cos sweep ^ 2) ^ (0.357 : ℝ) * tr ^ (0.039 : ℝ) * lb

/-- `fuselage` (General_Aviation/fuselage.py:46-62): the pressurized volume enters in cubic metres. -/
noncomputable def gaFuselage (S nult tow w h l arm q V dp : ℝ) : ℝ :=
  let dstr := 0.025 * ((h + w) / 2) + 1 * inch
  (0.052 * (S / ft ^ 2) ^ (1.086 : ℝ) * (nult * (tow / lb)) ^ (0.177 : ℝ) * (|arm| / ft) ^ (-0.051 : ℝ)
    * (l / dstr) ^ (-0.072 : ℝ) * (q / (lbf / ft ^ 2)) ^ (0.241 : ℝ)
    + 11.9 * (V * (dp / (lbf / ft ^ 2))) ^ (0.271 : ℝ)) * lb

/-- `landing_gear` (General_Aviation/landing_gear.py:37-46): main and nose. -/
noncomputable def gaGear (landing nult strutMain strutNose : ℝ) : ℝ × ℝ :=
  (0.095 * (nult * (landing / lb)) ^ (0.768 : ℝ) * (strutMain / inch / 12) ^ (0.409 : ℝ) * lb,
   0.125 * (nult * (landing / lb)) ^ (0.566 : ℝ) * (strutNose / inch / 12) ^ (0.845 : ℝ) * lb)

/-- The result of `landing_gear` is the class `Data` itself (General_Aviation/landing_gear.py:44): all calls hand out the same
object.  What reading the result of call `i` gives after the calls with the arguments `args`. -/
noncomputable def gaGearRead (args : List (ℝ × ℝ × ℝ × ℝ)) (i : ℕ) : Option (ℝ × ℝ) :=
  if i < args.length then args.getLast?.map fun a => gaGear a.1 a.2.1 a.2.2.1 a.2.2.2 else none

/-- Items of `systems` (General_Aviation/systems.py). -/
structure GaSys where
  control : ℝ
  hyd : ℝ
  avionics : ℝ
  elec : ℝ
  ac : ℝ
  furnish : ℝ
  fuelSys : ℝ
  total : ℝ

open Classical in
/-- `systems` (General_Aviation/systems.py:49-90); `none` for the division by zero without fuel. -/
noncomputable def gaSystems (uav Vfuel Vint tanks neng length span tow nult seats mach ac : ℝ) : Option GaSys :=
  let Qt := Vfuel / gallon
  let Qi := Vint / gallon
  let W := tow / lb
  if Qt + Qi = 0 then none else
    let fuel := 2.49 * Qt ^ (0.726 : ℝ) * (Qt / (Qt + Qi)) ^ (0.363 : ℝ) * tanks ^ (0.242 : ℝ) * neng ^ (0.157 : ℝ) * lb
    let ctrl := 0.053 * (length / ft) ^ (1.536 : ℝ) * (span / ft) ^ (0.371 : ℝ)
      * (nult * W ^ ((10 : ℝ) ^ (-4 : ℝ))) ^ (0.8 : ℝ) * lb
    let hyd := 0.001 * W * lb
    let av := 2.117 * (uav / lb) ^ (0.933 : ℝ) * lb
    let el := 12.57 * (av / lb + fuel / lb) ^ (0.51 : ℝ) * lb
    let acw := ac * 0.265 * W ^ (0.52 : ℝ) * (1 * seats) ^ (0.68 : ℝ) * (av / lb) ^ (0.17 : ℝ) * mach ^ (0.08 : ℝ) * lb
    let fu := (0.0582 * W - 65) * lb
    some ⟨ctrl, hyd, av, el, acw, fu, fuel, ctrl + hyd + acw + av + el + fu + fuel⟩

/-- `payload` (General_Aviation/payload.py:41-52). -/
noncomputable def gaPayload (n cargo : ℝ) (wp : ℝ := 225 * lb) (wb : ℝ := 0) : Payload :=
  ⟨wp * n, wb * n, cargo, wp * n + wb * n + cargo⟩

/-- The first network (General_Aviation/empty.py:177-198). -/
inductive GaNet where
  | turbofan (thrust engines : ℝ)
  | combustion (power engines : ℝ)
  | other (mass engines : ℝ)

noncomputable def GaNet.mass : GaNet → ℝ
  | .turbofan t n => integrated (engineJet t) n
  | .combustion p n => integratedGA (enginePiston p) n
  | .other m _ => m

def GaNet.engines : GaNet → ℝ
  | .turbofan _ n => n
  | .combustion _ n => n
  | .other _ n => n

/-- The vehicle's entry `fuel`: one with tanks, or a bare component with nothing but a mass. -/
inductive GaFuel where
  | tank (mass tanks internal density : ℝ)
  | bare (mass : ℝ)

/-- A wing or tail: area, span, taper, thickness, sweep, longitudinal position of the aerodynamic center. -/
structure GaSurf where
  S : ℝ
  b : ℝ
  tr : ℝ
  tc : ℝ
  sweep : ℝ
  x : ℝ

/-- What `empty` reads from a vehicle with a fuselage named `fuselage` and landing gear with struts. -/
structure GaIn where
  Sref : ℝ
  nult : ℝ
  tow : ℝ
  pax : ℝ
  cargo : ℝ
  q : ℝ
  mach : ℝ
  net : GaNet
  fuel : Option GaFuel
  wing : Option GaSurf
  hor : Option GaSurf
  vert : Option (GaSurf × Flag)
  fuseWet : ℝ
  dp : ℝ
  width : ℝ
  height : ℝ
  length : ℝ
  volume : ℝ
  seats : ℝ
  strutMain : ℝ
  strutNose : ℝ
  avionics : Option ℝ
  hasAc : Bool

/-- The breakdown returned (General_Aviation/empty.py:333-378). -/
structure GaOut where
  wing : ℝ
  hor : ℝ
  vert : ℝ
  fuselage : ℝ
  gearMain : ℝ
  gearNose : ℝ
  structures : ℝ
  propulsion : ℝ
  fuelSystem : ℝ
  control : ℝ
  hyd : ℝ
  avionics : ℝ
  elec : ℝ
  ac : ℝ
  furnish : ℝ
  systems : ℝ
  payload : Payload
  empty : ℝ
  zeroFuel : ℝ
  fuel : ℝ
  /-- `wt_empty` (316-317), which is not returned -/
  wtEmpty : ℝ

/-- `empty` (General_Aviation/empty.py:168-378).  `landing_weight` is not assigned without fuel (200-215), `b` not without a
main wing (218-229), `l_w2h` not without a horizontal stabilizer (232-245), which needs the main wing; a bare fuel component
has no number of tanks (212).  The check of line 269 always succeeds. -/
noncomputable def gaEmpty (v : GaIn) : Option GaOut :=
  match v.fuel, v.wing, v.hor with
  | some (.tank m n int dens), some w, some h =>
    let wing := gaWing v.Sref m (w.b ^ 2 / v.Sref) w.sweep v.q w.tr w.tc v.nult v.tow
    let hor := gaHorizontal h.S (h.b ^ 2 / h.S) h.sweep v.q h.b h.tc v.nult v.tow
    let vert := match v.vert with
      | none => 0
      | some (t, f) => gaVertical t.S (t.b ^ 2 / t.S) t.sweep v.q t.tr t.tc v.nult v.tow f
    let fus := gaFuselage v.fuseWet v.nult v.tow v.width v.height v.length (h.x - w.x) v.q v.volume v.dp
    let gear := gaGear (v.tow - m) v.nult v.strutMain v.strutNose
    (gaSystems (v.avionics.getD 0) (m / dens) int n v.net.engines v.length w.b v.tow v.nult v.seats v.mach
      (if v.hasAc then 1 else 0)).map fun s =>
      let prop := v.net.mass
      let st := wing + hor + vert + fus + gear.1 + gear.2 + 0 + 0
      let sy := s.control + 0 + s.elec + s.avionics + s.hyd + s.furnish + s.ac + 0 + 0
      let pl := gaPayload v.pax v.cargo
      let e := st + prop + sy
      { wing := wing, hor := hor, vert := vert, fuselage := fus, gearMain := gear.1, gearNose := gear.2, structures := st,
        propulsion := prop, fuelSystem := s.fuelSys, control := s.control, hyd := s.hyd, avionics := s.avionics,
        elec := s.elec, ac := s.ac, furnish := s.furnish, systems := sy, payload := pl, empty := e,
        zeroFuel := e + 0 + pl.total, fuel := v.tow - (e + 0 + pl.total),
        wtEmpty := wing + fus + gear.1 + gear.2 + prop + s.total + hor + vert }
  | _, _, _ => none

/-- The vehicle after `empty`: `fuel` is a bare component (384, 400, 408) and there is an entry `avionics` (406), whose
uninstalled weight is what it was. -/
noncomputable def gaAfter (v : GaIn) (o : GaOut) : GaIn :=
  { v with fuel := some (.bare o.fuel), avionics := some (v.avionics.getD 0) }

/-- The vehicle's entries after `empty` (General_Aviation/empty.py:185, 230, 247, 267, 295-296, 318, 327-329, 394-411): the
systems and the fuel are entries of the vehicle, not of a container. -/
noncomputable def gaWritten (o : GaOut) : List Node :=
  [.box [massNode o.fuselage], .box [massNode o.wing, massNode o.hor, massNode o.vert], .box [massNode o.propulsion],
   .box [massNode o.payload.pax, massNode o.payload.bag, massNode o.payload.cargo],
   .box [massNode o.gearMain, massNode o.gearNose],
   massNode o.control, massNode o.elec, massNode o.avionics, massNode o.furnish, massNode o.fuel, massNode o.hyd,
   massNode o.ac]

/-! ### Blended wing body -/

/-- `cabin` (BWB/cabin.py:41-49). -/
noncomputable def cabin (S tow : ℝ) : ℝ :=
  5.698865 * 0.316422 * (tow / lb) ^ (0.166552 : ℝ) * (S / ft ^ 2) ^ (1.061158 : ℝ) * lb

/-- `aft_centerbody` (BWB/aft_centerbody.py:46-56). -/
noncomputable def aftBody (n S taper tow : ℝ) : ℝ :=
  (1 + 0.05 * n) * 0.53 * (S / ft ^ 2) * (tow / lb) ^ (0.2 : ℝ) * (taper + 0.5) * lb

/-- What `empty` adds up: wing (`none` without a main wing), cabin, aft body, gear, propulsion, systems, payload, operating
items. -/
structure BwbIn where
  wing : Option ℝ
  cabinArea : ℝ
  aftArea : ℝ
  aftTaper : ℝ
  engines : ℝ
  prop : ℝ
  sys : Sys
  payload : Payload
  oper : Oper
  tow : ℝ

/-- The breakdown (BWB/empty.py:147-192). -/
structure BwbOut where
  wing : ℝ
  aft : ℝ
  cabin : ℝ
  gearMain : ℝ
  gearNose : ℝ
  structures : ℝ
  prop : ℝ
  sys : Sys
  systems : ℝ
  payload : Payload
  oper : Oper
  empty : ℝ
  operatingEmpty : ℝ
  zeroFuel : ℝ
  fuel : ℝ

/-- `empty` (BWB/empty.py:88-192). -/
noncomputable def bwbEmpty (v : BwbIn) : BwbOut :=
  let w := v.wing.getD 0
  let g := landingGear v.tow
  let c := cabin v.cabinArea v.tow
  let a := aftBody v.engines v.aftArea v.aftTaper v.tow
  let st := w + a + c + g.1 + g.2 + 0 + 0
  let sy := v.sys.control + v.sys.apu + v.sys.elec + v.sys.avionics + v.sys.hyd + v.sys.furnish + v.sys.ac
    + v.sys.instruments + 0
  let e := st + v.prop + sy
  ⟨w, a, c, g.1, g.2, st, v.prop, v.sys, sy, v.payload, v.oper, e, e + v.oper.total, e + v.oper.total + v.payload.total,
    v.tow - (e + v.oper.total + v.payload.total)⟩

/-- The vehicle's entries after `empty` (BWB/empty.py:106, 124, 132, 141-143, 194-229): the landing gear are fresh components
with an entry `mass` beside their `mass_properties`; systems, fuel and optionals are entries of the vehicle. -/
noncomputable def bwbWritten (o : BwbOut) : List Node :=
  [.box [massNode o.cabin], .box [massNode o.wing], .box [massNode o.prop],
   .box [massNode o.payload.pax, massNode o.payload.bag, massNode o.payload.cargo], .box [massNode 0, massNode 0],
   massNode o.sys.control, massNode o.sys.elec, massNode (o.sys.avionics + o.sys.instruments), massNode o.sys.furnish,
   massNode o.sys.ac, massNode o.fuel, massNode o.sys.apu, massNode o.sys.hyd, massNode o.oper.less]

/-- Kinds of landing gear. -/
inductive GearKind where
  | main | nose
  deriving DecidableEq

/-- The kinds of the components stored as `nose` and as `main` (BWB/empty.py:204-207; Common/weight_transport.py:396-401). -/
def bwbGearKinds : GearKind × GearKind := (.main, .nose)

/-! ### Human-powered aircraft and UAVs -/

/-- `wing` (Human_Powered/wing.py:47-64). -/
noncomputable def hpWing (S b c ribs tc endRibs nult gw : ℝ) : ℝ :=
  let delta := b ^ 2 / (S * ribs)
  (b * 1.17e-1 + 1.1e-2 * b ^ 2) * (1 + (nult * gw / 100 - 2) / 4) + ribs * (c ^ 2 * tc * 5.50e-2 + c * 1.91e-3)
    + endRibs * (c ^ 2 * tc * 6.62e-1 + c * 6.57e-3) + 0.456 * (S ^ 2 * delta ^ (4 / 3 : ℝ) / b) + b * 2.77e-2
    + S * 3.08e-2

/-- `tail` (Human_Powered/tail.py:42-54). -/
noncomputable def hpTail (S b c ribs tc qm : ℝ) : ℝ :=
  let delta := b ^ 2 / (S * ribs)
  (b * 4.15e-2 + b ^ 2 * 3.91e-3) * (1 + (qm * S / 78.5 - 1) / 12) + ribs * (c ^ 2 * tc * 1.16e-1 + c * 4.01e-3)
    + 0.174 * (S ^ 2 * delta ^ (4 / 3 : ℝ) / b) + S * 1.93e-2

/-- A surface of a human-powered aircraft: area, span, chord, ribs, thickness, end ribs. -/
structure HpSurf where
  S : ℝ
  b : ℝ
  c : ℝ
  ribs : ℝ
  tc : ℝ
  endRibs : ℝ

/-- `empty` (Human_Powered/empty.py:86-147): wing, fuselage, horizontal and vertical tail, and the sum.  With a fuselage the
code asks for `vehicle.Fuselages` (137), which a vehicle does not have. -/
noncomputable def hpEmpty (nult gw qm : ℝ) (wing hor vert : Option HpSurf) (fuselage : Bool) :
    Option (ℝ × ℝ × ℝ × ℝ × ℝ) :=
  let w := (wing.map fun s => hpWing s.S s.b s.c s.ribs s.tc s.endRibs nult gw).getD 0
  let h := (hor.map fun s => hpTail s.S s.b s.c s.ribs s.tc qm).getD 0
  let t := (vert.map fun s => hpTail s.S s.b s.c s.ribs s.tc qm).getD 0
  if fuselage then none else some (w, 0, h, t, h + 0 + t + w)

/-- `empty` (UAV/empty.py:44-58). -/
noncomputable def uavEmpty (S AR g : ℝ) : ℝ := 5.58 * S ^ (1.59 : ℝ) * AR ^ (0.71 : ℝ) / g

end Verif.Weights
