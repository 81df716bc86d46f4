import Verif.Vehicle.Mass

/-!
The weight statement of a transport: `empty_weight`, `Methods/Weights/Correlations/Common/weight_transport.py`, and the
analyses that call it, `Analyses/Weights`.  The correlations of the parts (wing, tails, fuselage, gear, engines, systems,
payload, operating items) enter as numbers; they are the subject of other files.  Real numbers stand for floats.
-/

namespace Verif.Weights
open Verif.Vehicle

/-- `method_type`. -/
inductive Method where
  | suave | newSuave | flopsSimple | flopsComplex | raymer
  deriving DecidableEq

/-- Methods that compute a detailed propulsion weight (weight_transport.py:188-193). -/
def Method.detailed : Method → Bool
  | .suave => false
  | .newSuave => false
  | _ => true

/-- What `total_prop_flops` and `total_prop_Raymer` return (FLOPS/prop_system.py:72-80, Raymer/prop_system.py:55-63). -/
structure PropData where
  wtProp : ℝ
  engines : ℝ
  reverser : ℝ
  starter : ℝ
  controls : ℝ
  fuelSystem : ℝ
  nacelle : ℝ

/-- `total_prop_flops` and `total_prop_Raymer` from their items: `WPRO = NENG*WENG + WFSYS + WEC + WSTART + WTHR + WNAC`
(FLOPS/prop_system.py:70-80, Raymer/prop_system.py:53-63). -/
noncomputable def totalProp (neng weng wfsys wec wstart wthr wnac : ℝ) : PropData :=
  ⟨neng * weng + wfsys + wec + wstart + wthr + wnac, weng * neng, wthr, wstart, wec, wfsys, wnac⟩

/-- A network: whether it is a turbofan, turbojet or surrogate, its engines, `total_weight` if it has that entry, the weight
by `integrated_propulsion(engine_jet(thrust), engines)` and the detailed weights. -/
structure Net where
  jet : Bool
  engines : ℝ
  given : Option ℝ
  simple : ℝ
  detail : PropData
  /-- `mass_properties.mass` before. -/
  mass : ℝ

open Classical in
/-- One turn of the loop over the networks (weight_transport.py:175-201): total, detailed weights of the last network that
had any, masses written to the networks.  The check of the length of `wing_mounted` (180-182) is left out. -/
noncomputable def netStep (m : Method) (s : ℝ × Option PropData × List ℝ) (n : Net) : ℝ × Option PropData × List ℝ :=
  if n.jet then
    let d := if n.given.isNone && m.detailed then some n.detail else s.2.1
    let w := match n.given with
      | some g => g
      | none => if m.detailed then n.detail.wtProp else n.simple
    let w := if n.engines = 0 then 0 else w
    (s.1 + w, d, s.2.2 ++ [w])
  else (s.1, s.2.1, s.2.2 ++ [n.mass])

/-- The loop over the networks (weight_transport.py:171-201). -/
noncomputable def netLoop (m : Method) (ns : List Net) : ℝ × Option PropData × List ℝ :=
  ns.foldl (netStep m) (0, none, [])

/-- `weight_reduction_factors`; `structural` and `systems` are absent from the default settings
(Weights_Transport.py:63-68). -/
structure Factors where
  mainWing : ℝ
  empennage : ℝ
  fuselage : ℝ
  structural : Option ℝ
  systems : Option ℝ

open Classical in
/-- The factors used (weight_transport.py:151-168); the settings object itself is changed to this. -/
noncomputable def effective : Option Factors → Factors
  | none => ⟨0, 0, 0, some 0, some 0⟩
  | some f => match f.structural with
    | some s => if s ≠ 0 then ⟨0, 0, 0, some s, some 0⟩ else ⟨f.mainWing, f.empennage, f.fuselage, some 0, some 0⟩
    | none => ⟨f.mainWing, f.empennage, f.fuselage, some 0, some 0⟩

/-- `1. - wt_factors.structural` etc. -/
def keep (x : Option ℝ) : ℝ := 1 - x.getD 0

/-- A wing: its class, the weight from the correlation (`none` for nan, which only the main wing is checked for; the
weights of tails are numbers) and `mass_properties.mass` before. -/
inductive WingC where
  | main (w : Option ℝ)
  | hor (w : ℝ)
  | vert (w : ℝ)
  | other (mass : ℝ)

/-- The mass written to a wing (weight_transport.py:273-276, 288-290, 300-302); other wings keep theirs. -/
noncomputable def wingMass (f : Factors) : WingC → ℝ
  | .main none => 0
  | .main (some w) => w * (1 - f.mainWing) * keep f.structural
  | .hor w => w * (1 - f.empennage) * keep f.structural
  | .vert w => w * (1 - f.empennage) * keep f.structural
  | .other m => m

/-- The sums `wt_main_wing`, `wt_tail_horizontal`, `wt_tail_vertical` (weight_transport.py:246-303). -/
noncomputable def wingStep (f : Factors) (s : ℝ × ℝ × ℝ) (w : WingC) : ℝ × ℝ × ℝ :=
  match w with
  | .main _ => (s.1 + wingMass f w, s.2.1, s.2.2)
  | .hor _ => (s.1, s.2.1 + wingMass f w, s.2.2)
  | .vert _ => (s.1, s.2.1, s.2.2 + wingMass f w)
  | .other _ => s

noncomputable def wingLoop (f : Factors) (ws : List WingC) : ℝ × ℝ × ℝ := ws.foldl (wingStep f) (0, 0, 0)

/-- Weights of the systems, without `wt_systems`. -/
structure Sys where
  control : ℝ
  apu : ℝ
  elec : ℝ
  avionics : ℝ
  hyd : ℝ
  furnish : ℝ
  ac : ℝ
  antiIce : ℝ
  instruments : ℝ

/-- Line 230-231. -/
def Sys.scale (k : ℝ) (s : Sys) : Sys :=
  ⟨s.control * k, s.apu * k, s.elec * k, s.avionics * k, s.hyd * k, s.furnish * k, s.ac * k, s.antiIce * k,
   s.instruments * k⟩

/-- Result of the payload methods. -/
structure Payload where
  pax : ℝ
  bag : ℝ
  cargo : ℝ
  total : ℝ

/-- Result of the operating items methods. -/
structure Oper where
  less : ℝ
  crew : ℝ
  attendants : ℝ
  total : ℝ

/-- What the correlations say about a vehicle.  A fuselage's weight may depend on those of wings and propulsion
(`tube`). -/
structure VehicleIn where
  nets : List Net
  wings : List WingC
  fuses : List (ℝ → ℝ → ℝ)
  gearMain : ℝ
  gearNose : ℝ
  sys : Sys
  payload : Payload
  oper : Oper
  mtow : ℝ

/-- The breakdown returned (weight_transport.py:327-384). -/
structure Statement where
  wing : ℝ
  hor : ℝ
  vert : ℝ
  fuselage : ℝ
  gearMain : ℝ
  gearNose : ℝ
  nacelle : ℝ
  paint : ℝ
  structures : ℝ
  propulsion : ℝ
  engines : ℝ
  reversers : ℝ
  misc : ℝ
  fuelSystem : ℝ
  control : ℝ
  apu : ℝ
  elec : ℝ
  avionics : ℝ
  hyd : ℝ
  furnish : ℝ
  ac : ℝ
  instruments : ℝ
  systems : ℝ
  payload : Payload
  oper : Oper
  empty : ℝ
  operatingEmpty : ℝ
  zeroFuel : ℝ
  fuel : ℝ
  maxTakeoff : ℝ
  /-- masses written to the wings, the fuselages and the networks -/
  wingMasses : List ℝ
  fuseMasses : List ℝ
  netMasses : List ℝ

/-- `empty_weight` (weight_transport.py:132-384).  The pod weight for 'FLOPS Complex' (234-243) is inside the wing's weight;
missing attributes (136-140) are not modelled. -/
noncomputable def emptyWeight (m : Method) (fs : Option Factors) (v : VehicleIn) : Statement :=
  let f := effective fs
  let p := netLoop m v.nets
  let sys := v.sys.scale (keep f.systems)
  let w := wingLoop f v.wings
  let fm := v.fuses.map fun g => g w.1 p.1 * (1 - f.fuselage) * keep f.structural
  let fuselage := fm.sum
  let nacelle := match p.2.1 with | none => 0 | some d => d.nacelle
  let structures := w.1 + w.2.1 + w.2.2 + fuselage + v.gearMain + v.gearNose + 0 + nacelle
  let ac := sys.ac + sys.antiIce
  let systems := sys.control + sys.apu + sys.elec + sys.avionics + sys.hyd + sys.furnish + ac + sys.instruments
  let empty := structures + p.1 + systems
  let oe := empty + v.oper.total
  let zf := oe + v.payload.total
  { wing := w.1, hor := w.2.1, vert := w.2.2, fuselage := fuselage, gearMain := v.gearMain, gearNose := v.gearNose,
    nacelle := nacelle, paint := 0, structures := structures, propulsion := p.1,
    engines := match p.2.1 with | none => 0 | some d => d.engines,
    reversers := match p.2.1 with | none => 0 | some d => d.reverser,
    misc := match p.2.1 with | none => 0 | some d => d.controls + d.starter,
    fuelSystem := match p.2.1 with | none => 0 | some d => d.fuelSystem,
    control := sys.control, apu := sys.apu, elec := sys.elec, avionics := sys.avionics, hyd := sys.hyd,
    furnish := sys.furnish, ac := ac, instruments := sys.instruments, systems := systems,
    payload := v.payload, oper := v.oper, empty := empty, operatingEmpty := oe, zeroFuel := zf, fuel := v.mtow - zf,
    maxTakeoff := v.mtow, wingMasses := v.wings.map (wingMass f), fuseMasses := fm, netMasses := p.2.2 }

/-- A component of given mass; origin and centre of gravity do not matter here. -/
def massNode (m : ℝ) : Node := .comp m [] P.zero []

/-- The vehicle's containers after `empty_weight` (weight_transport.py:209-215, 276, 290, 302, 315, 200, 386-423):
the landing gear keeps its `mass_properties.mass` (`gear`), since lines 398 and 401 write to `.mass`; `nacelles` are not
touched. -/
noncomputable def written (s : Statement) (gear nacelles : List ℝ) : List Node :=
  [.box (s.fuseMasses.map massNode), .box (s.wingMasses.map massNode), .box (s.netMasses.map massNode),
   .box (nacelles.map massNode),
   .box [massNode s.control, massNode s.elec, massNode (s.avionics + s.instruments), massNode s.furnish, massNode s.ac,
     massNode s.fuel, massNode s.apu, massNode s.hyd, massNode s.oper.less],
   .box [massNode s.payload.pax, massNode s.payload.bag, massNode s.payload.cargo],
   .box (gear.map massNode)]

/-- What `Weights.evaluate` and `Weights_Transport.evaluate` store as `mass_properties.operating_empty`
(Weights.py:97, Weights_Transport.py:110). -/
def storedOperatingEmpty (s : Statement) : ℝ := s.empty

/-- Signature of the method an analysis calls: how many positional arguments it takes at least and at most
(BWB/empty.py:31, UAV/empty.py:21, Buildups/eVTOL/empty.py:29-38). -/
inductive EmptyMethod where
  | bwb | uav | evtol
  deriving DecidableEq

def EmptyMethod.arity : EmptyMethod → ℕ × ℕ
  | .bwb => (1, 1)
  | .uav => (1, 2)
  | .evtol => (2, 10)

/-- `Weights.evaluate` calls `empty(vehicle,settings)` (Weights.py:91): `none` for the `TypeError`. -/
def callEmpty {α : Type} (e : EmptyMethod) (r : α) : Option α := if e.arity.1 ≤ 2 ∧ 2 ≤ e.arity.2 then some r else none

end Verif.Weights
