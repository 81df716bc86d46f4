import Verif.Energy.GasTurbine

/-!
# Ducted fan and turbojet networks with their sizing

Model of `trunk/SUAVE/Components/Energy/Networks/{Ducted_Fan,Turbojet_Super,Ramjet}.py`,
`trunk/SUAVE/Methods/Propulsion/{ducted_fan_sizing,turbojet_sizing,ramjet_sizing}.py` and
`trunk/SUAVE/Methods/Propulsion/serial_HTS_dynamo_turboelectric_sizing.py`, with the components of `GasTurbine`.

`thrust.inputs` is a store that survives from one call to the next; what `evaluate_thrust` does not write keeps the value of
the sizing.  Before any sizing most entries do not exist and reading them raises (`none`).  One control point.  The standard
atmosphere is a parameter.
-/

namespace Verif.Energy.GasTurbine

/-- A nozzle without flow (ducted_fan_sizing.py 129-132, turbojet_sizing.py 168-171, ramjet_sizing.py 112-115). -/
def noNozzle : NozzleOut := ⟨⟨0, 0⟩, 0, 0, 0, 0, 0, 0, 0, 0⟩

/-- A `Ducted_Fan` network; `held` is `thrust.inputs`, `none` before sizing. -/
structure Duct where
  fluid : Fluid
  inlet : Inlet
  fan : Stage
  fanN : Stage
  thr : ThrustSet
  α : ℝ
  engines : ℝ
  held : Option ThrustIn

/-- What the components hold after a pass. -/
structure DuctPass where
  free : Free
  fan : Comp
  fanN : NozzleOut

/-- From `ram` to the nozzle (Ducted_Fan.py 101-126, ducted_fan_sizing.py 90-111). -/
noncomputable def Duct.pass (e : Duct) (c : Amb) : DuctPass :=
  let fr := ram e.fluid c
  let i := GasTurbine.inlet e.inlet fr ⟨fr.Tt, fr.Pt⟩
  let fa := GasTurbine.fan e.fan fr i.out
  ⟨fr, fa, nozzle e.fanN fr fa.out⟩

/-- `thrust.inputs` as left by the sizing (ducted_fan_sizing.py 116-132); no fuel is burnt (Thrust.py 59). -/
noncomputable def Duct.sizingIn (e : Duct) (c : Amb) : ThrustIn :=
  let p := e.pass c
  { f := 0, ref := p.fanN.out, engines := e.engines, α := e.α, core := 0, bypass := 1, coreN := noNozzle, fanN := p.fanN }

/-- `thrust.size` in the sizing (ducted_fan_sizing.py 90-139): the network afterwards and `mass_flow_rate_design`. -/
noncomputable def Duct.size (e : Duct) (c : Amb) (design : ℝ) : Duct × ℝ :=
  let p := e.pass c
  let i := e.sizingIn c
  let s := sizeThrust e.thr p.free 1 i design
  ({ e with thr := s.1, held := some i }, s.2)

/-- Results of `evaluate_thrust`: thrust, mass rate, power, static and stagnation pressure for the noise analysis, and the
thrust element's own power and mass flow. -/
structure DuctOut where
  force : ℝ
  mdot : ℝ
  power : ℝ
  noiseP : ℝ
  noisePt : ℝ
  thrustPower : ℝ
  coreFlow : ℝ

/-- `evaluate_thrust` (Ducted_Fan.py 92-173): of `thrust.inputs` only the fuel to air ratio, the fan nozzle and the bypass
ratio are written (123, 130-133). -/
noncomputable def Duct.evaluate (e : Duct) (c : Amb) (throttle : ℝ) : Option DuctOut :=
  e.held.map fun h =>
    let p := e.pass c
    let o := thrust e.thr p.free throttle { h with f := 0, fanN := p.fanN, α := e.α }
    let η := 2 / (1 + p.fanN.u / c.u)
    ⟨o.thrust, o.fuel, o.power / η, p.fanN.P, p.fanN.P, o.power, o.mdotCore⟩

/-! ### The sizing functions -/

/-- What a sizing function is called with: ready conditions, or a Mach number and an altitude. -/
structure Call where
  conditions : Option Amb
  mach : Option ℝ
  altitude : Option ℝ

/-- The design point (ducted_fan_sizing.py 34-75, turbojet_sizing.py 25-66, ramjet_sizing.py 27-68,
serial_HTS_dynamo_turboelectric_sizing.py 72-113): `atm M h` are the conditions of the standard atmosphere.  The second
component tells whether `planet` has been assigned. -/
def designPoint (atm : ℝ → ℝ → Amb) (k : Call) : Option (Amb × Bool) :=
  match k.conditions with
  | some c => some (c, false)
  | none =>
    match k.mach, k.altitude with
    | some M, some h => some (atm M h, true)
    | _, _ => none

/-- `ducted_fan_sizing` (19-178): the network and `sealevel_static_thrust`.  The sea level conditions read `planet` (163),
which is unassigned when conditions were given. -/
noncomputable def ductedFanSizing (atm : ℝ → ℝ → Amb) (e : Duct) (design : ℝ) (k : Call) : Option (Duct × ℝ) :=
  match designPoint atm k with
  | none => none
  | some (c, planet) =>
    let s := (e.size c design).1
    if planet then (s.evaluate (atm 0.01 0) 1).map fun r => (s, r.force / e.engines) else none

/-! ### Turbojet -/

/-- A turbojet network with its thrust element. -/
structure Jet where
  core : Turbojet
  thr : ThrustSet
  engines : ℝ

/-- Low pressure compressor of a pass (Turbojet_Super.py 131-148). -/
noncomputable def Jet.lpc (e : Jet) (c : Amb) : Comp :=
  let fr := ram e.core.fluid c
  compressor e.core.lpc fr (GasTurbine.inlet e.core.inlet fr ⟨fr.Tt, fr.Pt⟩).out

/-- `thrust.inputs` of `Turbojet_Super.evaluate_thrust` (214-229); bypass ratio and fan nozzle are those of the sizing
(turbojet_sizing.py 168-172). -/
noncomputable def Jet.tin (e : Jet) (c : Amb) : ThrustIn :=
  let p := e.core.pass c
  { f := p.fTotal, ref := (e.lpc c).out, engines := e.engines, α := 0, core := 1, bypass := 0, coreN := p.coreN, fanN := noNozzle }

/-- `Turbojet_Super.evaluate_thrust` (131-248): thrust and mass rate. -/
noncomputable def Jet.evaluate (e : Jet) (c : Amb) (throttle : ℝ) : ℝ × ℝ :=
  let o := thrust e.thr (e.core.pass c).free throttle (e.tin c)
  (o.thrust, o.fuel)

/-- `turbojet_sizing` up to `thrust.size` (81-178): the afterburner is not part of the chain. -/
noncomputable def Jet.size (e : Jet) (c : Amb) (design : ℝ) : Jet :=
  let dry : Jet := { e with core := { e.core with after := none } }
  { e with thr := (sizeThrust e.thr (dry.core.pass c).free 1 (dry.tin c) design).1 }

/-- `Turbojet_Super.engine_out` (275-308): thrust and mass rate, and the throttle left. -/
noncomputable def Jet.engineOut (e : Jet) (c : Amb) (throttle : ℝ) : (ℝ × ℝ) × ℝ :=
  let r := e.evaluate c 1
  ((r.1 / e.engines * (e.engines - 1), r.2 / e.engines * (e.engines - 1)), throttle)

/-- `turbojet_sizing` (19-215). -/
noncomputable def turbojetSizing (atm : ℝ → ℝ → Amb) (e : Jet) (design : ℝ) (k : Call) : Option (Jet × ℝ) :=
  match designPoint atm k with
  | none => none
  | some (c, planet) =>
    let s := e.size c design
    if planet then some (s, (s.evaluate (atm 0.01 0) 1).1 / e.engines) else none

/-! ### Ramjet -/

/-- A ramjet network; `chain` is what ram, inlet, Rayleigh combustor and limited nozzle make of the conditions (their models
are in `Scramjet`): freestream, nozzle, fuel to air ratio. -/
structure Ram where
  chain : Amb → Free × NozzleOut × ℝ
  thr : ThrustSet
  engines : ℝ
  held : Option (NozzleOut × ℝ)

/-- `thrust.inputs` (Ramjet.py 123-133); fan nozzle and bypass ratio are those of the sizing (ramjet_sizing.py 112-116). -/
noncomputable def Ram.tin (e : Ram) (h : NozzleOut × ℝ) (c : Amb) : ThrustIn :=
  { f := (e.chain c).2.2, ref := (e.chain c).2.1.out, engines := e.engines, α := h.2, core := 1, bypass := 0
    coreN := (e.chain c).2.1, fanN := h.1 }

/-- `Ramjet.evaluate_thrust` (86-149): thrust and mass rate. -/
noncomputable def Ram.evaluate (e : Ram) (c : Amb) (throttle : ℝ) : Option (ℝ × ℝ) :=
  e.held.map fun h => let o := thrust e.thr (e.chain c).1 throttle (e.tin h c); (o.thrust, o.fuel)

/-- `ramjet_sizing` up to `thrust.size` (79-122). -/
noncomputable def Ram.size (e : Ram) (c : Amb) (design : ℝ) : Ram :=
  { e with thr := (sizeThrust e.thr (e.chain c).1 1 (e.tin (noNozzle, 0) c) design).1, held := some (noNozzle, 0) }

/-! ### Sizing of the superconducting drive with a dynamo -/

/-- Settings of `serial_HTS_dynamo_turboelectric_sizing`: `esc`, `dynamo` and `dynamoEsc` give the input power for an output
power, `dynamoHeat` the heat of the dynamo, `cooler` the power of the cryocooler for a load. -/
structure Drive where
  motorEff : ℝ
  gearEff : ℝ
  esc : ℝ → ℝ
  rotorPower : ℝ
  rotorCryo : ℝ
  dynamo : ℝ → ℝ
  dynamoHeat : ℝ → ℝ
  dynamoEsc : ℝ → ℝ
  cooler : ℝ → ℝ
  cryogen : ℝ
  engines : ℝ
  supplies : ℝ

/-- Ratings that the sizing leaves (177-179, 236-304). -/
structure Ratings where
  shaft : ℝ
  motor : ℝ
  esc : ℝ
  dynamo : ℝ
  dynamoEsc : ℝ
  cooler : ℝ
  supply : ℝ

open Classical in
/-- The power chain (177-179, 236-304): `work` is the work of the fan per mass, `flow` the mass flow of one engine. -/
noncomputable def Drive.size (d : Drive) (work flow : ℝ) : Ratings :=
  let shaft := work * flow
  let motorIn := shaft / (d.motorEff * d.gearEff)
  let drive := d.esc motorIn
  let dynIn := d.dynamo d.rotorPower
  let ccs := d.dynamoEsc dynIn
  let load := d.rotorCryo + d.dynamoHeat d.rotorPower
  let rated := d.cooler load
  let coolIn := if d.cryogen < 1 then rated else 0
  { shaft := shaft * d.engines, motor := shaft, esc := motorIn, dynamo := dynIn, dynamoEsc := ccs, cooler := rated
    supply := (drive + (ccs + coolIn)) * d.engines / d.supplies }

end Verif.Energy.GasTurbine
