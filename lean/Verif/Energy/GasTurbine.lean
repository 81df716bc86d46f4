import Mathlib.Analysis.SpecialFunctions.Pow.Real
import Mathlib.Analysis.SpecialFunctions.Sqrt

/-!
# Gas turbine components, turbofan and turbojet networks

Model of `trunk/SUAVE/Components/Energy/Converters/{Ram,Compressor,Fan,Turbine,Combustor}.py`,
`trunk/SUAVE/Components/Energy/Converters/{Compression_Nozzle,Expansion_Nozzle,Shaft_Power_Off_Take}.py`,
`trunk/SUAVE/Components/Energy/Processes/Thrust.py`, `trunk/SUAVE/Methods/Propulsion/fm_id.py`,
`trunk/SUAVE/Components/Energy/Networks/{Turbofan,Turbojet_Super}.py` and
`trunk/SUAVE/Methods/Propulsion/turbofan_sizing.py`.

One control point: the arrays of the code are one column wide and every operation is elementwise, so
each row is computed as below from the same row of the inputs.  Real numbers stand for floats.  Where a
float would be NaN (a square root or a power of a negative number, a division by zero) the theorems ask
for the sign conditions.  Warnings are not modelled.
-/

namespace Verif.Energy.GasTurbine

/-- `conditions.freestream` and `conditions.propulsion.throttle` as read by the components, after `Ram`
has written its entries. -/
structure Free where
  p : ℝ
  T : ℝ
  M : ℝ
  u : ℝ
  a : ℝ
  g : ℝ
  γ : ℝ
  cp : ℝ
  R : ℝ
  Tt : ℝ
  Pt : ℝ

/-- Conditions of the atmosphere before `Ram` runs. -/
structure Amb where
  p : ℝ
  T : ℝ
  M : ℝ
  u : ℝ
  a : ℝ
  g : ℝ

/-- A working fluid: `compute_gamma(T,p)`, `compute_cp(T,p)` and `gas_specific_constant`. -/
structure Fluid where
  γ : ℝ → ℝ → ℝ
  cp : ℝ → ℝ → ℝ
  R : ℝ

/-- `Ram.compute` (Ram.py:61-128): stagnation quantities are written to the outputs and to the
freestream, where the later components read the gas properties. -/
noncomputable def ram (w : Fluid) (c : Amb) : Free :=
  let γ := w.γ c.T c.p
  { p := c.p, T := c.T, M := c.M, u := c.u, a := c.a, g := c.g
    γ := γ, cp := w.cp c.T c.p, R := w.R
    Tt := c.T * (1 + ((γ - 1) / 2 * c.M * c.M))
    Pt := c.p * ((1 + (γ - 1) / 2 * c.M * c.M) ^ (γ / (γ - 1))) }

/-- Stagnation temperature and pressure passed between components. -/
structure Stag where
  Tt : ℝ
  Pt : ℝ

/-- Pressure ratio and polytropic efficiency of a component. -/
structure Stage where
  pid : ℝ
  η : ℝ

/-- Outputs of `Compressor` and `Fan`. -/
structure Comp where
  out : Stag
  ht : ℝ
  work : ℝ

/-- `Compressor.compute` (Compressor.py:66-125). -/
noncomputable def compressor (s : Stage) (f : Free) (i : Stag) : Comp :=
  let htIn := f.cp * i.Tt
  let Pt := i.Pt * s.pid
  let Tt := i.Tt * s.pid ^ ((f.γ - 1) / (f.γ * s.η))
  let ht := f.cp * Tt
  ⟨⟨Tt, Pt⟩, ht, ht - htIn⟩

/-- `Fan.compute` (Fan.py:67-127). -/
noncomputable def fan (s : Stage) (f : Free) (i : Stag) : Comp :=
  let htIn := f.cp * i.Tt
  let Pt := i.Pt * s.pid
  let Tt := i.Tt * s.pid ^ ((f.γ - 1) / (f.γ * s.η))
  let ht := f.cp * Tt
  ⟨⟨Tt, Pt⟩, ht, ht - htIn⟩

/-- Settings of a `Combustor`. -/
structure Burner where
  Tt4 : ℝ
  pib : ℝ
  η : ℝ
  htf : ℝ

/-- Outputs of `Combustor`. -/
structure Burnt where
  out : Stag
  ht : ℝ
  f : ℝ

/-- `Combustor.compute` (Combustor.py:81-158) with `inputs.nondim_mass_ratio` as `r`. -/
noncomputable def combustor (b : Burner) (c : Free) (r : ℝ) (i : Stag) : Burnt :=
  let ht4 := c.cp * b.Tt4 * r
  let htIn := c.cp * i.Tt * r
  { out := ⟨b.Tt4, i.Pt * b.pib⟩
    ht := c.cp * b.Tt4
    f := (ht4 - htIn) / (b.η * b.htf - ht4) }

/-- Settings of a `Turbine`. -/
structure Turb where
  ηm : ℝ
  ηp : ℝ

/-- Outputs of `Turbine`. -/
structure Expanded where
  out : Stag
  ht : ℝ

/-- `Turbine.compute` (Turbine.py:69-140): bypass ratio `α`, fuel to air ratio `f`, compressor and fan
work; `shaft` is the work of the off-take, `none` where the input is `None` (117-120). -/
noncomputable def turbine (t : Turb) (c : Free) (i : Stag) (α f wc wf : ℝ) (shaft : Option ℝ) : Expanded :=
  let ws := shaft.getD 0
  let dh := -1 / (1 + f) * 1 / t.ηm * (wc + ws + α * wf)
  let Tt := i.Tt + dh / c.cp
  ⟨⟨Tt, i.Pt * (Tt / i.Tt) ^ (c.γ / ((c.γ - 1) * t.ηp))⟩, c.cp * Tt⟩

/-- `1 + (γ-1)/2 M²`. -/
noncomputable def stagFactor (γ M : ℝ) : ℝ := 1 + (γ - 1) / 2 * M * M

/-- Mach number from a pressure ratio (Expansion_Nozzle.py:147, Compression_Nozzle.py:150, 166). -/
noncomputable def machOf (γ pr : ℝ) : ℝ := Real.sqrt ((pr ^ ((γ - 1) / γ) - 1) * 2 / (γ - 1))

/-- `fm_id` (fm_id.py:14-35). -/
noncomputable def fm (M γ : ℝ) : ℝ :=
  let m0 := (γ + 1) / (2 * (γ - 1))
  ((γ + 1) / 2) ^ m0 * M / (1 + (γ - 1) / 2 * M * M) ^ m0

/-- Settings of a `Compression_Nozzle`. -/
structure Inlet where
  pid : ℝ
  η : ℝ
  recovery : ℝ
  compressible : Bool

/-- Outputs of `Compression_Nozzle`. -/
structure InletOut where
  out : Stag
  ht : ℝ
  M : ℝ
  T : ℝ
  h : ℝ
  u : ℝ

open Classical in
/-- `Compression_Nozzle.compute` (Compression_Nozzle.py:73-181).  With compressibility effects the
stagnation pressure is computed anew without the recovery factor (149, 156). -/
noncomputable def inlet (n : Inlet) (c : Free) (i : Stag) : InletOut :=
  let Tt := i.Tt * (n.pid * n.recovery) ^ ((c.γ - 1) / (c.γ * n.η))
  let ht := c.cp * Tt
  let PtM : ℝ × ℝ :=
    if n.compressible then
      if c.M ≤ 1 then (i.Pt * n.pid, machOf c.γ (i.Pt * n.pid / c.p))
      else
        (n.pid * i.Pt * ((((c.γ + 1) * c.M ^ (2 : ℝ)) / ((c.γ - 1) * c.M ^ (2 : ℝ) + 2)) ^ (c.γ / (c.γ - 1))) *
            ((c.γ + 1) / (2 * c.γ * c.M ^ (2 : ℝ) - (c.γ - 1))) ^ (1 / (c.γ - 1)),
          Real.sqrt ((1 + (c.γ - 1) / 2 * c.M ^ (2 : ℝ)) / (c.γ * c.M ^ 2 - (c.γ - 1) / 2)))
    else
      let Pt := if i.Pt * n.pid * n.recovery < c.p then c.p else i.Pt * n.pid * n.recovery
      (Pt, machOf c.γ (Pt / c.p))
  let T := Tt / (1 + (c.γ - 1) / 2 * PtM.2 * PtM.2)
  let h := c.cp * T
  ⟨⟨Tt, PtM.1⟩, ht, PtM.2, T, h, Real.sqrt (2 * (ht - h))⟩

/-- Outputs of `Expansion_Nozzle`. -/
structure NozzleOut where
  out : Stag
  ht : ℝ
  M : ℝ
  T : ℝ
  ρ : ℝ
  h : ℝ
  u : ℝ
  P : ℝ
  area : ℝ

open Classical in
/-- `Expansion_Nozzle.compute` (Expansion_Nozzle.py:74-188).  `1.0*Mach/Mach` (161) is one because the
Mach number there is at least one. -/
noncomputable def nozzle (s : Stage) (c : Free) (i : Stag) : NozzleOut :=
  let Pt0 := i.Pt * s.pid
  let Tt := i.Tt * s.pid ^ ((c.γ - 1) / c.γ * s.η)
  let ht := c.cp * Tt
  let Pt := if Pt0 < c.p then c.p else Pt0
  let M0 := machOf c.γ (Pt / c.p)
  let P := if M0 < 1 then c.p else Pt / (1 + (c.γ - 1) / 2 * 1 * 1) ^ (c.γ / (c.γ - 1))
  let M1 := if M0 < 1 then machOf c.γ (Pt / c.p) else 1
  let M := if M1 ≤ 0 then 0.001 else M1
  let T := Tt / (1 + (c.γ - 1) / 2 * M * M)
  let h := c.cp * T
  { out := ⟨Tt, Pt⟩, ht := ht, M := M, T := T, ρ := P / (c.R * T), h := h
    u := Real.sqrt (2 * (ht - h)), P := P
    area := fm c.M c.γ / fm M c.γ * (1 / (Pt / c.Pt)) * Real.sqrt (Tt / c.Tt) }

/-- Settings of `Thrust` and of the network read by it. -/
structure ThrustSet where
  Tref : ℝ
  Pref : ℝ
  mdhc : ℝ
  sfcAdj : ℝ

/-- Inputs of `Thrust`: fuel to air ratio, reference stagnation quantities, engines, bypass ratio, flow
shares, and exit velocity, pressure and area ratio of the two nozzles. -/
structure ThrustIn where
  f : ℝ
  ref : Stag
  engines : ℝ
  α : ℝ
  core : ℝ
  bypass : ℝ
  coreN : NozzleOut
  fanN : NozzleOut

/-- Outputs of `Thrust`. -/
structure ThrustOut where
  thrust : ℝ
  tsfc : ℝ
  fsp : ℝ
  mdotCore : ℝ
  fuel : ℝ
  power : ℝ
  isp : ℝ

/-- `mdot_core` (Thrust.py:180, 295; Shaft_Power_Off_Take.py:88). -/
noncomputable def coreFlow (mdhc Tref Pref : ℝ) (ref : Stag) : ℝ := mdhc * Real.sqrt (Tref / ref.Tt) * (ref.Pt / Pref)

/-- `Units.hour` in seconds. -/
def hour : ℝ := 3600

/-- `Thrust.compute` (Thrust.py:74-200). -/
noncomputable def thrust (s : ThrustSet) (c : Free) (throttle : ℝ) (i : ThrustIn) : ThrustOut :=
  let coreNd := i.core * (c.γ * c.M * c.M * (i.coreN.u / c.u - 1) + i.coreN.area * (i.coreN.P / c.p - 1))
  let fanNd := i.bypass * (c.γ * c.M * c.M * (i.fanN.u / c.u - 1) + i.fanN.area * (i.fanN.P / c.p - 1))
  let fsp := 1 / (c.γ * c.M) * (coreNd + fanNd)
  let isp := fsp * c.a * (1 + i.α) / (i.f * c.g)
  let tsfc := i.f * c.g / (fsp * c.a * (1 + i.α)) * (1 - s.sfcAdj) * hour
  let mdot := coreFlow s.mdhc s.Tref s.Pref i.ref
  let FD2 := fsp * c.a * (1 + i.α) * mdot * i.engines * throttle
  { thrust := FD2, tsfc := tsfc, fsp := fsp, mdotCore := mdot
    fuel := max (FD2 * tsfc / c.g) 0 * 1 / hour, power := FD2 * c.u, isp := isp }

/-- `Thrust.size` (Thrust.py:316-370): the settings afterwards and `mass_flow_rate_design`. -/
noncomputable def sizeThrust (s : ThrustSet) (c : Free) (throttle : ℝ) (i : ThrustIn) (design : ℝ) : ThrustSet × ℝ :=
  let fsp := (thrust s c throttle i).fsp
  let mdot := design / (fsp * c.a * (1 + i.α) * i.engines * 1)
  let mdhc := mdot / (Real.sqrt (s.Tref / i.ref.Tt) * (i.ref.Pt / s.Pref))
  ({ s with mdhc := mdhc }, mdot)

/-- A `Shaft_Power_Off_Take` (Shaft_Power_Off_Take.py:29-49). -/
structure OffTake where
  power : ℝ
  Tref : ℝ
  Pref : ℝ

open Classical in
/-- `Shaft_Power_Off_Take.compute` (Shaft_Power_Off_Take.py:51-92).  The reference values of the
off-take itself are used, not the ones passed as inputs. -/
noncomputable def offTakeWork (o : OffTake) (mdhc : ℝ) (ref : Stag) : ℝ :=
  if o.power = 0 then 0
  else if coreFlow mdhc o.Tref o.Pref ref = 0 then 0
  else o.power / coreFlow mdhc o.Tref o.Pref ref

/-- A `Turbofan` network. -/
structure Turbofan where
  fluid : Fluid
  inlet : Inlet
  lpc : Stage
  hpc : Stage
  fan : Stage
  burner : Burner
  hpt : Turb
  lpt : Turb
  coreN : Stage
  fanN : Stage
  thr : ThrustSet
  α : ℝ
  engines : ℝ
  offTake : Option OffTake

/-- Everything the components hold after a pass through the network. -/
structure Pass where
  free : Free
  inlet : InletOut
  lpc : Comp
  hpc : Comp
  fan : Comp
  burner : Burnt
  hpt : Expanded
  lpt : Expanded
  coreN : NozzleOut
  fanN : NozzleOut
  tin : ThrustIn

/-- The chain from `ram` to the inputs of `thrust`, with the work of the off-take given as `ws`
(Turbofan.py:132-259; turbofan_sizing.py:86-193). -/
noncomputable def Turbofan.chain (e : Turbofan) (c : Amb) (ws : Stag → Option ℝ) : Pass :=
  let fr := ram e.fluid c
  let i := GasTurbine.inlet e.inlet fr ⟨fr.Tt, fr.Pt⟩
  let l := compressor e.lpc fr i.out
  let h := compressor e.hpc fr l.out
  let fa := GasTurbine.fan e.fan fr i.out
  let b := combustor e.burner fr 1 h.out
  let ht := turbine e.hpt fr b.out 0 b.f h.work fa.work none
  let lt := turbine e.lpt fr ht.out e.α b.f l.work fa.work (ws l.out)
  let cn := nozzle e.coreN fr lt.out
  let fn := nozzle e.fanN fr fa.out
  { free := fr, inlet := i, lpc := l, hpc := h, fan := fa, burner := b, hpt := ht, lpt := lt, coreN := cn, fanN := fn
    tin := { f := b.f, ref := l.out, engines := e.engines, α := e.α, core := 1 / (1 + e.α), bypass := e.α / (1 + e.α)
             coreN := cn, fanN := fn } }

/-- `Turbofan.evaluate_thrust` up to the inputs of `thrust`: with the off-take if the network has one
(173-183, 214-217). -/
noncomputable def Turbofan.pass (e : Turbofan) (c : Amb) : Pass :=
  e.chain c fun ref => e.offTake.map fun o => offTakeWork o e.thr.mdhc ref

/-- `results` of `evaluate_thrust` (262-298): thrust, mass rate and the exit quantities stored for the
noise analysis (fan, then core): static and stagnation pressure. -/
structure Results where
  force : ℝ
  mdot : ℝ
  noiseFan : ℝ × ℝ
  noiseCore : ℝ × ℝ

/-- `Turbofan.evaluate_thrust` (79-298). -/
noncomputable def Turbofan.evaluate (e : Turbofan) (c : Amb) (throttle : ℝ) : Results :=
  let p := e.pass c
  let o := thrust e.thr p.free throttle p.tin
  ⟨o.thrust, o.fuel, (p.fanN.P, p.fanN.P), (p.coreN.P, p.coreN.P)⟩

/-- `Turbofan.engine_out` (324-357): the results and the throttle left in the conditions. -/
noncomputable def Turbofan.engineOut (e : Turbofan) (c : Amb) (throttle : ℝ) : Results × ℝ :=
  let saved := throttle
  let r := e.evaluate c 1
  ({ r with force := r.force / e.engines * (e.engines - 1), mdot := r.mdot / e.engines * (e.engines - 1) }, saved)

/-- `turbofan_sizing` up to `thrust.size` (turbofan_sizing.py:86-196): the chain is run without any
off-take; the network afterwards. -/
noncomputable def Turbofan.size (e : Turbofan) (c : Amb) (throttle design : ℝ) : Turbofan :=
  let p := e.chain c fun _ => none
  { e with thr := (sizeThrust e.thr p.free throttle p.tin design).1 }

/-- A `Turbojet_Super` network; `after` is the afterburner where it is active. -/
structure Turbojet where
  fluid : Fluid
  inlet : Inlet
  lpc : Stage
  hpc : Stage
  burner : Burner
  hpt : Turb
  lpt : Turb
  after : Option Burner
  coreN : Stage

/-- What a pass through a turbojet leaves behind. -/
structure JetPass where
  free : Free
  hpc : Comp
  burner : Burnt
  lpt : Expanded
  after : Option Burnt
  coreN : NozzleOut
  fTotal : ℝ

/-- `Turbojet_Super.evaluate_thrust` up to the inputs of `thrust` (Turbojet_Super.py:131-222).  The mass
ratio is written to `inputs.nondim_ratio` (195), which the combustor never reads, so its
`nondim_mass_ratio` keeps the default one (Combustor.py:79, 131).  The fan inputs of the turbines are
those set by the sizing, with bypass ratio zero. -/
noncomputable def Turbojet.pass (e : Turbojet) (c : Amb) : JetPass :=
  let fr := ram e.fluid c
  let i := GasTurbine.inlet e.inlet fr ⟨fr.Tt, fr.Pt⟩
  let l := compressor e.lpc fr i.out
  let h := compressor e.hpc fr l.out
  let b := combustor e.burner fr 1 h.out
  let ht := turbine e.hpt fr b.out 0 b.f h.work 0 none
  let lt := turbine e.lpt fr ht.out 0 b.f l.work 0 none
  let ab := e.after.map fun a => combustor a fr 1 lt.out
  let cn := nozzle e.coreN fr (match ab with | some x => x.out | none => lt.out)
  { free := fr, hpc := h, burner := b, lpt := lt, after := ab, coreN := cn
    fTotal := match ab with | some x => b.f + x.f | none => b.f }

/-- `combustor.outputs.fuel_to_air_ratio` as found after `evaluate_thrust`: the array given to `thrust`
is the combustor's own, and `+=` (222) changes it in place. -/
noncomputable def Turbojet.reportedF (e : Turbojet) (c : Amb) : ℝ := (e.pass c).fTotal

end Verif.Energy.GasTurbine
