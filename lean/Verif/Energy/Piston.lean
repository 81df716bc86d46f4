import Verif.Physics.Atmosphere
import Mathlib.Tactic.Ring
/-
Model of
`trunk/SUAVE/Components/Energy/Converters/Internal_Combustion_Engine.py`,
`trunk/SUAVE/Components/Energy/Networks/Internal_Combustion_Propeller.py` and
`trunk/SUAVE/Components/Energy/Networks/Internal_Combustion_Propeller_Constant_Speed.py`,
one control point at a time, over the reals.  `Units['lb/hp/hr']` is folded into the specific fuel consumption `sfc`, `Units.rpm` is
the parameter `rpmUnit`.  The propeller is an arbitrary function of its speed: what `prop.spin` returns.
-/

namespace Verif.Energy.Piston

/-- The engine: `sea_level_power`, `flat_rate_altitude`, specific fuel consumption (Internal_Combustion_Engine.py:34-38). -/
structure Engine where
  rated : ℝ
  flat : ℝ
  sfc : ℝ

/-- Density ratio `sigma` at the altitude above the flat rating (69-89, 148-168); `dens` is the density of the atmosphere as a
function of altitude and temperature offset. -/
noncomputable def Engine.sigma (e : Engine) (dens : ℝ → ℝ → ℝ) (h dT : ℝ) : ℝ :=
  let v := h - e.flat
  let v := if v < 0 then 0 else v
  dens v dT / dens 0 0

/-- `Pavailable` (92-93, 171-172). -/
noncomputable def Engine.available (e : Engine) (dens : ℝ → ℝ → ℝ) (h dT : ℝ) : ℝ :=
  if e.flat > h then e.rated else e.rated * (e.sigma dens h dT - 0.117) / 0.883

/-- Outputs of `power`. -/
structure PowerOut where
  power : ℝ
  fuel : ℝ
  torque : ℝ

/-- `power` (40-113). -/
noncomputable def Engine.power (e : Engine) (dens : ℝ → ℝ → ℝ) (h dT throttle speed : ℝ) : PowerOut :=
  let p := e.available dens h dT * throttle
  let p := if p < 0 then 0 else p
  { power := p, fuel := max (p * e.sfc) 0, torque := p / speed }

/-- Outputs of `calculate_throttle`. -/
structure ThrottleOut where
  throttle : ℝ
  fuel : ℝ

/-- `calculate_throttle` (116-190): the throttle is divided out before negative powers are set to zero. -/
noncomputable def Engine.calculateThrottle (e : Engine) (dens : ℝ → ℝ → ℝ) (h dT demand : ℝ) : ThrottleOut :=
  let throttle := demand / e.available dens h dT
  let p := if demand < 0 then 0 else demand
  { throttle := throttle, fuel := max (p * e.sfc) 0 }

/-- Density of the 1976 atmosphere as used by the engine. -/
noncomputable def airDensity (g Rad R h dT : ℝ) : ℝ := (Verif.Physics.us76.compute g Rad R h dT).rho

/-- What `prop.spin` returns, as far as the networks use it. -/
structure Spin where
  thrust : Fin 3 → ℝ
  torque : ℝ
  power : ℝ

/-- One engine with its propeller. -/
structure Unit where
  engine : Engine
  radius : ℝ
  spin : ℝ → Spin

/-- Running totals and the torques of the residual (Internal_Combustion_Propeller.py:99-101, 138-139). -/
structure Total where
  thrust : Fin 3 → ℝ
  power : ℝ
  fuel : ℝ
  engineTorque : List ℝ
  propTorque : List ℝ

/-- Values above full throttle are scaled (127-128). -/
noncomputable def overThrottle (t x : ℝ) : ℝ := if t > 1 then x * t else x

/-- The loop body (105-139). -/
noncomputable def stepVariable (dens : ℝ → ℝ → ℝ) (rpmUnit h dT t rpm factor : ℝ) (s : Total) (u : Unit) : Total :=
  let ω := rpm * rpmUnit
  let e := u.engine.power dens h dT t ω
  let o := u.spin ω
  { thrust := fun k => s.thrust k + overThrottle t (o.thrust k) * factor
    power := s.power + overThrottle t o.power * factor
    fuel := s.fuel + e.fuel * factor
    engineTorque := s.engineTorque ++ [e.torque]
    propTorque := s.propTorque ++ [o.torque] }

/-- Which engines are evaluated and with what factor (91-96; Constant_Speed.py:93-98); `none` is the `IndexError` of a missing
engine or propeller. -/
def evaluated (identical : Bool) (n : ℕ) (us : List Unit) : Option (List Unit × ℝ) :=
  if identical then
    match us with
    | [] => none
    | u :: _ => some ([u], (n : ℝ))
  else if n ≤ us.length then some (us.take n, 1) else none

/-- `evaluate_thrust` of the variable speed network (59-158). -/
noncomputable def variableSpeed (dens : ℝ → ℝ → ℝ) (rpmUnit h dT t rpm : ℝ) (identical : Bool) (n : ℕ) (us : List Unit) : Option Total :=
  (evaluated identical n us).map fun e =>
    e.1.foldl (stepVariable dens rpmUnit h dT t rpm e.2) ⟨fun _ => 0, 0, 0, [], []⟩

/-- `residuals` (207-211). -/
noncomputable def Total.residual (s : Total) : List ℝ := List.zipWith (· - ·) s.engineTorque s.propTorque

/-- State of the constant speed loop: the local `F` survives the loop (Constant_Speed.py:109-137). -/
structure Total2 where
  last : Fin 3 → ℝ
  total : Fin 3 → ℝ
  power : ℝ
  fuel : ℝ
  tipMach : List ℝ
  throttle : Option ℝ

/-- The loop body (115-145): `rpm` is handed to the propeller as its angular velocity and multiplied by `Units.rpm` for the tip Mach
number.  The pitch command is part of `spin`. -/
noncomputable def stepConstant (dens : ℝ → ℝ → ℝ) (rpmUnit h dT a rpm factor : ℝ) (s : Total2) (u : Unit) : Total2 :=
  let o := u.spin rpm
  let c := u.engine.calculateThrottle dens h dT o.power
  { last := o.thrust
    total := fun k => s.total k + o.thrust k * factor
    power := s.power + o.power * factor
    fuel := s.fuel + c.fuel * factor
    tipMach := s.tipMach ++ [u.radius * rpm * rpmUnit / a]
    throttle := some c.throttle }

/-- What `evaluate_thrust` of the constant speed network returns (151-158). -/
structure Out2 where
  thrust : Fin 3 → ℝ
  power : ℝ
  fuel : ℝ
  tipMach : List ℝ

/-- `evaluate_thrust` of the constant speed network (60-158); with no engine `F` is unbound. -/
noncomputable def constantSpeed (dens : ℝ → ℝ → ℝ) (rpmUnit h dT a rpm : ℝ) (identical : Bool) (n : ℕ) (us : List Unit) : Option Out2 :=
  match evaluated identical n us with
  | none => none
  | some e =>
    if e.1 = [] then none
    else
      let s := e.1.foldl (stepConstant dens rpmUnit h dT a rpm e.2) ⟨fun _ => 0, fun _ => 0, 0, 0, [], none⟩
      some ⟨s.last, s.power, s.fuel, s.tipMach⟩

/-- Columns of unknowns and of residuals that the variable speed network adds to a segment (242-260). -/
def unknownsAdded (identical : Bool) (nProps : ℕ) : ℕ × ℕ := (1, if identical then 1 else nProps)

/-- The consistency warning `n_props!=n_engines!=n_eng` (246). -/
def warns (nProps nEngines n : ℕ) : Bool := nProps != nEngines && nEngines != n

end Verif.Energy.Piston
