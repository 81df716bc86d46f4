import Mathlib.Analysis.SpecialFunctions.Pow.Real
import Mathlib.Analysis.SpecialFunctions.Trigonometric.Basic

/-!
Electric drive: motors, speed controller, gearbox, and the battery and solar networks of
`Components/Energy`.  All quantities are one row of the arrays (one control point), over `ℝ`.
A `nan` or `inf` that the code would produce by dividing by zero is `none` where the theorems speak of it.
-/

namespace Verif.Electric

/-- Settings of a `Motor` (Motor.py:52-62); also those `Motor_Lo_Fid` shares (Motor_Lo_Fid.py:52-57). -/
structure Motor where
  res : ℝ
  noLoad : ℝ
  speedConstant : ℝ
  gear : ℝ
  gearEff : ℝ
  expected : ℝ
  radius : ℝ

/-- `io = no_load_current + exp_i*(1-etaG)` (Motor.py:101, 155, 200, 253; Motor_Lo_Fid.py:95, 159). -/
noncomputable def Motor.io (m : Motor) : ℝ := m.noLoad + m.expected * (1 - m.gearEff)

/-- `Kv = speed_constant/G` (Motor.py:103, 157, 202; Motor_Lo_Fid.py:97). -/
noncomputable def Motor.Kv (m : Motor) : ℝ := m.speedConstant / m.gear

/-- The quantity under the root in `Motor.omega` (Motor.py:112-113). -/
noncomputable def Motor.under (m : Motor) (ρ Cp v : ℝ) : ℝ :=
  -16 * Cp * m.io * ρ * (m.Kv * m.Kv * m.Kv) * (m.radius * m.radius * m.radius * m.radius * m.radius) * (m.res * m.res)
    + 16 * Cp * ρ * v * (m.Kv * m.Kv * m.Kv) * (m.radius * m.radius * m.radius * m.radius * m.radius) * m.res
    + Real.pi * Real.pi * Real.pi

/-- `Motor.omega` (Motor.py:112-115): `nan` becomes zero.  A vanishing denominator comes with a vanishing
numerator, so it is `nan` too and the total division of Lean gives the same zero. -/
noncomputable def Motor.omega (m : Motor) (ρ Cp v : ℝ) : ℝ :=
  if m.under ρ Cp v < 0 then 0 else
    (Real.pi ^ (3 / 2 : ℝ) * (m.under ρ Cp v ^ (0.5 : ℝ) - Real.pi ^ (3 / 2 : ℝ)))
      / (8 * Cp * (m.Kv * m.Kv) * (m.radius * m.radius * m.radius * m.radius * m.radius) * m.res * ρ)

/-- `Motor.torque` (Motor.py:162), and the torque set by `Motor.omega` (Motor.py:117) and by
`Motor_Lo_Fid.omega` (Motor_Lo_Fid.py:112). -/
noncomputable def Motor.torque (m : Motor) (v ω : ℝ) : ℝ := ((v - ω / m.Kv) / m.res - m.io) / m.Kv

/-- Voltage and current of `Motor.voltage_current` (Motor.py:206-207). -/
noncomputable def Motor.voltageCurrent (m : Motor) (Q ω : ℝ) : ℝ × ℝ :=
  let v := (Q * m.Kv + m.io) * m.res + ω / m.Kv
  (v, (v - ω / m.Kv) / m.res)

/-- `etam=(1-io/i)*(1-i*Res/v)` (Motor.py:212, 263; Motor_Lo_Fid.py:169); `none` where numpy divides by zero. -/
noncomputable def Motor.efficiency (m : Motor) (v i : ℝ) : Option ℝ :=
  if i = 0 ∨ v = 0 then none else some ((1 - m.io / i) * (1 - i * m.res / v))

/-- `Motor.current` (Motor.py:246-261; Motor_Lo_Fid.py:152-167): speed on the motor side of the gear, and no
current is fed back. -/
noncomputable def Motor.current (m : Motor) (v ω : ℝ) : ℝ :=
  let i := (v - ω * m.gear / m.speedConstant) / m.res
  if i < 0 then 0 else i

/-- The quantity under the root in `Motor_Lo_Fid.omega` (Motor_Lo_Fid.py:101). -/
noncomputable def Motor.inside (m : Motor) (η v : ℝ) : ℝ :=
  m.res * m.res * m.io * m.io - 2 * m.res * η * m.io * v - 2 * m.res * m.io * v + η * η * v * v - 2 * η * v * v + v * v

/-- `Motor_Lo_Fid.omega` (Motor_Lo_Fid.py:101-114) for the efficiency `η` of the settings. -/
noncomputable def Motor.omegaLo (m : Motor) (η v : ℝ) : ℝ :=
  let s := if m.inside η v < 0 then 0 else m.inside η v
  if v = 0 then 0 else
    m.Kv * v / 2 + m.Kv * s ^ (1 / 2 : ℝ) / 2 - m.Kv * m.res * m.io / 2 + m.Kv * η * v / 2

/-- `Motor_Lo_Fid.power_lo` (Motor_Lo_Fid.py:204-212): power and current. -/
noncomputable def powerLo (η rated vRate v : ℝ) : ℝ × ℝ :=
  let p := rated * η * v / vRate
  (p, if p = 0 then 0 else p / (η * v))

/-- Inputs and outputs of a `Gearbox`. -/
structure Shaft where
  torque : ℝ
  speed : ℝ
  power : ℝ

/-- `Gearbox.compute` (Gearbox.py:89-107). -/
noncomputable def gearbox (R1 R2 η : ℝ) (i : Shaft) : Shaft :=
  { speed := i.speed * R1 / R2
    torque := i.torque * R1 / R2 * η
    power := i.power * η }

/-- Throttle as the speed controller applies it to the voltage (Electronic_Speed_Controller.py:66-72). -/
noncomputable def clampThrottle (t : ℝ) : ℝ :=
  let a := if t ≤ 0 then 0 else t
  if 1 ≤ a then 1 else a

/-- `Electronic_Speed_Controller.voltageout` (75). -/
noncomputable def escVoltage (t v : ℝ) : ℝ := clampThrottle t * v

/-- `Electronic_Speed_Controller.currentin` (100-103). -/
noncomputable def escCurrent (t eff i : ℝ) : ℝ := i * t / eff

/-- What `prop.spin` returns and the networks use; the blade element solver is not modelled here, any
function of the speed is allowed. -/
structure Spin where
  F : Fin 3 → ℝ
  Q : ℝ
  P : ℝ

/-- A propeller with its motor and the unknown `propeller_power_coefficient[:,ii]`. -/
structure Drive where
  motor : Motor
  Cp : ℝ
  spin : ℝ → Spin

/-- What the loop records for each evaluated propeller (Battery_Propeller.py:215-224). -/
structure Rec where
  volts : ℝ
  current : ℝ
  ω : ℝ
  motorTorque : ℝ
  propTorque : ℝ
  thrust : ℝ
  P : ℝ

/-- Running totals of the loop (Battery_Propeller.py:169-171, 210-212). -/
structure Tally where
  current : ℝ
  thrust : Fin 3 → ℝ
  power : ℝ
  recs : List Rec

/-- `np.linalg.norm(F, axis=1)` of one row. -/
noncomputable def norm3 (F : Fin 3 → ℝ) : ℝ := Real.sqrt (F 0 ^ 2 + F 1 ^ 2 + F 2 ^ 2)

/-- `P[eta>1.0] = P[eta>1.0]*eta[eta>1.0]` (Battery_Propeller.py:200, Solar.py:186, Lift_Cruise.py:221, 338). -/
noncomputable def over (t x : ℝ) : ℝ := if 1 < t then x * t else x

/-- Body of the loop over the propellers (Battery_Propeller.py:174-224; the same statements in Solar.py:163-209
and Lift_Cruise.py:198-245, 315-363): density `ρ`, throttle `t`, controller voltage `v`. -/
noncomputable def step (ρ t v factor : ℝ) (s : Tally) (d : Drive) : Tally :=
  let ω := d.motor.omega ρ d.Cp v
  let out := d.spin ω
  let P := over t out.P
  let F : Fin 3 → ℝ := fun k => over t (out.F k)
  let i := d.motor.current v ω
  let total : Fin 3 → ℝ := fun k => s.thrust k + F k * factor
  { current := s.current + factor * i
    thrust := total
    power := s.power + P * factor
    recs := s.recs ++ [⟨v, i, ω, d.motor.torque v ω, out.Q, norm3 total, P⟩] }

/-- The loop from zero totals (Battery_Propeller.py:169-174). -/
noncomputable def loop (ρ t v factor : ℝ) (ds : List Drive) : Tally :=
  ds.foldl (step ρ t v factor) ⟨0, fun _ => 0, 0, []⟩

/-- Which propellers are evaluated and the factor (Battery_Propeller.py:161-166, Solar.py:150-155,
Lift_Cruise.py:185-190, 302-307).  `none` is the `IndexError` when a container is too short. -/
def evaluated (identical : Bool) (n : ℕ) (ds : List Drive) : Option (List Drive × ℝ) :=
  if identical then
    match ds with
    | [] => none
    | d :: _ => some ([d], (n : ℝ))
  else if n ≤ ds.length then some (ds.take n, 1) else none

/-- A group of propellers behind one speed controller. -/
structure Group where
  drives : List Drive
  n : ℕ
  identical : Bool
  eff : ℝ

/-- Voltage out, loop, current in, for one group (Battery_Propeller.py:155-212, 250-253). -/
noncomputable def Group.run (g : Group) (ρ t volts : ℝ) : Option (Tally × ℝ) :=
  (evaluated g.identical g.n g.drives).map fun e =>
    let s := loop ρ t (escVoltage t volts) e.2 e.1
    (s, escCurrent t g.eff s.current)

/-- Results of a battery network.  `P` is the propeller power handed to `pack_battery_conditions`. -/
structure BatteryOut where
  thrust : Fin 3 → ℝ
  current : ℝ
  powerIn : ℝ
  P : ℝ
  recs : List Rec

/-- `Battery_Propeller.evaluate_thrust`, discharging (Battery_Propeller.py:148-263): `volts` is what
`battery.compute_voltage` returns and `nominal` is `self.voltage`.  `P` is the variable left over from the last
turn of the loop, so without a turn it does not exist. -/
noncomputable def batteryPropeller (g : Group) (nominal avionics payload ρ t volts : ℝ) : Option BatteryOut :=
  (g.run ρ t volts).bind fun r =>
    r.1.recs.getLast?.map fun last =>
      { thrust := r.1.thrust
        current := r.2 + (avionics + payload) / nominal
        powerIn := -(volts * r.2 + (avionics + payload))
        P := last.P
        recs := r.1.recs }

/-- The charging branch (Battery_Propeller.py:271-278, Lift_Cruise.py:423-431): cell charging current and
voltage, cells in series and in parallel. -/
noncomputable def charging (cellI cellV nSeries nParallel : ℝ) : BatteryOut :=
  let i := -cellI * nParallel
  let v := cellV * nSeries
  { thrust := fun _ => 0
    current := i
    powerIn := -i * v
    P := -i * v
    recs := [] }

/-- `electronics_efficiency` and `battery_cell_power_draw` of `pack_battery_conditions`
(pack_battery_conditions.py:71-74, 89-90). -/
noncomputable def electronicsEfficiency (P powerIn : ℝ) : ℝ := -P / powerIn

/-- `payload_efficiency` (pack_battery_conditions.py:87). -/
noncomputable def payloadEfficiency (loads powerIn : ℝ) : ℝ := (powerIn + loads) / powerIn

/-- `battery_cell_power_draw` (pack_battery_conditions.py:90). -/
noncomputable def cellPowerDraw (powerIn : ℝ) (nSeries : ℕ) : ℝ := powerIn / nSeries

/-- `battery_cell_energy` (pack_battery_conditions.py:73, 91). -/
noncomputable def cellEnergy (energy : ℝ) (nSeries nParallel : ℕ) : ℝ := energy / ((nSeries : ℝ) * nParallel)

/-- `Lift_Cruise.evaluate_thrust`, discharging (Lift_Cruise.py:167-412, 435-441): propellers `f` with throttle
`t`, lift rotors `l` with throttle `tl`. -/
noncomputable def liftCruise (f l : Group) (avionics payload ρ t tl volts : ℝ) : Option BatteryOut :=
  (f.run ρ t volts).bind fun rf =>
    (l.run ρ tl volts).bind fun rl =>
      rf.1.recs.getLast?.bind fun lastF =>
        rl.1.recs.getLast?.map fun lastL =>
          let total := rl.2 + rf.2 + (avionics + payload) / volts
          { thrust := fun k => rf.1.thrust k + rl.1.thrust k
            current := total
            powerIn := -(total * volts)
            P := lastF.P + lastL.P
            recs := rf.1.recs ++ rl.1.recs }

/-- `Solar_Panel.power` (Solar_Panel.py:70-77). -/
noncomputable def solarPower (flux area eff : ℝ) : ℝ := flux * area * eff

/-- Outputs of `Solar_Logic`. -/
structure LogicOut where
  current : ℝ
  powerIn : ℝ

/-- `Solar_Logic.logic` (Solar_Logic.py:111-128). -/
noncomputable def solarLogic (mppt volts pin avionics payload esc : ℝ) : LogicOut :=
  let level := pin * mppt - avionics - payload - volts * esc
  { current := level / volts, powerIn := level }

/-- Results of a solar network: `logic` is what the battery is charged with (Solar.py:235-236) and `current`
what is recorded as the battery current afterwards (Solar.py:242). -/
structure SolarOut where
  thrust : Fin 3 → ℝ
  logic : LogicOut
  current : ℝ
  recs : List Rec

/-- `Solar.evaluate_thrust` (Solar.py:129-248). -/
noncomputable def solarNetwork (g : Group) (mppt system flux area eff avionics payload ρ t : ℝ) : Option SolarOut :=
  (g.run ρ t system).map fun r =>
    { thrust := r.1.thrust
      logic := solarLogic mppt system (solarPower flux area eff) avionics payload r.2
      current := r.2
      recs := r.1.recs }

/-- `Propeller_Lo_Fid.spin` (Propeller_Lo_Fid.py:97-106): thrust and power. -/
noncomputable def spinLo (etap Q ω V : ℝ) : ℝ × ℝ := (etap * (Q * ω) / V, Q * ω)

/-- Results of `Solar_Low_Fidelity`. -/
structure SolarLoOut where
  ω : ℝ
  thrust : ℝ
  power : ℝ
  motorCurrent : ℝ
  escTotal : ℝ
  logic : LogicOut

/-- `Solar_Low_Fidelity.evaluate_thrust` (Solar_Low_Fidelity.py:118-192) with a `Motor_Lo_Fid` of efficiency `η`
and a `Propeller_Lo_Fid`; the thrust is the first component. -/
noncomputable def solarLow (m : Motor) (η etap escEff mppt system flux area eff avionics payload V t n : ℝ) : SolarLoOut :=
  let v := escVoltage t system
  let ω := m.omegaLo η v
  let s := spinLo etap (m.torque v ω) ω V
  let i := m.current v ω
  let total := over t (escCurrent t escEff i * n)
  { ω := ω
    thrust := n * over t s.1
    power := over t s.2
    motorCurrent := i
    escTotal := total
    logic := solarLogic mppt system (solarPower flux area eff) avionics payload total }

/-- Battery side of a ducted-fan network. -/
structure FanOut where
  current : ℝ
  powerIn : ℝ
  massRate : ℝ

/-- `Battery_Ducted_Fan.evaluate_thrust` (Battery_Ducted_Fan.py:106-135) for the propulsive power the ducted fan
reports; `none` where the current is a division by a zero voltage. -/
noncomputable def batteryFan (power motorEff escEff nominal avionics payload t : ℝ) : Option FanOut :=
  if escVoltage t nominal = 0 then none else
    let i := escCurrent t escEff (power / motorEff / escVoltage t nominal)
    some
      { current := i + (avionics + payload) / nominal
        powerIn := -(nominal * i + (avionics + payload))
        massRate := 0 }

/-- `Generator_Zero_Fid.calculate_power` (Generator_Zero_Fid.py:80-87): power and fuel. -/
noncomputable def generator (sfc maxPower : ℝ) : ℝ × ℝ := (maxPower, maxPower * sfc)

/-- `Serial_Hybrid_Ducted_Fan.evaluate_thrust` (Serial_Hybrid_Ducted_Fan.py:99-158). -/
noncomputable def hybridFan (power motorEff escEff nominal avionics payload sfc maxPower t : ℝ) : Option FanOut :=
  if escVoltage t nominal = 0 then none else
    let i := escCurrent t escEff (power / motorEff / escVoltage t nominal)
    let g := generator sfc maxPower
    some
      { current := i + (avionics + payload) / nominal - g.1 / nominal
        powerIn := -(nominal * i + (avionics + payload)) + g.1
        massRate := g.2 }

end Verif.Electric
