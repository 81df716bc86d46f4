import Mathlib.Analysis.SpecialFunctions.Log.Base
import Mathlib.Analysis.SpecialFunctions.Pow.Real
import Mathlib.Tactic.Ring
/-
Model of the superconducting and cryogenic components, one control point at a time, over the reals:
`trunk/SUAVE/Methods/Cryogenics/Cryocooler/cryocooler_model.py`,
`trunk/SUAVE/Methods/Cryogenics/Leads/lead_calculations.py`,
`trunk/SUAVE/Methods/Cryogenics/Dynamo/dynamo_efficiency.py`,
`trunk/SUAVE/Methods/Weights/Cooling/Cryogen/Consumption/Coolant_use.py`,
`trunk/SUAVE/Components/Energy/Converters/{Motor_HTS_Rotor,Turboelectric}.py`,
`trunk/SUAVE/Components/Energy/Distributors/{Cryogenic_Lead,HTS_DC_Dynamo_Basic,HTS_DC_Supply,HTS_Dynamo_Supply}.py`,
`trunk/SUAVE/Components/Energy/Networks/{Turboelectric_HTS_Ducted_Fan,Turboelectric_HTS_Dynamo_Ducted_Fan}.py` and
`trunk/SUAVE/Methods/Power/Turboelectric/{Sizing/initialize_from_power,Discharge/zero_fidelity}.py`.
Not finite results and exceptions are `none`; quadratures are exact.
-/

namespace Verif.Energy.Cryo

/-! ### Cryocooler -/

/-- Constants of one cooler type (cryocooler_model.py:82-112): lowest temperature at room temperature, efficiency per kelvin, mass per
watt and fixed mass. -/
structure Cooler where
  tmin : ℝ
  slope : ℝ
  perWatt : ℝ
  fixed : ℝ

/-- `'fps'` (84-88). -/
noncomputable def fps : Cooler := ⟨35, 0.0014, 0.0098, 1.0769⟩
/-- `'GM'` (92-96). -/
noncomputable def gm : Cooler := ⟨5.4, 0.0005, 0.0129, 63.08⟩
/-- `'sPT'` (100-104). -/
noncomputable def spt : Cooler := ⟨16, 0.0002, 0.0079, 51.124⟩
/-- `'dPT'` (108-112). -/
noncomputable def dpt : Cooler := ⟨8, 0.00001, 0.0111, 73.809⟩

/-- Target temperature after the check for impossible values (59-62). -/
noncomputable def target (cryo : ℝ) : ℝ := if cryo < 1 then max cryo 5 else cryo

/-- Margin above the lowest temperature (70, 85, 120); the clipped `temp_diff` (73-79) is not used. -/
noncomputable def Cooler.margin (c : Cooler) (amb cryo : ℝ) : ℝ := target cryo - (c.tmin - (292.15 - amb))

/-- `cryocooler_model` for a known type (82-131): input power and mass; `none` for `None` and for the division by zero. -/
noncomputable def Cooler.run (c : Cooler) (amb cryo load : ℝ) : Option (ℝ × ℝ) :=
  let d := c.margin amb cryo
  let eff := c.slope * d
  if d < 0 then none
  else if eff = 0 then none
  else some (load / eff, c.perWatt * (load / eff) + c.fixed)

/-! ### Boil-off of a cryogen -/

/-- Coefficients of a cryogen (Attributes/Cryogens/Liquid_H2.py:56-91). -/
structure Cryogen where
  aA : ℝ
  aB : ℝ
  aC : ℝ
  l : Fin 4 → ℝ
  g : Fin 4 → ℝ
  h : Fin 4 → ℝ

/-- Boiling temperature at a pressure (Coolant_use.py:42). -/
noncomputable def Cryogen.boil (c : Cryogen) (p : ℝ) : ℝ := c.aB / (c.aA - Real.logb 10 p) - c.aC

/-- Cubic in ascending coefficients. -/
def cubic (k : Fin 4 → ℝ) (t : ℝ) : ℝ := k 3 * t ^ 3 + k 2 * t ^ 2 + k 1 * t + k 0

/-- Value of `integrate.quad` of a cubic between two temperatures (71, 76). -/
noncomputable def heat (k : Fin 4 → ℝ) (a b : ℝ) : ℝ :=
  k 3 * (b ^ 4 - a ^ 4) / 4 + k 2 * (b ^ 3 - a ^ 3) / 3 + k 1 * (b ^ 2 - a ^ 2) / 2 + k 0 * (b - a)

/-- Cooling per gram between the inlet temperature `ti` and the equipment temperature `te` (45-81). -/
noncomputable def Cryogen.perGram (c : Cryogen) (ti te p : ℝ) : ℝ :=
  let tb := c.boil p
  let gas := tb < te
  let liquid := tb > ti
  let evap := gas ∧ liquid
  (if liquid then heat c.l ti (if evap then tb else te) else 0) +
    (if evap then cubic c.h p else 0) +
    (if gas then heat c.g (if evap then tb else ti) te else 0)

/-- `Coolant_use` (20-90); `none` is the division by zero. -/
noncomputable def Cryogen.use (c : Cryogen) (ti te load p : ℝ) : Option ℝ :=
  let q := 1000 * c.perGram ti te p
  if q = 0 then none else some (load / q)

/-! ### Current leads -/

/-- A lead material by its conductivities and the quadrature of their ratio (lead_calculations.py:48). -/
structure Material where
  sigma : ℝ → ℝ
  ratio : ℝ → ℝ → ℝ
  /-- The quadrature of `Q_min` times the slope of `sigma` (86) for unit current. -/
  slopeTerm : ℝ → ℝ → ℝ

/-- `Q_min` (25-59); `none` is the `ZeroDivisionError` of equal temperatures. -/
noncomputable def qMin (m : Material) (cold hot current : ℝ) : Option ℝ :=
  if hot - cold = 0 then none else some (current * Real.sqrt (2 * (1 / (hot - cold) * m.ratio cold hot) * (hot - cold)))

/-- `LARatio` (61-89). -/
noncomputable def laRatio (m : Material) (cold hot current q : ℝ) : ℝ :=
  (m.sigma cold * q + current * m.slopeTerm cold hot) / current ^ 2

/-- A lead after `initialize_material_lead` (Cryogenic_Lead.py:64-118): `unpowered` is `outputs.unpowered_Q`, which keeps its default
because the result is stored in `self.unpowered_Q` (118). -/
structure Lead where
  cold : ℝ
  hot : ℝ
  length : ℝ
  area : ℝ
  mass : ℝ
  optimum : ℝ
  minimum : ℝ
  unpowered : ℝ
  /-- `self.unpowered_Q`. -/
  stored : ℝ

/-- `initialize_material_lead` (64-118) with `Q_unpowered` (120-166); `cond` is the quadrature of the thermal conductivity. -/
noncomputable def initLead (m : Material) (density cond cold hot current length : ℝ) : Option Lead :=
  (qMin m cold hot current).map fun q =>
    let area := length / laRatio m cold hot current q
    { cold := cold, hot := hot, length := length, area := area, mass := area * length * density, optimum := current, minimum := q
      unpowered := 0, stored := cond * area / length }

/-- Lengths and heats of both parts for a guessed hottest temperature (lead_calculations.py:148-157): test length, heat at the cold end,
electrical power. -/
noncomputable def guess (m : Material) (l : Lead) (current T : ℝ) : Option (ℝ × ℝ × ℝ) :=
  (qMin m l.hot T current).bind fun wq =>
    (qMin m l.cold T current).map fun cq =>
      (l.area * laRatio m l.hot T current wq + l.area * laRatio m l.cold T current cq, cq, wq + cq)

/-- The bisection (146-175) with a bound on the number of turns; `none` is an exception or the bound. -/
noncomputable def bisect (m : Material) (l : Lead) (current : ℝ) : ℕ → ℝ → Bool → ℝ → Option (ℝ × ℝ)
  | 0, _, _, _ => none
  | fuel + 1, T, over, diff =>
    (guess m l current T).bind fun r =>
      if |(r.1 - l.length) / l.length| > 0.01 then
        if r.1 > l.length then
          if over = false then bisect m l current fuel (2 * T) over (0.5 * T)
          else bisect m l current fuel (T + diff) over (0.5 * diff)
        else bisect m l current fuel (T - diff) true (0.5 * diff)
      else some r.2

/-- `calc_current` (91-177): heat into the cold end and electrical power. -/
noncomputable def calcCurrent (m : Material) (l : Lead) (fuel : ℕ) (current : ℝ) : Option (ℝ × ℝ) :=
  if current ≤ l.optimum then
    some (l.unpowered + current / l.optimum * (l.minimum - l.unpowered), l.minimum / l.optimum ^ 2 * current ^ 2)
  else bisect m l current fuel (2 * l.hot) false l.hot

/-! ### Rotor, supplies and networks -/

/-- `Motor_HTS_Rotor.power` (Motor_HTS_Rotor.py:68-126): coil power, coil voltage, cryogenic load. -/
noncomputable def rotor (R area rvalue cryo current skin : ℝ) : ℝ × ℝ × ℝ :=
  (R * current ^ 2, current * R, R * current ^ 2 + (skin - cryo) / (rvalue / area))

/-- What the network knows of its components at one control point. -/
structure Parts where
  shaft : ℝ
  motorEff : ℝ
  escEff : ℝ
  rotorPower : ℝ
  rotorCryo : ℝ
  leadPower : ℝ
  leadCryo : ℝ
  leads : ℝ
  ccsEff : ℝ

/-- Sum of the power users of `Turboelectric_HTS_Ducted_Fan.evaluate_thrust` (122-191) with the power of the cryocooler. -/
noncomputable def Parts.power (c : Parts) (n cooler : ℝ) : ℝ :=
  let motor := c.shaft / c.motorEff
  let esc := motor / c.escEff - motor
  let rotorIn := c.rotorPower * n
  let lead := c.leadPower * c.leads
  let ccs := (lead + rotorIn) / c.ccsEff - (lead + rotorIn)
  motor + esc + rotorIn + n * lead + n * ccs + cooler

/-- Heat to be removed from the rotors (164-171). -/
noncomputable def Parts.load (c : Parts) (n : ℝ) : ℝ := c.rotorCryo * n + n * (c.leadCryo * c.leads)

/-- Power that the sizing asks for all engines (serial_HTS_turboelectric_sizing.py:225-272) with `shaft` the power of one engine. -/
noncomputable def sizedPower (shaft motorEff gearEff escEff rotorPower leadPower ccsEff cooler n : ℝ) : ℝ :=
  let motor := shaft / (motorEff * gearEff)
  (motor / escEff + ((2 * leadPower + rotorPower) / ccsEff + cooler)) * n

/-- Mass rates (197-204): vehicle, additional fuel, fuel. -/
noncomputable def massRates (fuel cryogen isFuel : ℝ) : ℝ × ℝ × ℝ := (fuel + cryogen * (1 - isFuel), cryogen, fuel)

/-- `efficiency_curve` (dynamo_efficiency.py:19-49). -/
noncomputable def curve (eff rated current : ℝ) : ℝ :=
  if rated * 1.8 < current ∨ current < rated * 0.2 then 0
  else -(eff / rated ^ 2) * (current - rated) ^ 2 + eff

/-- `HTS_DC_Dynamo_Basic.shaft_power` (63-108): shaft power and heat; zero power is set to zero after the division. -/
noncomputable def dynamo (eff rated current out : ℝ) : Option (ℝ × ℝ) :=
  if out = 0 then some (0, 0)
  else if curve eff rated current = 0 then none
  else some (out / curve eff rated current, out / curve eff rated current - out)

/-- `HTS_Dynamo_Supply.power_in` (59-104): `own` is the efficiency of the supply, which is not used. -/
noncomputable def dynamoSupply (_own eff rated current out : ℝ) : Option ℝ :=
  if curve eff rated current = 0 then none else some (out / curve eff rated current)

/-- Sum of the power users of `Turboelectric_HTS_Dynamo_Ducted_Fan.evaluate_thrust` (126-199). -/
noncomputable def dynamoPower (shaft motorEff escEff rotorPower own eff rated current n cooler : ℝ) : Option ℝ :=
  (dynamo eff rated current rotorPower).bind fun d =>
    (dynamoSupply own eff rated current d.1).map fun s =>
      let motor := shaft / motorEff
      motor + (motor / escEff - motor) + rotorPower * n + n * d.1 + n * s + cooler

/-- `initialize_from_power` (initialize_from_power.py:39-55): mass of a supply. -/
noncomputable def supplyMass (specific power pressure : ℝ) : ℝ := power / (pressure / 101325) / specific

/-- `zero_fidelity` (zero_fidelity.py:30-35) times the number of supplies (Turboelectric_HTS_Ducted_Fan.py:191-197). -/
noncomputable def supplyFuel (specificEnergy eff n power : ℝ) : ℝ := n * (power / n / (specificEnergy * eff))

end Verif.Energy.Cryo
