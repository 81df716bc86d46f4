import Verif.Num.Interp1
import Verif.Weights.Common

/-!
# Industrial costs

Model of `trunk/SUAVE/Methods/Costs/Correlations/Industrial_Costs`: `estimate_escalation_factor.py`,
`estimate_hourly_rates.py`, `compute_industrial_costs.py` and `distribute_non_recurring_cost.py`.  Real numbers
stand for floats; exceptions are `none`.  Printing is not modelled.
-/

namespace Verif.Costs
open Verif.Num Verif.Weights

/-- The table of estimate_escalation_factor.py:34-35. -/
noncomputable def escTable : List (ℝ × ℝ) :=
  [(1915, 0.066), (1920, 0.116), (1925, 0.104), (1930, 0.101), (1935, 0.083), (1940, 0.093), (1945, 0.113), (1950, 0.153), (1955, 0.158), (1960, 0.182), (1965, 0.194), 
   (1970, 0.235), (1975, 0.315), (1980, 0.518), (1985, 0.651), (1990, 0.795), (1998, 1.000), (2000, 1.048), 
   (2005, 1.189), (2010, 1.328), (2015, 1.451), (2020, 1.516), (2025, 1.581), (2030, 1.647), (2035, 1.712), (2040, 1.777), (2100, 2.5)]

/-- `estimate_escalation_factor` (37). -/
noncomputable def escalation (year : ℝ) : ℝ := npInterp escTable year

/-- Dollars per hour. -/
structure Rates where
  engineering : ℝ
  tooling : ℝ
  manufacturing : ℝ
  quality : ℝ

/-- `estimate_hourly_rates` (38-44). -/
noncomputable def hourlyRates (y : ℝ) : Rates :=
  ⟨2.576 * y - 5058, 2.883 * y - 5666, 2.316 * y - 4552, 2.600 * y - 5112⟩

/-- What `compute_industrial_costs` reads from the vehicle (85-130); weights in kilograms, thrust in newtons. -/
structure Input where
  year : ℝ
  production : ℝ
  /-- `units_to_amortize`; `None` and 0 count as not given. -/
  amortize : Option ℝ
  prototypes : ℝ
  avionics : ℝ
  testFacilities : ℝ
  manufacturingFacilities : ℝ
  years : ℝ
  /-- `aircraft_type`, by default `None`. -/
  kind : Option String
  difficulty : ℝ
  cad : ℝ
  stealth : ℝ
  material : ℝ
  empty : ℝ
  engines : ℝ
  thrust : ℝ
  passengers : ℝ
  mach : ℝ

/-- `.lower()` (90), character by character. -/
def lower (s : String) : String := String.ofList (s.toList.map Char.toLower)

/-- Lines 222-231: for any other word the variable is not defined. -/
def interiorIndex (kind : String) : Option ℝ :=
  if kind = "military" then some 0
  else if kind = "general aviation" then some 500
  else if kind = "regional" then some 1000
  else if kind = "commercial" then some 2000
  else if kind = "business" then some 3000
  else none

/-- The non-recurring costs (173-205). -/
structure NonRecurring where
  engineering : ℝ
  support : ℝ
  flightTest : ℝ
  engines : ℝ
  avionics : ℝ
  toolingDevelopment : ℝ
  toolingProduction : ℝ
  labor : ℝ
  material : ℝ
  quality : ℝ
  testFacilities : ℝ
  manufacturingFacilities : ℝ
  total : ℝ

/-- The recurring costs (248-269). -/
structure Recurring where
  engineering : ℝ
  interior : ℝ
  labor : ℝ
  material : ℝ
  quality : ℝ
  engines : ℝ
  avionics : ℝ
  total : ℝ

/-- `weight` in pounds (111). -/
noncomputable def Input.weight (c : Input) : ℝ := 0.62 * c.empty / lb
/-- `speed` in knots (130). -/
noncomputable def Input.speed (c : Input) : ℝ := c.mach * 321.32
/-- `escalation_factor` (117-118). -/
noncomputable def Input.esc (c : Input) : ℝ := escalation c.year / escalation 1970
/-- `hourly_rates` (121). -/
noncomputable def Input.rates (c : Input) : Rates := hourlyRates c.year
/-- The engineering hours for `n` aircraft (137, 212). -/
noncomputable def Input.engHours (c : Input) (n : ℝ) : ℝ :=
  0.0396 * c.weight ^ (0.791 : ℝ) * c.speed ^ (1.526 : ℝ) * n ^ (0.183 : ℝ) * c.difficulty * c.cad
/-- The labour hours for `n` aircraft (151, 236). -/
noncomputable def Input.laborHours (c : Input) (n : ℝ) : ℝ :=
  28.984 * c.weight ^ (0.74 : ℝ) * c.speed ^ (0.543 : ℝ) * n ^ (0.524 : ℝ) * c.difficulty
/-- The material for `n` aircraft (155, 240). -/
noncomputable def Input.materialCost (c : Input) (n : ℝ) : ℝ :=
  2 * 37.632 * c.material * c.weight ^ (0.689 : ℝ) * c.speed ^ (0.624 : ℝ) * n ^ (0.792 : ℝ) * c.esc
/-- The tooling hours for `n` aircraft (158, 162). -/
noncomputable def Input.toolHours (c : Input) (n : ℝ) : ℝ :=
  4.0127 * c.weight ^ (0.764 : ℝ) * c.speed ^ (0.899 : ℝ) * n ^ (0.178 : ℝ) * (0.33 : ℝ) ^ (0.066 : ℝ) * c.difficulty
/-- `eng_unit_cost` (144). -/
noncomputable def Input.engineUnit (c : Input) : ℝ := 520 * (c.thrust / lbf) ^ (0.8356 : ℝ) * c.esc * 0.235

/-- Lines 137-205. -/
noncomputable def nonRecurring (c : Input) : NonRecurring :=
  let eng := c.engHours c.prototypes * c.rates.engineering
  let dsc := 0.008325 * c.weight ^ (0.873 : ℝ) * c.speed ^ (1.89 : ℝ) * c.prototypes ^ (0.346 : ℝ) * c.difficulty * c.esc
  let ecd := c.engineUnit * c.prototypes * c.engines * 1.10
  let av := c.avionics * c.prototypes
  let mlcd := c.laborHours c.prototypes * c.rates.manufacturing
  let mmed := c.materialCost c.prototypes
  let tcd := c.toolHours c.prototypes * c.rates.tooling
  let tcp := c.toolHours c.production * c.rates.tooling - tcd
  let qccd := 0.130 * c.laborHours c.prototypes * c.rates.quality
  let ftc := 0.001244 * c.weight ^ (1.16 : ℝ) * c.speed ^ (1.371 : ℝ) * c.prototypes ^ (1.281 : ℝ) * c.difficulty
    * (1 + 3 * c.stealth) * c.esc
  ⟨eng, dsc, ftc, ecd, av, tcd, tcp, mlcd, mmed, qccd, c.testFacilities, c.manufacturingFacilities,
    eng + dsc + ftc + ecd + av + tcd + tcp + mlcd + mmed + qccd + c.testFacilities + c.manufacturingFacilities⟩

/-- Lines 212-269, with the interior index. -/
noncomputable def recurring (c : Input) (index : ℝ) : Recurring :=
  let eng := 2 * c.engHours (c.prototypes + c.production) * c.rates.engineering
    - c.engHours c.prototypes * c.rates.engineering
  let ecp := c.engineUnit * c.production * c.engines
  let av := c.avionics * c.production
  let int := index * c.passengers * c.production * c.esc * 0.296
  let mlhp := 1.3 * c.laborHours c.production
  let mlcp := mlhp * c.rates.manufacturing - c.laborHours c.prototypes * c.rates.manufacturing
  let mmep := c.materialCost c.production - c.materialCost c.prototypes
  let qccp := 0.130 * mlhp * c.rates.quality
  ⟨eng, int, mlcp, mmep, qccp, ecp, av, eng + int + mlcp + mmep + qccp + ecp + av⟩

open Classical in
/-- `amortize_units` (93-96). -/
noncomputable def amortizeUnits (c : Input) : ℝ :=
  match c.amortize with
  | some a => if a = 0 then c.production else a
  | none => c.production

/-- What is stored in `vehicle.costs.industrial` (272-282). -/
structure Output where
  unitCost : ℝ
  nonRecurring : NonRecurring
  recurring : Recurring

/-- `compute_industrial_costs` (85-282); `none` for the exceptions raised by a type that is not given or not known
and by a production of zero. -/
noncomputable def industrialCosts (c : Input) : Option Output :=
  match c.kind with
  | none => none
  | some k =>
    match interiorIndex (lower k) with
    | none => none
    | some index =>
      let n := nonRecurring c
      let r := recurring c index
      open Classical in
      if c.production = 0 then none
      else some ⟨r.total / c.production + n.total / amortizeUnits c, n, r⟩

/-! ### Cash flow -/

/-- The tables of distribute_non_recurring_cost.py:68-73, each with the times. -/
noncomputable def tabEngineering : List (ℝ × ℝ) := [(0, 0), (0.025, 0.010436), (0.075, 0.029984), (0.125, 0.048012), (0.175, 0.063051), (0.225, 0.074632), (0.275, 0.082648), (0.325, 0.087182), (0.375, 0.088442), (0.425, 0.086718), (0.475, 0.082367), (0.525, 0.075797), (0.575, 0.067455), (0.625, 0.057826), (0.675, 0.047833), (0.725, 0.037841), (0.775, 0.02747), (0.825, 0.01795), (0.875, 0.009882), (0.925, 0.003884), (0.975, 0.000588), (1, 0)]
/-- `ndim_manuf_engineering` (70). -/
noncomputable def tabManufacturing : List (ℝ × ℝ) := [(0, 0), (0.025, 0.007591), (0.075, 0.027399), (0.125, 0.049416), (0.175, 0.069671), (0.225, 0.086167), (0.275, 0.097835), (0.325, 0.104193), (0.375, 0.105194), (0.425, 0.101133), (0.475, 0.092586), (0.525, 0.080375), (0.575, 0.065537), (0.625, 0.049302), (0.675, 0.034542), (0.725, 0.019781), (0.775, 0.008029), (0.825, 0.001249), (0.875, 0), (0.925, 0), (0.975, 0), (1, 0)]
/-- `ndim_tooling_design` (71). -/
noncomputable def tabToolDesign : List (ℝ × ℝ) := [(0, 0), (0.025, 0), (0.075, 0), (0.125, 0), (0.175, 0), (0.225, 0.001431), (0.275, 0.024631), (0.325, 0.080421), (0.375, 0.147639), (0.425, 0.198853), (0.475, 0.212278), (0.525, 0.178952), (0.575, 0.108137), (0.625, 0.031772), (0.675, 0.015886), (0.725, 0), (0.775, 0), (0.825, 0), (0.875, 0), (0.925, 0), (0.975, 0), (1, 0)]
/-- `ndim_tooling_production` (72). -/
noncomputable def tabToolProduction : List (ℝ × ℝ) := [(0, 0), (0.025, 0), (0.075, 0), (0.125, 0), (0.175, 0), (0.225, 0), (0.275, 0.003078), (0.325, 0.034057), (0.375, 0.087407), (0.425, 0.139896), (0.475, 0.175125), (0.525, 0.183825), (0.575, 0.163857), (0.625, 0.120213), (0.675, 0.070714), (0.725, 0.021215), (0.775, 0.000614), (0.825, 0), (0.875, 0), (0.925, 0), (0.975, 0), (1, 0)]
/-- `ndim_support` (73). -/
noncomputable def tabSupport : List (ℝ × ℝ) := [(0, 0), (0.025, 0.020808), (0.075, 0.034207), (0.125, 0.042527), (0.175, 0.048625), (0.225, 0.053283), (0.275, 0.05686), (0.325, 0.059553), (0.375, 0.061479), (0.425, 0.062708), (0.475, 0.063282), (0.525, 0.063219), (0.575, 0.062516), (0.625, 0.061151), (0.675, 0.058848), (0.725, 0.056544), (0.775, 0.05287), (0.825, 0.048088), (0.875, 0.041815), (0.925, 0.033189), (0.975, 0.018429), (1, 0)]

open Classical in
/-- `sum(ndim[ndim_time<=t_ref])`. -/
noncomputable def spent (tab : List (ℝ × ℝ)) (t : ℝ) : ℝ := ((tab.filter fun p => p.1 ≤ t).map Prod.snd).sum

/-- The loop over the years (83-89): `done` holds the values of the years before, the others being still zero. -/
noncomputable def yearLoop (tab : List (ℝ × ℝ)) (n : ℕ) : ℕ → List ℝ → List ℝ
  | 0, done => done
  | k + 1, done => yearLoop tab n k (done ++ [spent tab (1 / n * ((done.length : ℝ) + 1)) - done.sum])

/-- The share of each of the `n` years. -/
noncomputable def shares (tab : List (ℝ × ℝ)) (n : ℕ) : List ℝ := yearLoop tab n n []

/-- The cash flow by kind and year (92-109). -/
structure CashFlow where
  engineering : List ℝ
  manufacturing : List ℝ
  toolDesign : List ℝ
  toolProduction : List ℝ
  support : List ℝ
  facilities : List ℝ
  total : List ℝ

/-- Sum of arrays of the same length. -/
noncomputable def addLists (a b : List ℝ) : List ℝ := List.zipWith (· + ·) a b

open Classical in
/-- `development_duration`: five years when none are given (compute_industrial_costs.py:285-286), truncated
(distribute_non_recurring_cost.py:65). -/
noncomputable def duration (years : ℝ) : ℕ := ⌊if years = 0 then 5 else years⌋₊

/-- `distribute_non_recurring_cost` (58-109). -/
noncomputable def cashFlow (n : NonRecurring) (years : ℝ) : CashFlow :=
  let d := duration years
  let eng := (shares tabEngineering d).map (· * (n.engineering + n.flightTest + n.engines + n.avionics))
  let man := (shares tabManufacturing d).map (· * (n.labor + n.material))
  let td := (shares tabToolDesign d).map (· * (n.toolingDevelopment * 1))
  let tp := (shares tabToolProduction d).map (· * (n.toolingProduction * 1))
  let sup := (shares tabSupport d).map (· * (n.support + n.quality))
  let fac := td.map ((n.testFacilities + n.manufacturingFacilities) * ·)
  ⟨eng, man, td, tp, sup, fac, addLists (addLists (addLists (addLists (addLists eng man) td) tp) sup) fac⟩

end Verif.Costs
