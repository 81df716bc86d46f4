import Verif.Energy.BatteryProps
import Verif.Num.Interp1
import Mathlib.Algebra.Order.Archimedean.Real.Basic
/-
Model of the lithium nickel manganese cobalt oxide cell:
`compute_NMC_cell_state_variables`
(trunk/SUAVE/Methods/Power/Battery/Cell_Cycle_Models/LiNiMnCoO2_cell_cycle_model.py),
`energy_calc`, `compute_voltage`, `create_response_surface` and `process_raw_data` of
trunk/SUAVE/Components/Energy/Storages/Batteries/Constant_Mass/Lithium_Ion_LiNiMnCoO2_18650.py, and the
capacity handed to a battery by trunk/SUAVE/Methods/Missions/Segments/Common/Energy.py.

Simplifications
* Exact real arithmetic; a temperature that is not a number is `none`.
* The measured curves are an arbitrary list of pairs of discharged charge and voltage for each of the five
  currents and six temperatures; `np.interp` is `Verif.Num.npInterp`.
* `scipy.interpolate.RegularGridInterpolator` is linear in each axis in turn, which is its tensor product.
-/

namespace Verif.Energy.Nmc

open Verif.Num Verif.Energy

variable {n : Nat}

/-- `x[x<lo] = lo; x[x>hi] = hi`. -/
noncomputable def limit (lo hi x : ℝ) : ℝ :=
  let y := if x < lo then lo else x
  if y > hi then hi else y

/-- Line 44 of the cell cycle model: `T[np.isnan(T)] = 302.65`, then 45-46. -/
noncomputable def limitT (T : Option ℝ) : ℝ := limit 272.65 322.65 (T.getD 302.65)

/-- One axis of the interpolator: nodes `x0 + k h` for `k ≤ m`.  The interval is the one `searchsorted`
finds, limited to the table; outside the table the line of the last interval goes on. -/
noncomputable def axis (x0 h : ℝ) (m : ℕ) (f : ℕ → ℝ) (x : ℝ) : ℝ :=
  let k := min (⌈(x - x0) / h⌉₊ - 1) (m - 1)
  let w := (x - (x0 + k * h)) / h
  f k * (1 - w) + f (k + 1) * w

/-- The largest abscissa of a curve (559), for charges that are not negative. -/
noncomputable def maxX (c : List (ℝ × ℝ)) : ℝ := (c.map Prod.fst).foldr max 0

/-- `process_raw_data` (556-565), the voltage of one of fifteen equally spaced points of a curve. -/
noncomputable def processed (c : List (ℝ × ℝ)) (j : ℕ) : ℝ := npInterp c (j / 14 * maxX c)

/-- `battery_map.Voltage` (519-525): currents 0 to 8 A in steps of two, temperatures 0 to 50 degrees in
steps of ten, depths of discharge in fourteen steps. -/
noncomputable def surface (raw : ℕ → ℕ → List (ℝ × ℝ)) (i T dod : ℝ) : ℝ :=
  axis 0 2 4 (fun a => axis 272.65 10 5 (fun b => axis 0 (1 / 14) 14 (fun c => processed (raw a b) c) dod) T) i

/-- What `compute_NMC_cell_state_variables` is given, and what is left of it after the call. -/
structure Args where
  soc : ℝ
  T : Option ℝ
  i : ℝ

/-- Lines 39-49: the limits are written into the arrays given. -/
noncomputable def limited (a : Args) : Args := ⟨limit 0 1 a.soc, some (limitT a.T), limit 0 8 a.i⟩

/-- `compute_NMC_cell_state_variables` (39-53): the voltage and the arguments afterwards. -/
noncomputable def stateVariables (raw : ℕ → ℕ → List (ℝ × ℝ)) (a : Args) : ℝ × Args :=
  (surface raw (limit 0 8 a.i) (limitT a.T) (1 - limit 0 1 a.soc), limited a)

/-- The conditions of a mission `compute_voltage` reads. -/
structure Cond where
  soc : ℝ
  T : Option ℝ
  current : ℝ

/-- `compute_voltage` (418-437): state of charge and temperature are the arrays of the conditions
themselves, the current is a new array (a quotient). -/
noncomputable def computeVoltage (raw : ℕ → ℕ → List (ℝ × ℝ)) (nSeries nParallel : ℝ) (c : Cond) : ℝ × Cond :=
  let r := stateVariables raw ⟨c.soc, c.T, c.current / nParallel⟩
  (nSeries * r.1, ⟨r.2.soc, r.2.T, c.current⟩)

/-- Line 201: entropy of the cell. -/
noncomputable def deltaS (s : ℝ) : ℝ :=
  -496.66 * s ^ 6 + 1729.4 * s ^ 5 + -2278 * s ^ 4 + 1382.2 * s ^ 3 + -380.47 * s ^ 2 + 46.508 * s + -10.692

/-- Line 205 per area, for the temperature and current density. -/
noncomputable def qEntropy (s T i : ℝ) : ℝ := -T * deltaS s * i / (1 * 96485)

/-- Line 206. -/
noncomputable def qJoule (i : ℝ) : ℝ := i ^ 2 / 139

/-- Lines 208-209; `none` for a quotient by zero. -/
noncomputable def fractions (s T i : ℝ) : Option (ℝ × ℝ) :=
  let q := qJoule i + qEntropy s T i
  if q = 0 then none else some (qJoule i / q, qEntropy s T i / q)

/-- Line 222. -/
noncomputable def r0 (s : ℝ) : ℝ := 0.01483 * s ^ 2 - 0.02518 * s + 0.1036

/-- The battery and what is asked of it; the two ageing factors are given by the network
(Battery_Propeller.py:132-133). -/
structure CellIn (n : Nat) where
  current : Col n
  power : Col n
  area : ℝ
  surfaceArea : ℝ
  temp : Col n
  emax : ℝ
  energy : Col n
  nSeries : ℝ
  nParallel : ℝ
  nTotal : ℝ
  rGrowth : ℝ
  eGrowth : ℝ
  discharge : Bool

/-- The outputs (270-287). -/
structure CellOut (n : Nat) where
  energy : Col n
  losses : Col n
  load : Col n
  current : Col n
  voc : Col n
  cellCurrent : Col n
  resistance : Col n
  soc : Col n
  dod : Col n
  vul : Col n

/-- `energy_calc` (149-289) without heat transfer to the surroundings and the charge throughput. -/
noncomputable def energyCalcN (raw : ℕ → ℕ → List (ℝ × ℝ)) (I D : Mat n) (b : CellIn n) : CellOut n :=
  let cell : Col n := fun k => if b.discharge then b.current k / b.nParallel else -b.current k / b.nParallel
  let soc0 : Col n := fun k => limit 0 1 ((I.mulVec b.power k + b.energy 0) / b.emax)
  let T : Col n := fun k => limit 272.65 322.65 (b.temp k)
  let Q : Col n := fun k => (qJoule (cell k / b.area) + qEntropy (soc0 k) (T k) (cell k / b.area)) * b.surfaceArea
  let loss : Col n := fun k => b.nTotal * Q k
  let P : Col n := fun k => b.power k - |loss k|
  let v : Fin (n + 2) → ℝ × Args := fun k => stateVariables raw ⟨soc0 k, some (T k), cell k⟩
  let cell' : Col n := fun k => (v k).2.i
  let R : Col n := fun k => r0 ((v k).2.soc)
  let voc : Col n := fun k => (v k).1 + cell' k * R k
  let E : Col n := fun k => addEnergy I D P (b.emax - b.energy 0) k + b.energy 0
  let soc : Col n := fun k => limit 0 1 (E k / b.emax)
  let vul : Col n := fun k => if soc k < 0 then 0 else (v k).1
  { energy := E
    losses := loss
    load := fun k => vul k * b.nSeries * b.current k
    current := b.current
    voc := fun k => voc k * b.nSeries
    cellCurrent := cell'
    resistance := fun k => R k * b.nSeries
    soc := soc
    dod := fun k => 1 - soc k
    vul := fun k => vul k * b.nSeries }

/-! ### Capacity of an aged battery -/

/-- What is handed from one segment to the next (Energy.py:40-57): energy of the new battery, aged
energy and fade factor. -/
structure Aged where
  initial : ℝ
  maxAged : ℝ
  fade : ℝ

/-- `initialize_battery` (42-57). -/
noncomputable def nextAged (a : Aged) (discharge : Bool) : Aged :=
  ⟨a.initial, if discharge then a.maxAged else a.initial * a.fade, a.fade⟩

/-- The capacity `E_max` the two cells count with, from `battery.max_energy` and
`battery.E_growth_factor` (Battery_Propeller.py:133-134): Lithium_Ion.py multiplies by the factor again,
the NMC cell does not read it. -/
noncomputable def genericCapacity (a : Aged) : ℝ := a.maxAged * a.fade
noncomputable def nmcCapacity (a : Aged) : ℝ := a.maxAged

end Verif.Energy.Nmc
