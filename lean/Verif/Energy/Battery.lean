import Verif.Num.SpectralProps
import Mathlib.Analysis.SpecialFunctions.Pow.Real
/-
Model of the battery models
(trunk/SUAVE/Components/Energy/Storages/Batteries/Constant_Mass/Lithium_Ion.py,
Lithium_Ion_LiNiMnCoO2_18650.py and Methods/Power/Battery/compute_net_generated_battery_heat.py).

Simplifications
* Exact real arithmetic, so the NaN branch (Lithium_Ion.py:201-204) is never taken.
* Columns have one entry per control point; `I` and `D` are `numerics.time.integrate` and
  `numerics.time.differentiate`.
* The cell voltage map of the NMC cell (interpolated experimental data) and its entropy heat are
  parameters; the generic cell is modelled completely.
-/

namespace Verif.Energy

abbrev Col (n : Nat) := Fin (n + 2) → ℝ
abbrev Mat (n : Nat) := Matrix (Fin (n + 2)) (Fin (n + 2)) ℝ

variable {n : Nat}

/-- `x[x>1] = 1.; x[x<0] = 0.` (Lithium_Ion.py:164-165, 209-210). -/
noncomputable def clip01 (x : ℝ) : ℝ :=
  let y := if x > 1 then 1 else x
  if y < 0 then 0 else y

/-- Lines 182-198, the same in both cells (NMC 231-247): the energy added at each control point,
given the power and the capacity still available. -/
noncomputable def addEnergy (I D : Mat n) (P : Col n) (avail : ℝ) : Col n :=
  let raw := I.mulVec P
  let delta : Col n := fun i => if raw i - avail < 0 then 0 else raw i - avail
  let dd := D.mulVec delta
  I.mulVec fun i => if P i > 0 then P i - dd i else P i

/-- `scipy.integrate.cumtrapz(y, x)` with the leading value put in front (214): partial sums of the
trapezoidal rule, in ampere hours. -/
noncomputable def throughput (q0 : ℝ) (t c : Nat → ℝ) : Nat → ℝ
  | 0 => q0
  | k + 1 => throughput q0 t c k + (t (k + 1) - t k) * (c (k + 1) + c k) / 2 / 3600

/-- The inputs of `energy_calc`. -/
structure BatIn (n : Nat) where
  current : Col n
  power : Col n
  vmax : ℝ
  mass : ℝ
  cp : ℝ
  temp : Col n
  emax : ℝ
  energy : Col n
  q0 : ℝ
  rGrowth : ℝ
  eGrowth : ℝ
  discharge : Bool

/-- The outputs (229-247). -/
structure BatOut (n : Nat) where
  energy : Col n
  losses : Col n
  temp : Col n
  load : Col n
  soc : Col n
  dod : Col n
  voc : Col n
  vul : Col n
  current : Col n
  resistance : Col n

/-- Line 168. -/
noncomputable def cellR (s : ℝ) : ℝ := -0.0169 * s ^ 4 + 0.0418 * s ^ 3 - 0.0273 * s ^ 2 + 0.0069 * s + 0.0043

/-- Line 218. -/
noncomputable def vNorm (s : ℝ) : ℝ :=
  (-1.031 * Real.exp (-35 * s) + 3.685 + 0.2156 * s - 0.1178 * s ^ 2 + 0.3201 * s ^ 3) / 4.1

/-- `Lithium_Ion.energy_calc` (136-247) without the charge throughput. -/
noncomputable def energyCalc (I D : Mat n) (b : BatIn n) : BatOut n :=
  let cur : Col n := if b.discharge then b.current else fun i => -b.current i
  let emax := b.emax * b.eGrowth
  let soc0 : Col n := fun i => clip01 ((I.mulVec b.power i + b.energy 0) / emax)
  let R : Col n := fun i => let r := cellR (soc0 i) * b.rGrowth; if r < 0 then 0 else r
  let Q : Col n := fun i => cur i ^ 2 * R i
  let P : Col n := fun i => b.power i - |Q i|
  let dT : Col n := fun i => Q i / (b.mass * b.cp)
  let E : Col n := fun i => addEnergy I D P (emax - b.energy 0) i + b.energy 0
  let soc : Col n := fun i => clip01 (E i / emax)
  let voc : Col n := fun i => let v := vNorm (soc i) * b.vmax; if v > b.vmax then b.vmax else v
  let vul : Col n := fun i => if b.discharge then voc i - cur i * R i else voc i + cur i * R i
  { energy := E
    losses := Q
    temp := fun i => b.temp 0 + I.mulVec dT i
    load := fun i => vul i * cur i
    soc := soc
    dod := fun i => 1 - soc i
    voc := voc
    vul := vul
    current := cur
    resistance := R }

/-- The charge throughput of the generic cell (214): of the magnitude of the current. -/
noncomputable def genericThroughput (q0 : ℝ) (t cur : Nat → ℝ) : Nat → ℝ := throughput q0 t fun k => |cur k|

/-- The current of one NMC cell as it stands when the throughput is added up: signed (175-178), then limited in
place to the range of the voltage map by `compute_NMC_cell_state_variables`
(Methods/Power/Battery/Cell_Cycle_Models/LiNiMnCoO2_cell_cycle_model.py:48-49), which writes into the array
it is given (called in line 219). -/
noncomputable def nmcCurrent (cur nParallel : ℝ) (discharge : Bool) : ℝ :=
  let c := if discharge then cur / nParallel else -cur / nParallel
  let c := if c < 0 then 0 else c
  if c > 8 then 8 else c

/-- Line 264 of the NMC cell. -/
noncomputable def nmcThroughput (q0 : ℝ) (t cur : Nat → ℝ) (nParallel : ℝ) (discharge : Bool) : Nat → ℝ :=
  throughput q0 t fun k => nmcCurrent (cur k) nParallel discharge

/-- Lines 480-484 of the NMC cell: ageing, given the new candidate factors. -/
noncomputable def health (eFade rGrowth : ℝ) (old : ℝ × ℝ) : ℝ × ℝ := (min eFade old.1, max rGrowth old.2)

/-- compute_net_generated_battery_heat.py:104-106: cell temperature, not below ambient. -/
noncomputable def cellTemp (I : Mat n) (pnet : Col n) (mass cp T0 : ℝ) (amb : Col n) : Col n := fun i =>
  let T := T0 + I.mulVec (fun j => pnet j / (mass * cp)) i
  if amb i > T then amb i else T

/-- Lines 87-92: coefficients of the Nusselt correlation.  `all(Re_max)` is a truth value, and a
truth value is never above 1000. -/
noncomputable def nusselt (re : Col n) (st sl : ℝ) : ℝ × ℝ :=
  let allRe : ℝ := if ∀ i, re i ≠ 0 then 1 else 0
  if allRe > 1000 then (0.35 * (st / sl) ^ (0.2 : ℝ), 0.6) else (0.51, 0.5)

end Verif.Energy
