import Verif.Weights.Transport
import Mathlib.Analysis.SpecialFunctions.Pow.Real
import Mathlib.Analysis.SpecialFunctions.Trigonometric.Inverse
import Mathlib.Algebra.Order.Floor.Ring

/-!
The default correlations for transports, `Methods/Weights/Correlations/Common`, `Transport` and `Propulsion`.
Real numbers stand for floats; division by zero is `none` where the code can meet it.
-/

namespace Verif.Weights
open Real

/-- `Units.lb` in kilograms (Plugins/pint/default_en.txt:175). -/
noncomputable def lb : ℝ := 0.45359237
/-- `Units.ft` in metres (Plugins/pint/default_en.txt:149-150). -/
noncomputable def ft : ℝ := 0.3048
/-- `Units.force_pound` in newtons (Plugins/pint/default_en.txt:127). -/
noncomputable def lbf : ℝ := 9.80665 * lb
/-- `Units.horsepower` in watts (Plugins/pint/default_en.txt:200). -/
noncomputable def hp : ℝ := 33000 * ft * lbf / 60

/-! ### Landing gear, payload, operating items, systems -/

/-- `landing_gear` (Common/landing_gear.py:37-41): main and nose. -/
noncomputable def landingGear (mtow : ℝ) (factor : ℝ := 0.04) : ℝ × ℝ :=
  let w := factor * mtow
  (w * 0.9, w * 0.1)

/-- `payload` (Common/payload.py:51-63). -/
noncomputable def payload (n cargo : ℝ) (wp : ℝ := 195 * lb) (wb : ℝ := 30 * lb) : Payload :=
  let p := wp * n
  let b := wb * n
  ⟨p, b, cargo, p + b + cargo⟩

/-- `operitems_wt` (Transport/operating_items.py:50-65). -/
noncomputable def operItems (ac : String) (n : ℝ) : ℝ :=
  if ac = "short-range" then 17 * n * lb
  else if ac = "medium-range" then 28 * n * lb
  else if ac = "long-range" then 28 * n * lb
  else if ac = "business" then 28 * n * lb
  else if ac = "cargo" then 56 * lb
  else if ac = "commuter" then 17 * n * lb
  else if ac = "sst" then 40 * n * lb
  else 28 * n * lb

open Classical in
/-- `flight_crew` (Transport/operating_items.py:67-70). -/
noncomputable def flightCrew (n : ℝ) : ℝ := if n ≥ 150 then 3 else 2

open Classical in
/-- `flight_attendants` (Transport/operating_items.py:72-75; the same in FLOPS/operating_items.py:95-98). -/
noncomputable def attendants (n : ℝ) : ℝ := if n < 51 then 1 else 1 + (⌊n / 40⌋ : ℤ)

/-- `operating_items` (Transport/operating_items.py:48-86). -/
noncomputable def operatingItems (ac : String) (n : ℝ) : Oper :=
  let l := operItems ac n
  let a := attendants n * (170 + 40) * lb
  let c := flightCrew n * (190 + 50) * lb
  ⟨l, c, a, l + c + a⟩

/-- Kinds of wings as far as `systems` distinguishes them, with their areas. -/
inductive WKind where
  | main | tail | other
  deriving DecidableEq

open Classical in
/-- `s_tail` (Common/systems.py:62-69). -/
noncomputable def tailArea (ws : List (WKind × ℝ)) : ℝ :=
  let s := ((ws.filter fun w => w.1 == .tail).map (·.2)).sum
  if s = 0 then ((ws.filter fun w => w.1 == .main).map fun w => w.2 * 0.01).sum else s

/-- `flt_ctrl_scaler` (Common/systems.py:74-79). -/
noncomputable def ctrlScaler (c : String) : ℝ :=
  if c = "fully powered" then 3.5 else if c = "partially powered" then 2.5 else 1.7

open Classical in
/-- `apu_wt` (Common/systems.py:83-87): the floor of 70 is in kilograms. -/
noncomputable def apuWeight (n : ℝ) : ℝ := max (if n ≥ 6 then 7 * n * lb else 0 * lb) 70

/-- `furnish_wt` before the aircraft type (Common/systems.py:95). -/
noncomputable def furnishBase (n : ℝ) : ℝ := ((43.7 - 0.037 * min n 300) * n + 46 * n) * lb

/-- Instruments, avionics, furnishing and electrical by aircraft type (Common/systems.py:102-128). -/
noncomputable def byType (ac : String) (n : ℝ) : ℝ × ℝ × ℝ × ℝ :=
  let f := furnishBase n
  let e := 13 * n * lb
  if ac = "short-range" then (800 * lb, 900 * lb, f, e)
  else if ac = "medium-range" then (800 * lb, 900 * lb, f, e)
  else if ac = "long-range" then (1200 * lb, 1500 * lb, f + 23 * n * lb, e)
  else if ac = "business" then (100 * lb, 300 * lb, f, e)
  else if ac = "cargo" then (800 * lb, 900 * lb, f, 1950 * lb)
  else if ac = "commuter" then (300 * lb, 500 * lb, f, e)
  else if ac = "sst" then (1200 * lb, 1500 * lb, f + 23 * n * lb, e)
  else (800 * lb, 900 * lb, f, e)

/-- `systems` (Common/systems.py:57-146): the items and `wt_systems`. -/
noncomputable def systems (ac ctrl : String) (n S : ℝ) (ws : List (WKind × ℝ)) : Sys × ℝ :=
  let t := byType ac n
  let s : Sys := ⟨ctrlScaler ctrl * (tailArea ws / ft ^ 2) * lb, apuWeight n, t.2.2.2, t.2.1, 0.65 * (S / ft ^ 2) * lb,
    t.2.2.1, 15 * n * lb, 0, t.1⟩
  (s, s.control + s.apu + s.hyd + s.ac + s.avionics + s.elec + s.furnish + s.instruments)

/-! ### Fuselage -/

open Classical in
/-- `I_f` (Transport/tube.py:64-67). -/
noncomputable def tubeIndex (Ip Ib : ℝ) : ℝ := if Ip > Ib then Ip else (Ip ^ 2 + Ib ^ 2) / (2 * Ib)

/-- `tube` (Transport/tube.py:48-72): pressure difference, width, height, length, root chord of the main wing, limit load,
zero-fuel weight, weights of wing and propulsion, wetted area.  `I_b = 0 = I_p` divides by zero in the code. -/
noncomputable def tube (dp width height length rootChord nlim zf wwing wprop area : ℝ) : ℝ :=
  let dp := dp / (lbf / ft ^ 2)
  let Ip := 1.5 * 10 ^ (-3 : ℤ) * dp * (width / ft)
  let l := (length - rootChord / 2) / ft
  let w := (zf - wwing - wprop) / lb
  let Ib := 1.91 * 10 ^ (-4 : ℤ) * nlim * w * l / (height / ft) ^ 2
  (1.051 + 0.102 * tubeIndex Ip Ib) * (area / ft ^ 2) * lb

/-! ### Wing -/

/-- `wing_main` with `computation_type='simple'` (Common/wing_main.py:117-127). -/
noncomputable def wingSimple (S b taper tc sweep nult tow zf : ℝ) : ℝ :=
  let area := S / ft ^ 2
  let span := b / ft
  (4.22 * area + 1.642 * 10 ^ (-6 : ℤ) * nult * span ^ 3 * (tow / lb * (zf / lb)) ^ (0.5 : ℝ) * (1 + 2 * taper)
    / (tc * cos sweep ^ 2 * area * (1 + taper))) * lb

/-- The bending term of a panel of constant chord and thickness between the stations `Y1` and `Y2`
(Common/wing_main.py:89-92). -/
noncomputable def panelConst (G C SW Y1 Y2 : ℝ) : ℝ :=
  1 / (G * C * cos SW ^ 2) * 1 / 3 * (1 / 8 * (-Y1 * (5 - 2 * Y1 ^ 2) * √(1 - Y1 ^ 2) - 3 * arcsin Y1)
    + 1 / 8 * (Y2 * (5 - 2 * Y2 ^ 2) * √(1 - Y2 ^ 2) + 3 * arcsin Y2))

/-- A segment of a wing of constant chord and thickness: span station and sweep. -/
structure Station where
  y : ℝ
  sweep : ℝ

/-- `run_sum` of a wing whose segments all have the same chord and thickness (Common/wing_main.py:74-109). -/
noncomputable def runSum (G C : ℝ) : List Station → ℝ
  | a :: b :: l => panelConst G C a.sweep a.y b.y + runSum G C (b :: l)
  | _ => 0

/-- `wing_main` with `computation_type='segmented'` for such a wing (Common/wing_main.py:55-69, 111-113, 127). -/
noncomputable def wingSegmented (rho sigma S Sref b nult tow zf G C : ℝ) (l : List Station) : ℝ :=
  let rs := rho * 9.81 / sigma
  let ltot := nult * √(tow * zf) * 9.81
  let L0 := S / Sref * 2 * ltot / (b * π)
  let wf := rs * b ^ 2 * L0 * runSum G C l / 2
  (4.22 * S / ft ^ 2 + wf / lb) * lb

/-! ### Tails -/

/-- The values the T-tail flag of a wing takes: a truth value (the default, Components/Wings/Wing.py:72) or a string. -/
inductive Flag where
  | bool (b : Bool)
  | str (s : String)

/-- `flag == "yes"`. -/
def Flag.isYes : Flag → Bool
  | .bool _ => false
  | .str s => s == "yes"

/-- `if flag:`. -/
def Flag.truthy : Flag → Bool
  | .bool b => b
  | .str s => s != ""

open Classical in
/-- `tail_horizontal` (Transport/tail_horizontal.py:49-72): `none` for the tail arm and the mean chord is nan, which the code
replaces by zero; the result is `none` where it divides by zero. -/
noncomputable def tailHorizontal (S b tc sweep nult tow expo wet : ℝ) (arm mac : Option ℝ) : Option ℝ :=
  let area := S / ft ^ 2
  let span := b / ft
  let lw := (mac.map (· / ft)).getD 0
  let lwh := arm.getD 0 / ft
  let den := tc * cos sweep ^ 2 * lwh * area ^ (1.5 : ℝ)
  if den = 0 then none
  else some ((5.25 * area + 0.8 * 10 ^ (-6 : ℤ) * nult * span ^ 3 * (tow / lb) * lw * √(expo / wet * area) / den) * lb)

/-- `tail_vertical` (Transport/tail_vertical.py:51-71). -/
noncomputable def tailVertical (S b tc sweep nult tow Sref : ℝ) (ttail : Flag) (rudder : ℝ := 0.25) : ℝ :=
  let area := S / ft ^ 2
  let f := if ttail.isYes then 1.25 else 1
  let w := f * (2.62 * area + 1.5 * 10 ^ (-5 : ℤ) * nult * (b / ft) ^ 3 * (8 + 0.44 * (tow / lb) / (Sref / ft ^ 2))
    / (tc * cos sweep ^ 2)) * lb
  w + w * rudder * 1.6

/-! ### Engines and motors -/

/-- `engine_jet` (Propulsion/engine_jet.py:39-44). -/
noncomputable def engineJet (thrust : ℝ) : ℝ := 0.4054 * (thrust / lbf) ^ (0.9255 : ℝ) * lb

/-- `integrated_propulsion` (Propulsion/integrated_propulsion.py:37-39). -/
noncomputable def integrated (engine n : ℝ) (factor : ℝ := 1.6) : ℝ := engine * n * factor

/-- `engine_piston` (Propulsion/engine_piston.py:36-39). -/
noncomputable def enginePiston (power : ℝ) (kwt2 : ℝ := 5.22) (xwt : ℝ := 0.78) : ℝ := kwt2 * (power / hp) ^ xwt * lb

/-- `integrated_propulsion_general_aviation` (Propulsion/integrated_propulsion_general_aviation.py:34-38). -/
noncomputable def integratedGA (piston n : ℝ) (factor : ℝ := 2.575) (ex : ℝ := 0.922) : ℝ :=
  factor * (piston / lb) ^ ex * n * lb

/-- `air_cooled_motor` (Propulsion/air_cooled_motor.py:44). -/
noncomputable def airCooledMotor (power : ℝ) (kwt2 : ℝ := 1.96) (xwt : ℝ := 0.8897) : ℝ :=
  kwt2 * (power / 1000) ^ xwt * lb

/-- `hts_motor` (Propulsion/hts_motor.py:40). -/
noncomputable def htsMotor (power : ℝ) : ℝ := 2.28 * (power / 1000) ^ (0.6616 : ℝ) * lb

/-- `nasa_motor` (Propulsion/nasa_motor.py:41-44). -/
noncomputable def nasaMotor (torque : ℝ) (kwt2 : ℝ := 0.3928) (xwt : ℝ := 0.8587) : ℝ :=
  kwt2 * (torque / (ft * lbf)) ^ xwt * lb

end Verif.Weights
