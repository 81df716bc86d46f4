import Verif.Num.Interp1
import Mathlib.Analysis.Real.Sqrt
import Mathlib.Analysis.SpecialFunctions.Pow.Real

/-!
# Field performance and speeds

Model of `trunk/SUAVE/Methods/Performance`: `estimate_stall_speed.py`, `estimate_landing_field_length.py`,
`estimate_take_off_field_length.py` with `windmilling_drag.py` and `asymmetry_drag.py` (in
`Methods/Aerodynamics/Common/Fidelity_Zero/Helper_Functions`), `find_take_off_weight_given_tofl.py`,
`electric_payload_range.py`, `electric_V_h_diagram.py` and `maximum_lift_to_drag.py`.  The atmosphere at the
airport is a density, the maximum lift coefficient a number (computed at 90 knots whatever the weight), the
thrust a function of speed.  Exceptions are `none`; printing and plots are not modelled.  Real numbers stand
for floats and one-element arrays.
-/

namespace Verif.Performance
open Real Verif.Num

/-- `(2 * weight * g / (rho * S * CLmax)) ** 0.5`: estimate_landing_field_length.py:95,
estimate_take_off_field_length.py:108, estimate_stall_speed.py:40 (there with `g = 9.81`),
maximum_lift_to_drag.py:131-133, propeller_range_endurance_speeds.py:161-163. -/
noncomputable def stallV (m g ρ S CL : ℝ) : ℝ := √(2 * m * g / (ρ * S * CL))

/-- `for idx,constant in enumerate(constants): length += constant * x**idx`. -/
noncomputable def polyLoop (x : ℝ) : List ℝ → ℕ → ℝ → ℝ
  | [], _, acc => acc
  | c :: cs, i, acc => polyLoop x cs (i + 1) (acc + c * x ^ i)

/-- What the estimates read from vehicle, airport and analyses. -/
structure Field where
  g : ℝ
  ρ : ℝ
  S : ℝ
  CLmax : ℝ
  /-- `vehicle.V2_VS_ratio`, `vehicle.Vref_VS_ratio`, `vehicle.takeoff_constants` and the landing constants,
  where given. -/
  v2 : Option ℝ
  vref : Option ℝ
  takeoffConstants : Option (List ℝ)
  landingConstants : Option (List ℝ)
  engines : List ℕ
  /-- Thrust of all networks at full throttle as a function of speed. -/
  thrust : ℝ → ℝ

/-- `estimate_landing_field_length` (58-118).  The constants are looked up on a name that does not exist; the
exception selects the default ones (104-110). -/
noncomputable def landingLength (f : Field) (landing : ℝ) : ℝ :=
  let vref := stallV landing f.g f.ρ f.S f.CLmax * f.vref.getD 1.23
  let constants : List ℝ := [250, 0, 2.485 / f.g]
  polyLoop vref constants 0 0

/-- The correlation for a number of engines (149-171). -/
noncomputable def takeoffDefault (n : ℕ) : List ℝ :=
  if n = 2 then [857.4, 2.476, 0.00014]
  else if n = 3 then [667.9, 2.343, 0.000093]
  else if n = 4 then [486.7, 2.282, 0.0000705]
  else if n > 4 then [486.7, 2.282, 0.0000705]
  else [857.4, 2.476, 0.00014]

/-- `V2_speed` (108-109). -/
noncomputable def v2Speed (f : Field) (m : ℝ) : ℝ := f.v2.getD 1.20 * stallV m f.g f.ρ f.S f.CLmax

/-- `takeoff_index` (110, 137-139, 174). -/
noncomputable def takeoffIndex (f : Field) (m : ℝ) : ℝ :=
  v2Speed f m ^ 2 / (f.thrust (0.70 * v2Speed f m) / m)

/-- `estimate_take_off_field_length` (115-119, 146-179) for the take-off mass `m`; the unit is feet. -/
noncomputable def takeoffLength (f : Field) (m : ℝ) : Option ℝ :=
  if f.engines.sum = 0 then none
  else some (polyLoop (takeoffIndex f m) (f.takeoffConstants.getD (takeoffDefault f.engines.sum)) 0 0 * 0.3048)

/-- `windmilling_drag` (70-75) with a given reference area: the wetted areas of all nacelles. -/
noncomputable def windmilling (nacelles : List ℝ) (S : ℝ) : ℝ := 0.007274 * nacelles.sum / S

/-- `asymmetry_drag` (80-115): `y` is the place of the engine, `thrust` that of one engine, `h` and `l` height
and arm of the fin; the arm is the first of the three numbers that line 100 computes when the aerodynamic
centre is a numpy number (with an ordinary float the line raises an exception). -/
noncomputable def asymmetry (q S y thrust cdw h l : ℝ) : ℝ :=
  let w := cdw * q * S
  let trim := y ^ 2 * (thrust + w) ^ 2 / (q * 3.141593 * (h * l) ^ 2)
  trim / q / S

/-- The second-segment climb gradient (202-208): `thrust` with one engine out, `ld` the lift-to-drag ratio with
all engines, `cda` and `cdw` the coefficients of the two functions above. -/
noncomputable def secondSegment (f : Field) (m thrust ld cda cdw : ℝ) : ℝ :=
  let clv2 := f.CLmax / f.v2.getD 1.20 ^ 2
  let cdv2 := clv2 / ld + cda + cdw
  let ldv2 := clv2 / cdv2
  thrust / (m * f.g) - 1 / ldv2

/-! ### Take-off weight for a field length -/

/-- The masses of the vehicle that `find_take_off_weight_given_tofl` touches. -/
structure TowMasses where
  operatingEmpty : ℝ
  maxTakeoff : ℝ
  takeoff : ℝ

/-- `np.linspace(a, b, n + 1)`. -/
noncomputable def linspace (a b : ℝ) (n : ℕ) : List ℝ := (List.range (n + 1)).map fun i : ℕ => a + (b - a) * i / n

/-- The weights tried (46-52). -/
noncomputable def towVec (v : TowMasses) : List ℝ := linspace v.operatingEmpty (1.10 * v.maxTakeoff) 49

/-- `find_take_off_weight_given_tofl` (46-68): the weights for the targets and the masses of the vehicle
afterwards; `tofl` is `estimate_take_off_field_length` as a function of `mass_properties.takeoff`. -/
noncomputable def findTow (v : TowMasses) (tofl : ℝ → ℝ) (targets : List ℝ) : List ℝ × TowMasses :=
  let towRef := v.maxTakeoff
  let vec := towVec v
  let after := vec.foldl (fun (v : TowMasses) w => { v with takeoff := w }) v
  (targets.map fun t => npInterp (vec.map fun w => (tofl w, w)) t, { after with maxTakeoff := towRef })

/-! ### Electric payload-range diagram -/

/-- One point of the diagram. -/
structure EPt where
  range : ℝ
  payload : ℝ
  tow : ℝ

open Classical in
/-- `electric_payload_range` (68-118): `fly` gives the distance at the end of the cruise segment for a take-off
weight; `none` where the function returns `True`. The second result is the take-off weight left in the
mission's vehicle. -/
noncomputable def electricRange (oew maxPld mtow unit : ℝ) (fly : ℝ → ℝ) : Option (List EPt × ℝ) :=
  if oew = 0 ∨ maxPld = 0 ∨ mtow = 0 then none
  else
    let tow := [mtow, oew]
    let pld := [maxPld, 0]
    let pts := (tow.zip pld).map fun p => (⟨fly p.1 / unit, p.2, p.1⟩ : EPt)
    some (⟨0, maxPld, 0⟩ :: pts, oew)

/-! ### Climb rate over speed and altitude -/

/-- What `electric_V_h_diagram` reads; the drag and the power of a propeller are functions of altitude,
temperature offset and speed. -/
structure Vh where
  W : ℝ
  S : ℝ
  CLmax : ℝ
  ρ : ℝ → ℝ → ℝ
  drag : ℝ → ℝ → ℝ → ℝ
  /-- Shaft power of each propeller listed. -/
  power : List (ℝ → ℝ → ℝ → ℝ)
  nprops : ℕ
  identical : Bool
  maxPower : ℝ

/-- `Power` (137-154): `none` when a propeller is missing from the list. The offset is 0 in the call. -/
noncomputable def vhPower (v : Vh) (h V : ℝ) : Option ℝ :=
  let laps := if v.identical then 1 else v.nprops
  let factor : ℝ := if v.identical then v.nprops else 1
  if v.power.length < laps then none
  else some (((v.power.take laps).map fun p => p h 0 V * factor).sum)

open Classical in
/-- One entry of `climb_rate` (117-166), in metres per second; the small mission is flown without an offset
(89-102). -/
noncomputable def climbRate (v : Vh) (disa h V : ℝ) : Option ℝ :=
  let vs := √(2 * v.W / (v.ρ h disa * v.S * v.CLmax))
  if V > vs then
    (vhPower v h V).map fun p => max 0 (1 / v.W * (min p v.maxPower - v.drag h 0 V * V))
  else some 0

/-- A number given for `grid_points`: an integer or a float. -/
inductive PyNum
  | int (n : ℕ)
  | float (x : ℝ)

/-- The default `grid_points = 20.` (line 28). -/
def gridDefault : PyNum := .float 20

/-- `range(grid_points)` (106-115), which accepts integers only; `none` for the argument means it was not given. -/
def gridSize (g : Option PyNum) : Option ℕ :=
  match g.getD gridDefault with
  | .int n => some n
  | .float _ => none

/-! ### Best lift-to-drag ratio -/

/-- A result of `scipy.optimize.minimize_scalar(f, bounds=(a, b), method='bounded')`: a point within the bounds
and the value there; an exception when the bounds are crossed. -/
def Bounded (f : ℝ → ℝ) (a b : ℝ) (r : Option (ℝ × ℝ)) : Prop :=
  match r with
  | none => b < a
  | some (x, v) => a ≤ x ∧ x ≤ b ∧ v = f x

/-- `maximum_lift_to_drag` (77-115) and the second part of `propeller_range_endurance_speeds` (99-112,
140-145): speed and value from the result of the minimizer. -/
noncomputable def objectiveLD (CL CD : ℝ → ℝ) (V : ℝ) : ℝ := -CL V / CD V
/-- propeller_range_endurance_speeds.py:82-95. -/
noncomputable def objective32 (CL CD : ℝ → ℝ) (V : ℝ) : ℝ := -(CL V ^ (3 / 2 : ℝ)) / CD V
/-- Lines 113-115: the value reported. -/
noncomputable def reportBest (r : Option (ℝ × ℝ)) : Option (ℝ × ℝ) := r.map fun p => (p.1, -p.2)

end Verif.Performance
