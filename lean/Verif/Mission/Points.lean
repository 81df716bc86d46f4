import Verif.Mission.Profile
import Mathlib.Analysis.SpecialFunctions.Pow.Real
/-
Model of the expansion of a segment's state to its control points
(trunk/SUAVE/Analyses/Mission/Segments/Conditions/{Conditions,State}.py), of the bookkeeping of a
second fuel (Methods/Missions/Segments/Common/Weights.py), of the charging segment
(Ground/Battery_Charge_Discharge.py), of the calibrated airspeed segments
({Climb,Descent}/Constant_CAS_Constant_Rate.py), of the optimized climb (optimize.py,
Climb/Optimized.py), of ground segments (Ground/{Common,Landing,Takeoff}.py) and of missions with
a variable cruise (Cruise/Variable_Cruise_Distance.py).

Simplifications
* Exact real arithmetic; `n+2` control points where a column is used.
* The optimizer and the root finder are not modelled: they evaluate some list of points and return
  one of them (optimizer), or make the residuals zero (root finder).
* The `_size` attribute of `Conditions`, used only by later calls of `ones_row`, is left out.
-/

namespace Verif.Mission

/-! ### State expansion -/

mutual
/-- What a state holds under a key: a rank 2 array with its rows, an array made by `ones_row_m1` or
`ones_row_m2` (number of rows left out, value; Conditions.py:146-181, 235-281), anything else
(numbers, arrays of another rank, `None`, plain `Data`), or a nested `Conditions`. -/
inductive Val
  | arr (cols : Nat) (rows : List (List ℝ))
  | short (adj : Nat) (v : ℝ)
  | other (tag : Nat)
  | cond (fs : Fields)
/-- Keys and values in order. -/
inductive Fields
  | nil
  | cons (k : String) (v : Val) (rest : Fields)
end

/-- `np.resize(v,[n,c])` of an array with `c` columns: the rows again and again, zeros when there
are none. -/
def resizeRows (v : List (List ℝ)) (c n : Nat) : List (List ℝ) :=
  (List.range n).map fun i => (v[i % v.length]?).getD (List.replicate c 0)

mutual
/-- `Conditions.expand_rows` (Conditions.py:122-143) seen from the value: arrays of at most one row
(any array with `override`) are resized, short arrays become plain arrays
(Conditions.py:206-212).  A negative number of rows (a numpy error) is 0 here. -/
def Val.expand (n : Nat) (override : Bool) : Val → Val
  | .arr c rows => if rows.length ≤ 1 ∨ override then .arr c (resizeRows rows c n) else .arr c rows
  | .short adj v => .arr 1 (resizeRows [[v]] 1 (n - adj))
  | .other t => .other t
  | .cond fs => .cond (fs.expand n override)
/-- The loop over the keys. -/
def Fields.expand (n : Nat) (override : Bool) : Fields → Fields
  | .nil => .nil
  | .cons k v rest => .cons k (v.expand n override) (rest.expand n override)
end

/-- `State.expand_rows` (State.py:88-104), which `expand_state` calls with the number of control
points: initial values and numerics are left alone, nested `Conditions` are expanded, arrays of the
state itself are resized whatever they hold, short arrays of the state itself are left alone. -/
def stateExpand (n : Nat) (override : Bool) : Fields → Fields
  | .nil => .nil
  | .cons k v rest =>
    .cons k (if k = "initials" ∨ k = "numerics" then v else match v with
      | .cond fs => .cond (fs.expand n override)
      | .arr c rows => .arr c (resizeRows rows c n)
      | w => w) (stateExpand n override rest)

/-- First value under a key. -/
def Fields.get? : Fields → String → Option Val
  | .nil, _ => none
  | .cons k v rest, key => if k = key then some v else rest.get? key

/-- Value at a path of keys. -/
def Val.at? : Val → List String → Option Val
  | v, [] => some v
  | .cond fs, k :: p => (fs.get? k).bind fun v => v.at? p
  | _, _ :: _ => none

/-! ### Two fuels -/

/-- The mass columns. -/
structure Masses (n : Nat) where
  total : Col n
  fuel : Col n
  extra : Col n

/-- Rows after the first are written, the first is kept (`x[1:,0] = y[1:,0]`). -/
def keepFirst {n : Nat} (old new : Col n) : Col n := fun i => if i = 0 then old i else new i

/-- `update_weights` with a second fuel (Weights.py:123-149): new masses and the weight column. -/
def updateTwoFuels {n : Nat} (I : Matrix (Fin (n + 2)) (Fin (n + 2)) ℝ) (g total fuel extra : Col n)
    (m : Masses n) : Masses n × Col n :=
  let mt : Col n := fun i => m.total 0 + I.mulVec (fun j => -total j) i
  ({ total := keepFirst m.total mt
     fuel := keepFirst m.fuel fun i => m.fuel 0 + I.mulVec (fun j => -fuel j) i
     extra := keepFirst m.extra fun i => m.extra 0 + I.mulVec (fun j => -extra j) i },
   fun i => mt i * g i)

/-! ### Charging -/

/-- Cell data and layout of a battery pack. -/
structure Pack where
  current : ℝ
  voltage : ℝ
  parallel : ℝ
  series : ℝ

/-- What a charging segment is given. -/
structure ChargeSeg where
  overcharge : ℝ
  discharge : Bool
  time : ℝ
  /-- `segment.battery_energy`, if present -/
  battery : Option ℝ
  packs : List Pack

/-- Lines 25-42 of Battery_Charge_Discharge.py: the segment with its contingency overwritten, and
the duration; `initials` is the last energy and the largest energy of the segment before.  `none`:
a name that was never bound. -/
noncomputable def chargeDuration (initials : Option (ℝ × ℝ)) (s : ChargeSeg) : ChargeSeg × Option ℝ :=
  let s := { s with overcharge := 5 / 4 }
  let energies := match initials with
    | some e => some e
    | none => s.battery.map fun b => (b, b)
  (s, if s.discharge then some s.time else
    s.packs.foldl (fun _ p => energies.map fun e =>
      (e.2 - e.1) * s.overcharge / ((p.current * p.parallel) * (p.voltage * p.series))) (some s.time))

/-- Lines 48-52: the time column. -/
def chargeTime {n : Nat} (t : Col n) (t0 d : ℝ) : Col n := fun i => t i * d + t0

/-! ### Calibrated airspeed -/

/-- Climb/Constant_CAS_Constant_Rate.py:74-77, Descent/…:72-75; `kcas` in knots. -/
noncomputable def casMach (p p0 kcas : ℝ) : ℝ :=
  2.236 * ((((1 + 4.575e-7 * kcas ^ 2) ^ (3.5 : ℝ) - 1) / (p / p0) + 1) ^ (0.2857 : ℝ) - 1) ^ (0.5 : ℝ)

/-- Impact pressure (line 79, 77). -/
noncomputable def casImpact (p mach : ℝ) : ℝ := p * ((1 + 0.2 * mach ^ 2) ^ (3.5 : ℝ) - 1)

/-- Equivalent airspeed (line 80, 78). -/
noncomputable def casEas (p p0 qc cas : ℝ) : ℝ :=
  cas * (p / p0) ^ (0.5 : ℝ) * (((qc / p + 1) ^ (0.286 : ℝ) - 1) / ((qc / p0 + 1) ^ (0.286 : ℝ) - 1)) ^ (0.5 : ℝ)

/-- True airspeed (line 82, 80) from pressure and density at altitude and at sea level. -/
noncomputable def casTas (p rho p0 rho0 knot cas : ℝ) : ℝ :=
  casEas p p0 (casImpact p (casMach p p0 (cas / knot))) cas / Real.sqrt (rho / rho0)

/-- An atmosphere: pressure and density by altitude and temperature deviation. -/
structure CasAir where
  p : ℝ → ℝ → ℝ
  rho : ℝ → ℝ → ℝ

/-- Climb (lines 61-92): sea level values without temperature deviation. -/
noncomputable def climbCas {n : Nat} (air : CasAir) (dT knot : ℝ) (t : Col n) (cas rate alt0 altf : ℝ) : Prof n :=
  rateProfile t (fun i => casTas (air.p (ramp t alt0 altf i) dT) (air.rho (ramp t alt0 altf i) dT) (air.p 0 0) (air.rho 0 0) knot cas)
    (-rate) alt0 altf

/-- Descent (lines 60-91): sea level values with the deviation of the segment. -/
noncomputable def descentCas {n : Nat} (air : CasAir) (dT knot : ℝ) (t : Col n) (cas rate alt0 altf : ℝ) : Prof n :=
  rateProfile t (fun i => casTas (air.p (ramp t alt0 altf i) dT) (air.rho (ramp t alt0 altf i) dT) (air.p 0 dT) (air.rho 0 dT) knot cas)
    rate alt0 altf

/-- Cruise/Constant_Dynamic_Pressure_Constant_Altitude_Loiter.py:51-72: the density is read at the
altitudes `old` the state had before. -/
noncomputable def loiterDynPressure {n : Nat} (rho : ℝ → ℝ) (old t : Col n) (q duration alt t0 : ℝ) : Level n :=
  ⟨fun i => Real.sqrt (q / (rho (old i) * (1 / 2))), fun _ => alt, fun _ => -alt, rampTo t t0 fun _ => duration + t0⟩

/-! ### Optimized climb -/

/-- The unknowns of an optimized climb as the packed vector sees them
(Analyses/Mission/Segments/Climb/Optimized.py:90-93, order of insertion). -/
structure OptUnknowns where
  throttle : List ℝ
  body : List ℝ
  gamma : List ℝ
  vel : List ℝ

/-- `pack_array`. -/
def OptUnknowns.pack (u : OptUnknowns) : List ℝ := u.throttle ++ u.body ++ u.gamma ++ u.vel

/-- The speeds the unknowns stand for (Climb/Optimized.py:58-61). -/
def optSpeeds (v0 : ℝ) (vf : Option ℝ) (vel : List ℝ) : List ℝ := v0 :: vel ++ vf.toList

/-- `solve_linear_speed_constant_rate` (Climb/Optimized.py:238-243): the seed of the speeds from a
column of speeds. -/
def optSeedVel (vf : Option ℝ) (vmag : List ℝ) : List ℝ := if vf.isNone then vmag.tail else vmag.tail.dropLast

/-- `make_bnds` (optimize.py:179-194). -/
noncomputable def makeBounds (n : Nat) (vf : Option ℝ) : List (ℝ × ℝ) :=
  List.replicate n (0, 1) ++ List.replicate n (0, Real.pi / 2) ++ List.replicate n (0, Real.pi / 2) ++
    List.replicate (if vf.isNone then n - 1 else n - 2) (0, 2000)

/-- Velocity from speed and flight path angle (Climb/Optimized.py:70-77). -/
noncomputable def optVelocity (v gamma : ℝ) : ℝ × ℝ := (v * Real.cos gamma, -v * Real.sin gamma)

/-- `update_differentials` (Climb/Optimized.py:110-131): duration, altitude and time columns. -/
noncomputable def optDifferentials {n : Nat} (I : Matrix (Fin (n + 2)) (Fin (n + 2)) ℝ) (x vz time : Col n) (alt0 altf : ℝ) :
    ℝ × Col n × Col n :=
  let dt := (altf - alt0) / fin (I.mulVec fun j => -vz j)
  (dt, (fun i => (dt • I).mulVec (fun j => -vz j) i + alt0),
    keepFirst time fun i => time 0 + x i * dt)

/-- What the constraints look at. -/
structure OptState (n : Nat) where
  time : Col n
  cl : Col n
  alt : Col n
  acc : Col n

/-- The groups of inequality constraints (optimize.py:229-242). -/
noncomputable def timeCon {n : Nat} (s : OptState n) : List ℝ :=
  List.ofFn fun i : Fin (n + 1) => (s.time i.succ - s.time i.castSucc) / fin s.time
/-- Upper limit of the lift coefficient. -/
noncomputable def clCon {n : Nat} (limit : ℝ) (s : OptState n) : List ℝ := List.ofFn fun i => (limit - s.cl i) / limit
/-- Altitude. -/
noncomputable def altCon {n : Nat} (altEnd : ℝ) (s : OptState n) : List ℝ := List.ofFn fun i => s.alt i / altEnd

/-- `get_ieconstraints` (optimize.py:229-246). -/
noncomputable def ieConstraints {n : Nat} (limit altEnd : ℝ) (s : OptState n) : List ℝ :=
  timeCon s ++ clCon limit s ++ List.ofFn s.cl ++ altCon altEnd s ++ List.ofFn s.acc

/-- The constraints of `get_problem_pyopt` (optimize.py:278-297). -/
noncomputable def pyoptConstraints {n : Nat} (resid : List ℝ) (limit altEnd : ℝ) (s : OptState n) : List ℝ :=
  resid ++ timeCon s ++ clCon limit s ++ altCon altEnd s ++ List.ofFn s.acc ++ List.ofFn s.cl

/-- Constraints declared to pyOpt (optimize.py:79-83): equations, inequalities. -/
def pyoptDeclared (points : Nat) : Nat × Nat := (2 * points, 5 * points - 1)

/-- A floating point number that may be nan. -/
abbrev MaybeNan := Option ℝ

/-- The failure flag (optimize.py:302): `np.isnan(np.array(const).any())` is `isnan` of a truth
value, which is never nan. -/
def pyoptFail (obj : MaybeNan) (_const : List MaybeNan) : Bool := obj.isNone || false

/-- `converge_opt` with SLSQP (optimize.py:57-58): every evaluation writes its point into the state;
the point returned is assigned to a local name. -/
def slsqpState {X : Type} (start : X) (evaluated : List X) (_returned : X) : X := evaluated.getLast?.getD start

/-! ### Ground segments -/

/-- Speeds at both ends (Ground/Common.py:105-118): zero is 0.01, equal speeds are pulled apart. -/
noncomputable def groundSpeeds (v0 vf : ℝ) : ℝ × ℝ :=
  let v0 := if v0 = 0 then 0.01 else v0
  let vf := if vf = 0 then 0.01 else vf
  (v0, if v0 = vf then vf + 0.01 else vf)

/-- `conditions.ground`. -/
structure GroundCond where
  incline : ℝ
  friction : ℝ

/-- `initialize_conditions` (Ground/Common.py:127-128). -/
def groundCond (incline friction : ℝ) : GroundCond := ⟨incline, friction⟩

/-- `compute_ground_forces` and `compute_forces` (Ground/Common.py:161-178, 206-217): aerodynamic,
thrust and gravity force `F` (along, down), weight and lift as in `groundForces`. -/
def groundTotal (c : GroundCond) (F : ℝ × ℝ) (W L : ℝ) : ℝ × ℝ :=
  (F.1 + (groundForces W L c.friction).2, F.2 + (groundForces W L c.friction).1)

/-- `solve_residuals` (Ground/Common.py:247-261): rows after the first, and the last speed. -/
noncomputable def groundResidual {n : Nat} (D : Matrix (Fin (n + 2)) (Fin (n + 2)) ℝ) (v F m : Col n) (vf : ℝ) :
    (Fin (n + 1) → ℝ) × ℝ :=
  (fun i => F i.succ / m i.succ - D.mulVec v i.succ, fin v - if vf = 0 then 0.01 else vf)

/-- Mass during a takeoff or landing run: set by Takeoff.py:48-52 or Landing.py:45-48, then
`initialize_weights` (Ground.py:131, Weights.py:41-49) in every iteration. -/
def groundMass {n m : Nat} (own takeoff : ℝ) (prev : Option (Traj m)) (s : Traj n) : Col n :=
  (initWeights takeoff prev { s with mass := fun _ => own }).mass

/-! ### Missions with a variable cruise -/

/-- `residual_landing_weight`, `residual_state_of_charge` (Variable_Cruise_Distance.py:104-108,
141-145); `none`: division by zero. -/
noncomputable def targetResidual (final target : ℝ) : Option ℝ :=
  if target = 0 then none else some ((final - target) / target)

end Verif.Mission
