import Mathlib.Analysis.SpecialFunctions.Pow.Real
import Mathlib.Analysis.Real.Pi.Bounds
import Mathlib.Algebra.BigOperators.Intervals
import Verif.Vehicle.Mass

/-!
Physics-based weights of electric aircraft: `Methods/Weights/Buildups/Common/wing.py`, `fuselage.py`, `prop.py`, `wiring.py`,
`Methods/Weights/Buildups/eVTOL/empty.py`, `converge_evtol_weight.py`.  Stations along a span are `x 0, …, x n`.  The
properties of a cross section (lengths, areas and inertias of its polygon) and of the materials are inputs.
-/

namespace Verif.Weights
open Real Finset Verif.Vehicle

/-- `np.append(np.cumsum((v[0:-1]*np.diff(x))[::-1])[::-1],0)` at station `i` (wing.py:229-245, prop.py:264-266): the sum
outboard of the station. -/
noncomputable def outboard (n : ℕ) (x v : ℕ → ℝ) (i : ℕ) : ℝ := ∑ j ∈ Ico i n, v j * (x (j + 1) - x j)

/-! ### Wing -/

/-- Materials (wing.py:137-187). -/
structure Mats where
  torsUSS : ℝ
  torsDen : ℝ
  torsMGT : ℝ
  coreDen : ℝ
  coreMGT : ℝ
  bendUTS : ℝ
  bendDen : ℝ
  glueMGT : ℝ
  glueDen : ℝ
  coverMGT : ℝ
  coverDen : ℝ
  ribWid : ℝ
  ribMGT : ℝ
  ribDen : ℝ
  shearMGT : ℝ
  shearDen : ℝ
  shearUSS : ℝ

/-- Cross section (wing.py:256-317). -/
structure Sect where
  torsionArea : ℝ
  torsionLength : ℝ
  flapInertia : ℝ
  flapLength : ℝ
  flapMax : ℝ
  dragInertia : ℝ
  dragLength : ℝ
  dragMax : ℝ
  h : ℝ
  skinLength : ℝ
  area : ℝ

/-- Shape of the lift distribution (wing.py:218); `xm` is the largest station. -/
noncomputable def ellipse (xm : ℝ) (x : ℕ → ℝ) (i : ℕ) : ℝ := √(1 - (x i / xm) ^ 2)

/-- Half of the lift carried (wing.py:219). -/
noncomputable def halfLift (mtow G frac SF : ℝ) : ℝ := 0.5 * G * mtow * 9.8 * frac * SF

/-- Lift per length (wing.py:218-220). -/
noncomputable def liftAt (n : ℕ) (x : ℕ → ℝ) (L0 : ℝ) (i : ℕ) : ℝ :=
  L0 / outboard n x (ellipse (x n) x) 0 * ellipse (x n) x i

/-- `wingArea/totalWingArea` (wing.py:110-113). -/
noncomputable def liftFraction (areas : List ℝ) (a : ℝ) : ℝ := a / areas.sum

/-- Thrust outboard of a station (wing.py:239-240). -/
noncomputable def thrustShear (x : ℕ → ℝ) (motors : List ℝ) (T : ℝ) (i : ℕ) : ℝ :=
  (motors.map fun y => if x i ≤ y then T else 0).sum

/-- Loads (wing.py:222-246): shear, bending moment and torque at the station, and the largest moment of drag or thrust. -/
noncomputable def shearAt (n : ℕ) (x : ℕ → ℝ) (L0 : ℝ) : ℕ → ℝ := outboard n x (liftAt n x L0)
noncomputable def momentAt (n : ℕ) (x : ℕ → ℝ) (L0 : ℝ) : ℕ → ℝ := outboard n x (shearAt n x L0)
noncomputable def torqueAt (n : ℕ) (x : ℕ → ℝ) (L0 chord cmocl : ℝ) : ℕ → ℝ :=
  outboard n x fun i => liftAt n x L0 i * chord * cmocl
noncomputable def chordMoment (n : ℕ) (x : ℕ → ℝ) (L0 LoD : ℝ) (motors : List ℝ) (T : ℝ) : ℝ :=
  (range (n + 1)).sup' ⟨0, by simp⟩ fun i =>
    max (outboard n x (outboard n x fun i => liftAt n x L0 i / LoD) i) (outboard n x (thrustShear x motors T) i)

/-- Thickness of the torsion skin (wing.py:325-326): the torque is multiplied by the first interval of the stations (209). -/
noncomputable def torsionThickness (m : Mats) (s : Sect) (x : ℕ → ℝ) (My : ℝ) : ℝ :=
  max (My * (x 1 - x 0) / (2 * m.torsUSS * s.torsionArea)) m.torsMGT

/-- Mass per length (wing.py:325-355). -/
noncomputable def linearMass (m : Mats) (s : Sect) (x : ℕ → ℝ) (Vz Mx My Mz : ℝ) : ℝ :=
  torsionThickness m s x My * s.torsionLength * m.torsDen + m.coreMGT * s.torsionLength * m.coreDen
    + Mx * s.flapMax / (s.flapInertia * m.bendUTS) * s.flapLength * m.bendDen
    + Mz * s.dragMax / (s.dragInertia * m.bendUTS) * s.dragLength * m.bendDen
    + max (1.5 * Vz / (m.shearUSS * s.h)) m.shearMGT * s.h * m.shearDen
    + (m.glueMGT * m.glueDen * s.torsionLength + m.glueMGT * m.glueDen * s.flapLength + m.glueMGT * m.glueDen * s.dragLength)
    + s.skinLength * m.coverMGT * m.coverDen

/-- `mRib` (wing.py:359, prop.py:308). -/
noncomputable def ribMass (m : Mats) (s : Sect) : ℝ := (s.area + s.skinLength * m.ribWid) * m.ribMGT * m.ribDen

/-- `wing` (wing.py:26-365) for the stations `x 0 ≤ … ≤ x n` and motors at `motors` (in metres; both are sorted into the
stations at 208); `mtow`, `G`, `frac`, `SF` give the lift, `T` is the thrust of a motor. -/
noncomputable def wingBuildup (m : Mats) (s : Sect) (n : ℕ) (x : ℕ → ℝ) (motors : List ℝ)
    (mtow G frac SF T chord cmocl LoD grace : ℝ) : ℝ :=
  let L0 := halfLift mtow G frac SF
  let Mz := chordMoment n x L0 LoD motors T
  2 * ((∑ i ∈ range n, linearMass m s x (shearAt n x L0 i) (momentAt n x L0 i) (torqueAt n x L0 chord cmocl i) Mz
      * (x (i + 1) - x i)) + ((motors.length : ℝ) + 2) * ribMass m s) * grace

/-! ### Fuselage and wiring -/

/-- Wetted area (fuselage.py:123-125). -/
noncomputable def fuseWetted (l w h : ℝ) : ℝ :=
  4 * π * (((l * w / 4) ^ (1.6 : ℝ) + (l * h / 4) ^ (1.6 : ℝ) + (w * h / 4) ^ (1.6 : ℝ)) / 3) ^ (1 / 1.6 : ℝ)

/-- Materials of the fuselage (fuselage.py:81-119). -/
structure FuseMats where
  rbmDen : ℝ
  rbmUTS : ℝ
  shearDen : ℝ
  shearUSS : ℝ
  bearingDen : ℝ
  bearingUBS : ℝ
  boltUSS : ℝ
  skin : ℝ
  canopy : ℝ

/-- Keel part against lifting (fuselage.py:138-144). -/
noncomputable def keelLift (m : FuseMats) (l h mtow G SF : ℝ) : ℝ :=
  let L := G * mtow * 9.8 * SF
  let bh := h / 10
  L * l / 2 * bh / (4 * m.rbmUTS * (bh / 2) ^ 2) * l * m.rbmDen

/-- Keel part against bending of the wing (fuselage.py:148-151): perimeter times thickness times density. -/
noncomputable def keelTorsion (m : FuseMats) (l w h span mtow G SF : ℝ) : ℝ :=
  let L := G * mtow * 9.8 * SF
  let _ := l
  let bh := h / 10
  let bw := w / 3
  2 * (bh + bw) * (0.5 * (L / 2 * span / 2) / (m.shearUSS * (bh * bw))) * m.shearDen

/-- Keel part against landing (fuselage.py:155-160). -/
noncomputable def keelLanding (m : FuseMats) (mtow LIF SF : ℝ) : ℝ :=
  let F := SF * mtow * 9.8 * LIF * 0.6403
  let d := 2 * √(F / m.boltUSS / π)
  let t := F / (d * m.bearingUBS)
  4 * (π * (20 * t) ^ 2 * (t / 3)) * m.bearingDen

/-- `fuselage` (fuselage.py:25-167). -/
noncomputable def fuseBuildup (m : FuseMats) (l w h span mtow G LIF SF : ℝ) : ℝ :=
  fuseWetted l w h * m.skin + 3 * π * h * w / 4 * m.skin + fuseWetted l w h / 8 * m.canopy
    + (keelLift m l h mtow G SF + keelTorsion m l w h span mtow G SF + keelLanding m mtow LIF SF)

/-- `wiring` (wiring.py:23-94); `none` for a wing without the entry `motor_spanwise_locations`. -/
noncomputable def wiring (motors : Option (List ℝ)) (l h span power : ℝ) : ℝ :=
  match motors with
  | none => 0
  | some ms =>
    let cable := (max ms.length 1 : ℕ) * (l / 2 + h / 2) + (ms.map fun y => |y|).sum * span / 2
    5.7e-6 * power * cable + 2 * 460e-5 * 6 * (cable + 10 * l + 4 * span)

/-! ### Rotor blades -/

/-- Stations (prop.py:197). -/
noncomputable def bladeX (n : ℕ) (R : ℝ) (i : ℕ) : ℝ := i * (R / n)

/-- Load per length (prop.py:205). -/
noncomputable def bladeLoad (n : ℕ) (R SF T blades : ℝ) (i : ℕ) : ℝ := SF * 3 * (T / R ^ 3) * bladeX n R i ^ 2 / blades

/-- Shear and bending moment (prop.py:264-265). -/
noncomputable def bladeShear (n : ℕ) (R SF T blades : ℝ) : ℕ → ℝ := outboard n (bladeX n R) (bladeLoad n R SF T blades)
noncomputable def bladeMoment (n : ℕ) (R SF T blades : ℝ) : ℕ → ℝ := outboard n (bladeX n R) (bladeShear n R SF T blades)

/-- Centrifugal force (prop.py:272-273). -/
noncomputable def centrifugal (n : ℕ) (R SF omega : ℝ) (m : ℕ → ℝ) (i : ℕ) : ℝ :=
  SF * omega ^ 2 * outboard n (bladeX n R) (fun j => m j * bladeX n R j) i

/-- One sweep of the iteration (prop.py:271-305): the part of the mass per length that does not depend on the masses, and the
flap cap against the centrifugal force. -/
noncomputable def bladeSweep (n : ℕ) (R SF omega ratio : ℝ) (c m : ℕ → ℝ) (i : ℕ) : ℝ :=
  c i + centrifugal n R SF omega m i * ratio

/-- Mass of the rotor after a sweep (prop.py:308-318): `m'` are the new masses per length, `m` the ones the centrifugal force
was computed with; `root` is the root mass per newton and `fixed` the rest. -/
noncomputable def rotorMass (n : ℕ) (R SF omega blades root fixed : ℝ) (m m' : ℕ → ℝ) : ℝ :=
  blades * ((∑ i ∈ range n, m' i * (bladeX n R (i + 1) - bladeX n R i)) + fixed
    + root * (range (n + 1)).sup' ⟨0, by simp⟩ (centrifugal n R SF omega m))

/-- The masses per length after `k` sweeps. -/
noncomputable def bladeIter (n : ℕ) (R SF omega ratio : ℝ) (c m0 : ℕ → ℝ) : ℕ → ℕ → ℝ
  | 0 => m0
  | k + 1 => bladeSweep n R SF omega ratio c (bladeIter n R SF omega ratio c m0 k)

/-- The rotor mass after `k + 1` sweeps. -/
noncomputable def rotorIter (n : ℕ) (R SF omega ratio blades root fixed : ℝ) (c m0 : ℕ → ℝ) (k : ℕ) : ℝ :=
  rotorMass n R SF omega blades root fixed (bladeIter n R SF omega ratio c m0 k) (bladeIter n R SF omega ratio c m0 (k + 1))

/-- Inertia of a spar cap (prop.py:243-248): the midpoints are taken between each point and the first, `seg[i][0::-1]`. -/
noncomputable def capInertia : List (ℝ × ℝ) → ℝ
  | [] => 0
  | p :: l => |(((p :: l).zip l).map fun q =>
      √((q.2.1 - q.1.1) ^ 2 + (q.2.2 - q.1.2) ^ 2) * ((q.2.2 + p.2) / 2) ^ 2).sum|

/-! ### Electric vertical take-off aircraft -/

/-- A rotor: tip radius, solidity, variable pitch, mass of its motor, and its mass for a thrust. -/
structure Rotor where
  r : ℝ
  sol : ℝ
  vp : Bool
  motor : ℝ
  mass : ℝ → ℝ

inductive RotorKind where
  | propeller | liftRotor | plain
  deriving DecidableEq

/-- Networks (empty.py:218-248), with the rotors listed in them. -/
inductive EvNet where
  | liftCruise (nLift nThrust : ℕ) (lift thrust : List Rotor)
  | batteryPropeller (rotors : List (RotorKind × Rotor))
  | other

/-- Running sums of `empty` (empty.py:94-103) and the names that survive from one network to the next. -/
structure EvState where
  lift : ℝ
  props : ℝ
  liftMotors : ℝ
  propMotors : ℝ
  battery : ℝ
  payload : ℝ
  servos : ℝ
  hubs : ℝ
  brs : ℝ
  ref : Option (ℝ × ℝ)
  power : Option (ℝ × ℕ)

/-- Parameters (empty.py:29-38, 141-148). -/
structure EvPar where
  mtow : ℝ
  tw : ℝ
  vtip : ℝ
  k : ℝ
  eta : ℝ
  contingency : ℝ

noncomputable def EvPar.maxLift (p : EvPar) : ℝ := p.mtow * p.tw * 9.81

/-- The rotors of a network: numbers and lists (empty.py:218-248).  In a `Battery_Propeller` network the lift rotors can be
reached only when there are no propellers (241-244), and then the list has all rotors; with both kinds `lift_rotors` does not
exist.  The propeller loop runs over all rotors of the network (259). -/
def evRotors : EvNet → Option (ℕ × ℕ × List Rotor × List Rotor)
  | .liftCruise nl nt l t => some (nl, nt, l, t)
  | .batteryPropeller rs =>
    let nt := (rs.filter fun r => r.1 = .propeller).length
    let nl := (rs.filter fun r => r.1 = .liftRotor).length
    if nt = 0 then some (nl, 0, rs.map Prod.snd, [])
    else if nl = 0 then some (0, nt, [], rs.map Prod.snd) else none
  | .other => none

/-- `maxLiftPower` (empty.py:297-298). -/
noncomputable def liftPower (p : EvPar) (ref : ℝ × ℝ) : ℝ :=
  1.15 * p.maxLift * (p.k * √(p.maxLift / (2 * 1.225 * π * ref.1 ^ 2))
    + ref.2 * 0.012 / 8 * p.vtip ^ 3 / (p.maxLift / (1.225 * π * ref.1 ^ 2)))

/-- The loop body for a network with its battery and payload (empty.py:180-307). -/
noncomputable def evStep (p : EvPar) (st : EvState) (net : EvNet) (battery payload : ℝ) : Option EvState :=
  match evRotors net with
  | none => none
  | some (nl, nt, lift, thrust) =>
    let thrust' := if nt > 0 then thrust else []
    let lift' := if nl > 0 then lift else []
    let pm := (thrust'.map fun r => r.mass (p.maxLift / 5)).sum
    let lm := (lift'.map fun r => r.mass (p.maxLift / (max (nl - 1) 1 : ℕ))).sum
    let ref := ((thrust' ++ lift').getLast?.map fun r => (r.r, r.sol)).or st.ref
    let servo := (nl : ℝ) * (if lift'.any Rotor.vp then 0.65 else 0) + nt * (if thrust'.any Rotor.vp then 5.2 else 0)
    match ref with
    | none => none
    | some rf =>
      let pw := liftPower p rf
      let st' : EvState :=
        { lift := st.lift + lm, props := st.props + pm, liftMotors := st.liftMotors + (lift'.map Rotor.motor).sum,
          propMotors := st.propMotors + (thrust'.map Rotor.motor).sum, battery := st.battery + battery,
          payload := st.payload + payload, servos := st.servos + servo,
          hubs := st.hubs + (nl * 4 + nt * (p.mtow * 0.04)),
          brs := st.brs + ((if nl + nt > 1 then 16 else 0) + 16), ref := some rf, power := some (pw, nl + nt) }
      if nl = 1 then
        match lift.head? with
        | none => none
        | some t => some { st' with lift := st'.lift + t.mass (1.5 * (pw / (p.vtip / rf.1)) / (1.25 * rf.1)) * 0.2 }
      else some st'

/-- All networks. -/
noncomputable def evNets (p : EvPar) : EvState → List (EvNet × ℝ × ℝ) → Option EvState
  | st, [] => some st
  | st, (n, b, l) :: r => (evStep p st n b l).bind fun st' => evNets p st' r

/-- A wing: whether symbolic, its weight, its wiring as a function of the power of a cable. -/
structure EvWing where
  symbolic : Bool
  mass : ℝ
  wiring : ℝ → ℝ

/-- What `empty` returns (empty.py:134-138, 310-367). -/
structure EvOut where
  s : EvState
  seats : ℝ
  passengers : ℝ
  avionics : ℝ
  gear : ℝ
  ecs : ℝ
  wings : ℝ
  wiring : ℝ
  fuselage : ℝ
  structural : ℝ
  empty : ℝ
  total : ℝ

open Classical in
/-- `empty` (empty.py:94-367).  `none` for an unsupported network, an unassigned name, a division by zero in the cable power,
and a vehicle without a fuselage, which line 351 needs although 156-162 provide for it. -/
noncomputable def evEmpty (p : EvPar) (pax : ℝ) (nets : List (EvNet × ℝ × ℝ)) (wings : List EvWing) (fuselage : Option ℝ) :
    Option EvOut :=
  (evNets p ⟨0, 0, 0, 0, 0, 0, 0, 0, 0, none, none⟩ nets).bind fun s =>
    let wire : Option ℝ := match wings, s.power with
      | [], _ => some 0
      | _, none => none
      | ws, some (pw, n) => if p.eta * n = 0 then none else some (ws.map fun w => w.wiring (pw / (p.eta * n))).sum
    wire.bind fun wiring => fuselage.map fun f =>
      let ww := (wings.map fun w => if w.symbolic then 0 else w.mass).sum
      let gear := p.mtow * 0.02
      let st := s.lift + s.props + s.hubs + f + gear + ww
      let e := p.contingency * (st + pax * 15 + 15 + pax * 7 + (s.liftMotors + s.propMotors) + s.servos + wiring + s.brs)
        + s.battery
      ⟨s, pax * 15, pax * 70, 15, gear, pax * 7, ww, wiring, f, st, e, e + s.payload + pax * 70⟩

/-- The vehicle's containers after `empty` (empty.py:105-127, 175, 327, 341-354): a network counts with its own mass, the
landing gear get an entry `mass` beside their `mass_properties`. -/
noncomputable def evWritten (o : EvOut) (netMass : ℝ) : List Node :=
  let c (m : ℝ) : Node := .comp m [⟨0, 0, 0⟩] ⟨0, 0, 0⟩ []
  [.box [c (o.fuselage + o.passengers + o.seats + o.wiring + o.s.brs)], .box [c o.wings], .box [c netMass],
   .box [c o.ecs, c 0, c 0], .box [c 0, c 0, c 0], .box [c 0, c 0]]

/-- The loop of `converge_evtol_weight` (converge_evtol_weight.py:63-83) with `n + 1` iterations left: the result and the
take-off mass left in the vehicle. -/
noncomputable def convLoop (F : ℝ → Option ℝ) : ℕ → ℝ → ℝ → Option (Bool × ℝ)
  | n, m, diff => open Classical in
    if 1 < |diff| then
      (F (m - diff)).bind fun b =>
        match n with
        | 0 => some (false, m - diff)
        | n + 1 => convLoop F n (m - diff) (m - diff - b)
    else some (true, m)

/-- `converge_evtol_weight` (converge_evtol_weight.py:17-83); `F` is the total of `empty` as a function of the take-off
mass. -/
noncomputable def converge (F : ℝ → Option ℝ) (m : ℝ) : Option (Bool × ℝ) :=
  (F m).bind fun b => convLoop F 99 m (m - b)

end Verif.Weights
