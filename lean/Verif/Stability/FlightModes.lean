import Mathlib.Analysis.SpecialFunctions.Complex.Arg
import Mathlib.Analysis.SpecialFunctions.Log.Basic

/-!
State-space flight dynamics from vortex-lattice derivatives,
`trunk/SUAVE/Methods/Flight_Dynamics/Dynamic_Stability/compute_dynamic_flight_modes.py`, and the finite-difference
derivatives of `trunk/SUAVE/Methods/Flight_Dynamics/Static_Stability/compute_aero_derivatives.py`. One case at a time.
The eigenvalue solver is not modelled: its results are arguments.
-/

namespace Verif.Stability
open Real

open Classical in
/-- Mass selection, `compute_dynamic_flight_modes.py` 72-77; `none` is the `AttributeError`. -/
noncomputable def selectMass (mass maxTakeoff : ℝ) : Option ℝ :=
  if mass = 0 then some maxTakeoff
  else if maxTakeoff = 0 then some mass
  else none

/-- Condition, reference quantities and derivatives read for the longitudinal matrix, lines 43-110. `mw` etc. are derived. -/
structure LonIn where
  g : ℝ
  ρ : ℝ
  u0 : ℝ
  θ0 : ℝ
  m : ℝ
  Iyy : ℝ
  S : ℝ
  c : ℝ
  AR : ℝ
  e : ℝ
  CL : ℝ
  CD : ℝ
  CXu : ℝ
  CZu : ℝ
  CLa : ℝ
  CLq : ℝ
  Cma : ℝ
  Cmq : ℝ
  CzaDot : ℝ
  CmaDot : ℝ

/-- Dimensional derivatives, lines 94-110 and 122-123. -/
structure LonDer where
  Xu : ℝ
  Xw : ℝ
  Xq : ℝ
  Zu : ℝ
  Zw : ℝ
  Zq : ℝ
  Mu : ℝ
  Mw : ℝ
  Mq : ℝ
  ZwDot : ℝ
  MwDot : ℝ

/-- See `LonDer`. Line 107 takes the pitch damping `Cm_q` for the speed derivative `Cmu`. -/
noncomputable def lonDer (i : LonIn) : LonDer :=
  let q := 0.5 * i.ρ * i.u0 ^ 2
  let Cw := i.m * i.g / (q * i.S)
  let Cxa := i.CL - 2 * i.CL / (π * i.AR * i.e) * i.CLa
  let Cza := -i.CD - i.CLa
  let Czq := -i.CLq
  let Cmu := i.Cmq
  { Xu := i.ρ * i.u0 * i.S * Cw * sin i.θ0 + 0.5 * i.ρ * i.u0 * i.S * i.CXu
    Xw := 0.5 * i.ρ * i.u0 * i.S * Cxa
    Xq := 0
    Zu := -i.ρ * i.u0 * i.S * Cw * cos i.θ0 + 0.5 * i.ρ * i.u0 * i.S * i.CZu
    Zw := 0.5 * i.ρ * i.u0 * i.S * Cza
    Zq := 0.25 * i.ρ * i.u0 * i.c * i.S * Czq
    Mu := 0.5 * i.ρ * i.u0 * i.c * i.S * Cmu
    Mw := 0.5 * i.ρ * i.u0 * i.c * i.S * i.Cma
    Mq := 0.25 * i.ρ * i.u0 * i.c * i.c * i.S * i.Cmq
    ZwDot := 0.25 * i.ρ * i.c * i.S * i.CzaDot
    MwDot := 0.25 * i.ρ * i.c * i.S * i.CmaDot }

/-- Small motion: speeds along and across the body, pitch rate and pitch. -/
structure LonState where
  u : ℝ
  w : ℝ
  q : ℝ
  θ : ℝ

/-- `ALon` applied to a state, lines 142-157. -/
noncomputable def lonRate (d : LonDer) (m g θ0 u0 Iyy : ℝ) (x : LonState) : LonState :=
  { u := d.Xu / m * x.u + d.Xw / m * x.w + d.Xq / m * x.q + -g * cos θ0 * x.θ
    w := d.Zu / (m - d.ZwDot) * x.u + d.Zw / (m - d.ZwDot) * x.w + (d.Zq + m * u0) / (m - d.ZwDot) * x.q +
      -m * g * sin θ0 / (m - d.ZwDot) * x.θ
    q := (d.Mu + d.MwDot * d.Zu / (m - d.ZwDot)) / Iyy * x.u + (d.Mw + d.MwDot * d.Zw / (m - d.ZwDot)) / Iyy * x.w +
      (d.Mq + d.MwDot * (d.Zq + m * u0) / (m - d.ZwDot)) / Iyy * x.q + -d.MwDot * m * g * sin θ0 / (Iyy * (m - d.ZwDot)) * x.θ
    θ := 0 * x.u + 0 * x.w + 1 * x.q + 0 * x.θ }

/-- The longitudinal matrix of one case as lines 54-157 assemble it: `AoA` comes from the results file in degrees
(`Methods/Aerodynamics/AVL/read_results.py` line 62) and line 54 uses the same number as the pitch angle `theta0` in radians. -/
noncomputable def lonCase (i : LonIn) (aoaDeg : ℝ) (x : LonState) : LonState :=
  lonRate (lonDer { i with θ0 := aoaDeg }) i.m i.g aoaDeg i.u0 i.Iyy x

/-- Inertias about stability axes, lines 198-206: `R * modI * R.T` on numpy arrays multiplies entry by entry. The tensor is
`[[ixx, ixz], [izx, izz]]`. -/
structure StabInertia where
  xx : ℝ
  xz : ℝ
  zz : ℝ

/-- See `StabInertia`; the angle is in degrees. -/
noncomputable def stabInertia (aoaDeg ixx ixz izz : ℝ) : StabInertia :=
  let a := aoaDeg * (π / 180)
  { xx := cos a * ixx * cos a, xz := -(-sin a * ixz * sin a), zz := cos a * izz * cos a }

/-- `Ixp`, `Izp`, `Ixzp`, lines 204-206. -/
structure Primed where
  x : ℝ
  z : ℝ
  xz : ℝ

/-- See `Primed`. -/
noncomputable def primed (i : StabInertia) : Primed :=
  { x := (i.xx * i.zz - i.xz ^ 2) / i.zz, z := (i.xx * i.zz - i.xz ^ 2) / i.xx, xz := i.xz / (i.xx * i.zz - i.xz ^ 2) }

/-- Lateral derivatives, lines 208-216. -/
structure LatDer where
  Yv : ℝ
  Yp : ℝ
  Yr : ℝ
  Lv : ℝ
  Lp : ℝ
  Lr : ℝ
  Nv : ℝ
  Np : ℝ
  Nr : ℝ

/-- Dimensional lateral derivatives from the coefficients `CY`, `Cl`, `Cn` by sideslip, roll and yaw rate, lines 208-216. -/
noncomputable def latDer (ρ u0 b S CYB CYp CYr ClB Clp Clr CnB Cnp Cnr : ℝ) : LatDer :=
  { Yv := 0.5 * ρ * u0 * S * CYB, Yp := 0.25 * ρ * u0 * b * S * CYp, Yr := 0.25 * ρ * u0 * b * S * CYr
    Lv := 0.5 * ρ * u0 * b * S * ClB, Lp := 0.25 * ρ * u0 * b ^ 2 * S * Clp, Lr := 0.25 * ρ * u0 * b ^ 2 * S * Clr
    Nv := 0.5 * ρ * u0 * b * S * CnB, Np := 0.25 * ρ * u0 * b ^ 2 * S * Cnp, Nr := 0.25 * ρ * u0 * b ^ 2 * S * Cnr }

/-- Side speed, roll and yaw rate, bank. -/
structure LatState where
  v : ℝ
  p : ℝ
  r : ℝ
  φ : ℝ

/-- `ALat` applied to a state, lines 233-248. -/
noncomputable def latRate (d : LatDer) (i : Primed) (m g θ0 u0 : ℝ) (x : LatState) : LatState :=
  { v := d.Yv / m * x.v + d.Yp / m * x.p + (d.Yr / m - u0) * x.r + g * cos θ0 * x.φ
    p := (d.Lv / i.x + i.xz * d.Nv) * x.v + (d.Lp / i.x + i.xz * d.Np) * x.p + (d.Lr / i.x + i.xz * d.Nr) * x.r + 0 * x.φ
    r := (i.xz * d.Lv + d.Nv / i.z) * x.v + (i.xz * d.Lp + d.Np / i.z) * x.p + (i.xz * d.Lr + d.Nr / i.z) * x.r + 0 * x.φ
    φ := 0 * x.v + 1 * x.p + tan θ0 * x.r + 0 * x.φ }

/-- Frequency in hertz, damping ratio and time to half or double amplitude of an oscillatory mode, lines 174-176, 180-182, 271-273. -/
structure ModeHz where
  freq : ℝ
  damp : ℝ
  time : ℝ

/-- See `ModeHz`. -/
noncomputable def modeHz (l : ℂ) : ModeHz :=
  let f := ‖l‖ / 2 / π
  let z := -cos (Complex.arg l)
  { freq := f, damp := z, time := log 2 / |2 * π * f * z| }

/-- Roll subsidence: frequency, damping and time constant, lines 285-287. -/
noncomputable def rollMode (l : ℂ) : ModeHz :=
  let f := ‖l‖ / 2 / π
  let z := -SignType.sign l.re
  { freq := f, damp := z, time := 1 / (2 * π * f * z) }

/-- Spiral: frequency, damping and time to half or double, lines 291-293. -/
noncomputable def spiralMode (l : ℂ) : ModeHz :=
  let f := ‖l‖ / 2 / π
  let z := -SignType.sign l.re
  { freq := f, damp := z, time := log 2 / |2 * π * f * z| }

open Classical in
/-- The search for the dutch roll, lines 267-278: the first pair of the four modes, in the order of the loops, with equal real parts;
after an unsuccessful search the loop variables are left at (2, 3). -/
noncomputable def findPair (l : Fin 4 → ℂ) : Fin 4 × Fin 4 :=
  if (l 0).re = (l 1).re then (0, 1)
  else if (l 0).re = (l 2).re then (0, 2)
  else if (l 0).re = (l 3).re then (0, 3)
  else if (l 1).re = (l 2).re then (1, 2)
  else if (l 1).re = (l 3).re then (1, 3)
  else (2, 3)

/-- The two indices left over, in increasing order (`np.setdiff1d`, line 282). -/
def restPair : Fin 4 × Fin 4 → Fin 4 × Fin 4
  | (0, 1) => (2, 3)
  | (0, 2) => (1, 3)
  | (0, 3) => (1, 2)
  | (1, 2) => (0, 3)
  | (1, 3) => (0, 2)
  | (2, 3) => (0, 1)
  | p => p

open Classical in
/-- Roll and spiral indices, lines 281-290: of the two left over the larger in modulus (the first in a tie) is the roll. -/
noncomputable def rollSpiral (l : Fin 4 → ℂ) : Fin 4 × Fin 4 :=
  let r := restPair (findPair l)
  if ‖l r.1‖ < ‖l r.2‖ then (r.2, r.1) else (r.1, r.2)

open Classical in
/-- A one-sided difference quotient as `compute_aero_derivatives.py` forms it for the angle of attack (lines 66-93): pitch is
multiplied by `1 + h`, the coefficient re-evaluated and the differences divided; `none` stands for `0/0`. `angle` is the angle of attack as a
function of pitch, `coef` the coefficient as a function of pitch. -/
noncomputable def relDifference (h : ℝ) (angle coef : ℝ → ℝ) (pitch : ℝ) : Option ℝ :=
  let plus := pitch * (1 + h)
  if angle plus - angle pitch = 0 then none else some ((coef plus - coef pitch) / (angle plus - angle pitch))

open Classical in
/-- The same with an absolute step, as for sideslip (`psi + h`, lines 107-143) and control deflection (`delta + 0.1`, lines 193-226). -/
noncomputable def absDifference (h : ℝ) (angle coef : ℝ → ℝ) (x : ℝ) : Option ℝ :=
  if angle (x + h) - angle x = 0 then none else some ((coef (x + h) - coef x) / (angle (x + h) - angle x))

/-- The speed differences of lines 244-257, entry by entry: the perturbed freestream speed, a column, minus the unperturbed velocity
vector, three columns. The perturbed freestream speed is the norm of the perturbed vector (its middle entry is kept). -/
noncomputable def speedDifference (h vx vy vz : ℝ) : ℝ × ℝ × ℝ :=
  let vmag := sqrt (vx ^ 2 + vy ^ 2 + vz ^ 2)
  let γ := Complex.arg ⟨vx, vz⟩
  let plus := vmag * (1 + h)
  let V := sqrt ((plus * cos γ) ^ 2 + vy ^ 2 + (plus * sin γ) ^ 2)
  (V - vx, V - vy, V - vz)

end Verif.Stability
