import Verif.Num.Interp1
import Mathlib.Analysis.SpecialFunctions.Pow.Real
import Mathlib.Analysis.SpecialFunctions.Trigonometric.Inverse
import Mathlib.Analysis.SpecialFunctions.Trigonometric.Arctan

/-!
Slipstream of rotors and design of propellers: `trunk/SUAVE/Methods/Propulsion/Rotor_Wake/Fidelity_Zero`,
`trunk/SUAVE/Analyses/Propulsion/Rotor_Wake_Fidelity_Zero.py` and `trunk/SUAVE/Methods/Propulsion/propeller_design.py`.
-/

namespace Verif.Rotor
open Real Verif.Num

/-- Development of the slipstream at the distance `s` behind the disc (compute_wake_contraction_matrix.py 43-44,
compute_fidelity_zero_induced_velocity.py 68-69). -/
noncomputable def develop (s R : ℝ) : ℝ := 1 + s / sqrt (s ^ 2 + R ^ 2)

/-- `Kv` (compute_wake_contraction_matrix.py 50-53) between stations `j` and `j+1`, for one control point and time step. -/
noncomputable def kv (VX Kd : ℝ) (va : ℕ → ℝ) (j : ℕ) : ℝ :=
  (2 * VX + (va (j + 1) + va j)) / (2 * VX + Kd * (va (j + 1) + va j))

/-- `r_prime` (compute_wake_contraction_matrix.py 55-60). -/
noncomputable def rPrime (R0 VX Kd : ℝ) (r va : ℕ → ℝ) : ℕ → ℝ
  | 0 => R0
  | j + 1 => sqrt (rPrime R0 VX Kd r va j ^ 2 + (r (j + 1) ^ 2 - r j ^ 2) * kv VX Kd va j)

/-- `wake_contraction` (compute_wake_contraction_matrix.py 62). -/
noncomputable def contraction (R0 VX Kd : ℝ) (r va : ℕ → ℝ) (j : ℕ) : ℝ := rPrime R0 VX Kd r va j / r j

/-- A rotor with its outputs at the first control point: origin (x and y), tip radius, sense of rotation, and the radial
stations with the axial and tangential induced velocities. -/
structure Disc where
  x : ℝ
  y : ℝ
  R : ℝ
  rotation : ℝ
  va : List (ℝ × ℝ)
  vt : List (ℝ × ℝ)

/-- `np.append(np.flip(hub - r), hub + r)` with `np.append(np.flipud(v), v)`: the table over the span of the disc
(compute_fidelity_zero_induced_velocity.py 54-57, 76-79). -/
def spanTable (y : ℝ) (l : List (ℝ × ℝ)) : List (ℝ × ℝ) :=
  (l.map fun p => (y - p.1, p.2)).reverse ++ l.map fun p => (y + p.1, p.2)

open Classical in
/-- Lines 60-62: the point lies behind the blades, inboard or outboard, strictly between the first and last station. -/
noncomputable def inRange (d : Disc) (py : ℝ) : Bool :=
  match d.va.head?, d.va.getLast? with
  | some a, some b =>
    decide (d.y - b.1 < py ∧ py < d.y - a.1) || decide (d.y + a.1 < py ∧ py < d.y + b.1)
  | _, _ => false

/-- Velocity that disc `d` writes at a point in its range (lines 68-93); `interp1d` raises no exception there, since the
points are inside the table, where it agrees with `np.interp`. -/
noncomputable def discVelocity (d : Disc) (px py : ℝ) : ℝ × ℝ × ℝ :=
  let kd := develop (px - d.x) d.R
  let va := npInterp (spanTable d.y d.va) py
  let vt := npInterp (spanTable d.y (d.vt.map fun p => (p.1, p.2 * d.rotation))) py
  (kd * va, 0, if py < d.y then -kd * vt else kd * vt)

/-- `compute_fidelity_zero_induced_velocity` at one point for control point `cp`: the loop over the rotors (43-93) writes
into row 0 only, each rotor over the former ones.  With `identical_flag` the outputs are those of the first rotor. -/
noncomputable def slipstream (identical : Bool) (ds : List Disc) (cp : ℕ) (px py : ℝ) : ℝ × ℝ × ℝ :=
  if cp = 0 then
    ds.foldl (fun v d =>
      let d' : Disc := match identical, ds.head? with
        | true, some e => { d with va := e.va, vt := e.vt }
        | _, _ => d
      if inRange d' py then discVelocity d' px py else v) (0, 0, 0)
  else (0, 0, 0)

/-- `evaluate_slipstream` (Rotor_Wake_Fidelity_Zero.py 117-135): the index of the wing in the slipstream, for the list of
wings (true for main wings).  When a wing is given, `wing_instance_idx` is never assigned and line 135 raises; without any
wing `wing` is undefined in line 131. -/
def slipWing (given : Bool) (wings : List Bool) : Option ℕ :=
  if given then none
  else
    match (List.range wings.length).filter (fun i => wings[i]? == some true) with
    | [] => if wings = [] then none else some (wings.length - 1)
    | l => l.getLast?

/-! ### Propeller design -/

/-- What the last pass of the design loop leaves (propeller_design.py 199-202). -/
structure Integrals where
  I1 : ℝ
  I2 : ℝ
  J1 : ℝ
  J2 : ℝ

/-- One station (propeller_design.py 139-147 and 191-195): contributions to the integrals, for the displacement velocity
ratio `ζ`, the station `χ` and the ratio `ε` of drag to lift. -/
structure Station where
  G : ℝ
  φ : ℝ
  i1 : ℝ
  i2 : ℝ
  j1 : ℝ
  j2 : ℝ

/-- See `Station`. -/
noncomputable def station (B R ω V ζ χ ε : ℝ) : Station :=
  let lamda := V / (ω * R)
  let x := ω * (χ * R) / V
  let tanphit := lamda * (1 + ζ / 2)
  let phit := arctan tanphit
  let tanphi := tanphit / χ
  let f := B / 2 * (1 - χ) / sin phit
  let F := 2 / π * arccos (exp (-f))
  let φ := arctan tanphi
  let G := F * x * cos φ * sin φ
  let i1 := 4 * χ * G * (1 - ε * tan φ)
  let i2 := lamda * (i1 / (2 * χ)) * (1 + ε / tan φ) * sin φ * cos φ
  let j1 := 4 * χ * G * (1 + ε / tan φ)
  let j2 := j1 / 2 * (1 - ε * tan φ) * cos φ ^ 2
  ⟨G, φ, i1, i2, j1, j2⟩

/-- Station `k` of `N` (propeller_design.py 104-106): `np.linspace(Rh/R,1,N+1)[0:N]`. -/
noncomputable def chi (R Rh : ℝ) (N k : ℕ) : ℝ := Rh / R + k * ((1 - Rh / R) / N)

/-- The integrals: sums with the constant width `chi[1]-chi[0]` (196-202). -/
noncomputable def integrals (B R Rh ω V ζ : ℝ) (N : ℕ) (ε : ℕ → ℝ) : Integrals :=
  let s := fun k => station B R ω V ζ (chi R Rh N k) (ε k)
  let d := chi R Rh N 1 - chi R Rh N 0
  ⟨∑ k ∈ Finset.range N, (s k).i1 * d, ∑ k ∈ Finset.range N, (s k).i2 * d, ∑ k ∈ Finset.range N, (s k).j1 * d,
    ∑ k ∈ Finset.range N, (s k).j2 * d⟩

/-- Chord and local speed of a station (propeller_design.py 148, 183-187). -/
noncomputable def designChord (B R ω V ζ χ ε Cl : ℝ) : ℝ × ℝ :=
  let s := station B R ω V ζ χ ε
  let Wc := 4 * π * (V / (ω * R)) * s.G * V * R * ζ / (Cl * B)
  let a := ζ / 2 * cos s.φ ^ 2 * (1 - ε * tan s.φ)
  let W := V * (1 + a) / sin s.φ
  (Wc / W, W)

/-- What the design stores (propeller_design.py 243-246, 264-267, 274). -/
structure Design where
  ζ : ℝ
  thrust : ℝ
  power : ℝ
  designThrust : ℝ
  designPower : ℝ
  torque : ℝ
  Ct : ℝ
  Cp : ℝ

/-- `propeller_design` after the loop (222-246, 264-267, 274), from the integrals of the last pass.  Exactly one of thrust
and power must be given (68-72); when the one given is zero neither branch is taken and `zetan` is undefined (217). -/
noncomputable def design (ρ V0 R ω : ℝ) (thrust power : Option ℝ) (q : Integrals) : Option Design :=
  let V := if V0 = 0 then 1e-6 else V0
  let n := ω / (2 * π)
  let D := 2 * R
  let fin (ζ dT dP : ℝ) (isThrust : Bool) : Design :=
    let Tc := q.I1 * ζ - q.I2 * ζ ^ 2
    let Pc := q.J1 * ζ + q.J2 * ζ ^ 2
    let T := Tc * ρ * V ^ 2 * π * R ^ 2 / 2
    let P := Pc * ρ * V ^ 3 * π * R ^ 2 / 2
    ⟨ζ, T, P, if isThrust then dT else T, if isThrust then P else dP, P / ω, T / (ρ * (n * n) * (D * D * D * D)),
      P / (ρ * (n * n * n) * (D * D * D * D * D))⟩
  match thrust, power with
  | some T, none =>
    let Tc := 2 * T / (ρ * (V * V) * π * (R * R))
    if Tc = 0 then none
    else
      let m := q.I2 * (q.I1 / (2 * q.I2)) ^ 2
      let Tcnew := if Tc ≥ m then m else Tc
      some (fin (q.I1 / (2 * q.I2) - sqrt ((q.I1 / (2 * q.I2)) ^ 2 - Tcnew / q.I2)) T 0 true)
  | none, some P =>
    let Pc := 2 * P / (ρ * (V * V * V) * π * (R * R))
    if Pc = 0 then none
    else some (fin (-(q.J1 / (2 * q.J2)) + sqrt ((q.J1 / (2 * q.J2)) ^ 2 + Pc / q.J2)) 0 P false)
  | _, _ => none

end Verif.Rotor
