import Verif.Rotor.Blade
import Verif.Rotor.Wake
import Verif.Vlm.Horseshoe
import Mathlib.Data.Real.Sign

/-!
Vortex wake of a rotor: `trunk/SUAVE/Methods/Propulsion/Rotor_Wake/Fidelity_One/generate_fidelity_one_wake_shape.py`,
`compute_wake_induced_velocity.py`, `compute_fidelity_one_inflow_velocities.py`, `fidelity_one_wake_convergence.py`,
`trunk/SUAVE/Analyses/Propulsion/Rotor_Wake_Fidelity_One.py`, `Rotor_Wake_Fidelity_Two.py`.

Arrays are functions of their indices, for one control point.  `float32` rounding is not modelled.
-/

namespace Verif.Rotor.Vortex
open Real Verif.Rotor Verif.Vlm

/-- What the shape of the wake is made of, at one control point.  `ω₁` is the speed at the first control point, `ω` the one
at this control point; `va` is the induced velocity by radial and azimuthal station; `te` and `le` are the last and the first
point of the upper surface of the airfoil at each station, in chords; `M` the rotation matrix of the orientation. -/
structure Shape where
  R : ℝ
  hub : ℝ
  r : ℕ → ℝ
  chord : ℕ → ℝ
  twist : ℕ → ℝ
  pitch : ℝ
  B : ℕ
  Na : ℕ
  Nr : ℕ
  ω₁ : ℝ
  ω : ℝ
  V : Fin 3 → ℝ
  va : ℕ → ℕ → ℝ
  circ : ℕ → ℕ → ℝ
  rot : ℝ
  origin : Vec3
  offset : ℝ
  te : ℕ → ℝ × ℝ
  le : ℕ → ℝ × ℝ
  M : Matrix (Fin 3) (Fin 3) ℝ

namespace Shape
variable (w : Shape)

/-- `dt` (generate_fidelity_one_wake_shape.py 61, 71). -/
noncomputable def dt : ℝ := (2 * π * 1 / w.Na - 2 * π * 0 / w.Na) / w.ω₁

/-- `ts` (75): the age of the wake at step `k`. -/
noncomputable def age (k : ℕ) : ℝ := k * w.dt

/-- `start_angle` (79-81). -/
noncomputable def start : ℝ := w.ω₁ * (w.dt * w.offset)

/-- `blade_angles` (61-63): blade `b` when the first blade is at azimuthal station `i`. -/
noncomputable def bladeAngle (i b : ℕ) : ℝ := 2 * π * b / w.B + 2 * π * i / w.Na

/-- `panel_azimuthal_positions` (130-137). -/
noncomputable def panelAngle (i b k : ℕ) : ℝ := w.rot * (w.ω * w.age k - (w.start + w.bladeAngle i b))

/-- `axial_induced_velocity` (84). -/
noncomputable def vbar (j : ℕ) : ℝ := meanAz w.Na (w.va j)

/-- `wake_skew_angle` (85-97); the rows of `body_to_prop_vel` are used. -/
noncomputable def skew : ℝ :=
  let rots := bodyToProp w.M
  let v := (∑ j ∈ Finset.range w.Nr, w.vbar j) / w.Nr
  let lam := (∑ a, w.V a * rots 0 a + v) / (w.ω * w.R)
  let mu := (∑ a, w.V a * rots 2 a) / (w.ω * w.R);
  -arctan (mu / lam)

/-- `V_prop` (91-93). -/
noncomputable def speed (j : ℕ) : ℝ := sqrt ((w.V 0 + w.vbar j) ^ 2 + w.V 2 ^ 2)

/-- `sx_inf`, `sy_inf`, `sz_inf` (118-127). -/
noncomputable def drift (j k : ℕ) : Vec3 :=
  ⟨w.speed j * cos w.skew * w.age k, -w.rot * (w.V 1 * w.age k), w.speed j * sin w.skew * w.age k⟩

/-- `c` and `beta` with the sense of rotation (53-54). -/
noncomputable def c (j : ℕ) : ℝ := -w.rot * w.chord j
@[inherit_doc c] noncomputable def beta (j : ℕ) : ℝ := -w.rot * (w.twist j + w.pitch)

/-- A point of the section, turned by the pitch of the blade (165-169). -/
noncomputable def twisted (j : ℕ) (p : ℝ × ℝ) : ℝ × ℝ :=
  (cos (w.beta j) * p.1 - sin (w.beta j) * p.2, sin (w.beta j) * p.1 + cos (w.beta j) * p.2)

/-- `xte_twisted`, `yte_twisted` (156-158, 165-166). -/
noncomputable def trailing (j : ℕ) : ℝ × ℝ :=
  w.twisted j ((w.te j).1 * w.c j + -w.c j / 2, (w.te j).2 * w.c j)

/-- `x_c_4_twisted`, `y_c_4_twisted` (159-162, 168-169). -/
noncomputable def quarter (j : ℕ) : ℝ × ℝ :=
  let off := -w.c j / 2
  let xte := (w.te j).1 * w.c j + off
  let yte := (w.te j).2 * w.c j
  let xle := (w.le j).1 * w.c j + off
  let yle := (w.le j).2 * w.c j
  w.twisted j ((xle - xte) / 4 - off, (yle - yte) / 4)

/-- `x_pts0`, `y_pts0`, `z_pts0` (172-185): the trailing edge of blade `b`, relative to the hub, where it was `k` steps ago. -/
noncomputable def edge (i b j k : ℕ) : Vec3 :=
  let φ := w.panelAngle i b k
  let p := w.trailing j
  ⟨p.2, w.r j * sin φ + -p.1 * cos φ, w.r j * cos φ + p.1 * sin φ⟩

/-- `x_c_4_rotor`, `y_c_4_rotor`, `z_c_4_rotor` (187-189): the quarter chord, relative to the hub. -/
noncomputable def bound (i b j k : ℕ) : Vec3 :=
  let φ := w.panelAngle i b k
  let p := w.quarter j
  ⟨0 - p.2, w.r j * sin φ + p.1 * cos φ, w.r j * cos φ - p.1 * sin φ⟩

/-- `wake_contraction` (192-193; compute_wake_contraction_matrix.py 43-62): the distance behind the disc is that of the last
station of the first blade, `X_pts0` less the `x` of the hub. -/
noncomputable def narrow (j k : ℕ) : ℝ :=
  let s := ((w.edge 0 0 (w.Nr - 1) k).x + (w.drift (w.Nr - 1) k).x) - w.origin.x
  contraction w.hub (w.V 0) (develop s w.R) w.r w.vbar j

/-- `X_pts`, `Y_pts`, `Z_pts` after lines 192-200: the wake without the quarter chord. -/
noncomputable def shed (i b j k : ℕ) : Vec3 :=
  let e := w.edge i b j k
  let d := w.drift j k
  ⟨w.origin.x + (e.x + d.x), w.origin.y + (e.y * w.narrow j k + d.y), w.origin.z + (e.z * w.narrow j k + d.z)⟩

/-- `X_pts`, `Y_pts`, `Z_pts` after lines 205-212: the quarter chord comes first. -/
noncomputable def grid (i b j : ℕ) : ℕ → Vec3
  | 0 => ⟨(w.bound i b j 0).x + w.origin.x, (w.bound i b j 0).y + w.origin.y, (w.bound i b j 0).z + w.origin.z⟩
  | k + 1 => w.shed i b j k

open Classical in
/-- Corners `A1`, `B1`, `B2`, `A2` of the panel between stations `j` and `j + 1` of age `k` (223-250). -/
noncomputable def corners (i b j k : ℕ) : Vec3 × Vec3 × Vec3 × Vec3 :=
  if w.rot = -1 then (w.grid i b j k, w.grid i b (j + 1) k, w.grid i b (j + 1) (k + 1), w.grid i b j (k + 1))
  else (w.grid i b (j + 1) k, w.grid i b j k, w.grid i b j (k + 1), w.grid i b (j + 1) (k + 1))

/-- `B_loc` (102-110): `(ito + b * (Na // B) - t) % Na`. -/
def shedAt (i b k : ℕ) : ℕ := (((i : ℤ) + b * ((w.Na / w.B : ℕ) : ℤ) - k) % (w.Na : ℤ)).toNat

/-- `Gamma` (100-113). -/
noncomputable def gamma (i b j k : ℕ) : ℝ := (w.circ j (w.shedAt i b k) + w.circ (j + 1) (w.shedAt i b k)) * 0.5

end Shape

/-! ### Induced velocity -/

open Classical in
/-- `COEF` of `vortex` before the kernel (compute_wake_induced_velocity.py 113-136).  At an end of the segment the code
divides zero by zero; the value there is not the code's. -/
noncomputable def coef (A B P : Vec3) : Vec3 :=
  let n := Vec3.cross (P - A) (P - B)
  let sq := n.x ^ 2 + n.y ^ 2 + n.z ^ 2
  let sq := if sq = 0 then 1e-8 else sq
  let r1 := (P - A).norm
  let r2 := (P - B).norm
  let t := Vec3.dot (B - A) (P - A) / r1 - Vec3.dot (B - A) (P - B) / r2
  ⟨1 / (4 * π) * (n.x / sq) * t, 1 / (4 * π) * (n.y / sq) * t, 1 / (4 * π) * (n.z / sq) * t⟩

open Classical in
/-- `regularization_kernel` (187-204), applied to each component. -/
noncomputable def kernel (σ c : ℝ) : ℝ :=
  let m := if |c| ≤ 1e-8 then 1e-8 else |c|
  let R2 := 1 / (4 * π * m)
  let s := R2 / σ ^ 2
  let num := sqrt R2 * (s + 5 / 2)
  let den := 4 * π * σ ^ 3 * (s + 1) ^ ((5 : ℝ) / 2)
  let den := if den = 0 then 1e-8 else den
  num / den * Real.sign c

/-- Velocity of a segment of unit circulation (`vortex` with the kernel, 139-140, 154). -/
noncomputable def seg (σ : ℝ) (A B P : Vec3) : Fin 3 → ℝ :=
  ![kernel σ (coef A B P).x, kernel σ (coef A B P).y, kernel σ (coef A B P).z]

open Classical in
/-- One vortex ring (66-82); the leading segment of the rings next to the blade is left out (142-151). -/
noncomputable def ring (σ Γ : ℝ) (lead : Bool) (q : Vec3 × Vec3 × Vec3 × Vec3) (P : Vec3) : Fin 3 → ℝ :=
  Γ • (if lead then 0 else seg σ q.1 q.2.1 P) + Γ • seg σ q.2.1 q.2.2.1 P + Γ • seg σ q.2.2.1 q.2.2.2 P
    + Γ • seg σ q.2.2.2 q.1 P

/-- `compute_wake_induced_velocity` (82) at one point, for the wake with the first blade at station `i` and `n` time steps. -/
noncomputable def induced (w : Shape) (σ : ℝ) (n i : ℕ) (P : Vec3) : Fin 3 → ℝ :=
  ∑ b ∈ Finset.range w.B, ∑ j ∈ Finset.range (w.Nr - 1), ∑ k ∈ Finset.range n,
    ring σ (w.gamma i b j k) (k == 0) (w.corners i b j k) P

/-! ### Velocity at the blades -/

/-- `blade_angle` (compute_fidelity_one_inflow_velocities.py 55-57, 65). -/
noncomputable def inflowAngle (w : Shape) (i : ℕ) : ℝ :=
  -w.rot * (w.ω₁ * (2 * π / (w.Na + 1) / w.ω₁ * w.offset) + i * (2 * π / w.Na))

/-- Middle of two stations (76-78, 99). -/
noncomputable def mid (r : ℕ → ℝ) (j : ℕ) : ℝ := (r (j + 1) + r j) / 2

/-- `interp1d(r_midpts, u, fill_value="extrapolate")` at station `j` of `Nr` (99-106), for increasing stations: a station
lies between two middles, and the first and the last are extrapolated from the nearest pair. -/
noncomputable def atStation (Nr : ℕ) (r u : ℕ → ℝ) (j : ℕ) : ℝ :=
  let k := min (max j 1) (Nr - 2)
  u (k - 1) + (u k - u (k - 1)) / (mid r k - mid r (k - 1)) * (r j - mid r (k - 1))

/-- `Vt` (110). -/
noncomputable def tangential (rot ψ v z : ℝ) : ℝ := -rot * (v * cos ψ - z * sin ψ)

/-! ### Convergence of the shape -/

section loop
variable {D V : Type}

/-- The while loop of `fidelity_one_wake_convergence` (56-78) with at most `n` turns.  `step` makes the wake shape of the
disc velocities and returns the induced velocities and the new disc velocities; the result also counts the turns. -/
noncomputable def turns (step : D → V × D) (diff : D → D → ℝ) (tol : ℝ) : ℕ → D → V × D × ℕ
  | 0, d => let s := step d; (s.1, s.2, 1)
  | 1, d => let s := step d; (s.1, s.2, 1)
  | n + 2, d =>
    let s := step d
    open Classical in
    if diff s.2 d > tol then let t := turns step diff tol (n + 1) s.2; (t.1, t.2.1, t.2.2 + 1)
    else (s.1, s.2, 1)

open Classical in
/-- `fidelity_one_wake_convergence` (36-83): `none` when the loop is not entered, where `va` is never assigned.  The second
component is the disc velocity from which the returned wake is made (81). -/
noncomputable def converge (step : D → V × D) (diff : D → D → ℝ) (tol : ℝ) (semi : Bool) (imax : ℕ) (d : D) :
    Option (V × D × ℕ) :=
  if 1 > tol then some (turns step diff tol (if semi then imax else 1) d) else none

end loop

/-! ### Moving wakes -/

/-- The arrays of a wake: names with the buffers that hold them, directly and under `reshaped_wake`, and the contents of
each buffer (one number stands for all entries, since all are moved alike). -/
structure Arrays where
  top : List (String × ℕ)
  reshaped : List (String × ℕ)
  mem : ℕ → ℝ

open Classical in
/-- The offset added to an array (`'X' in mat`, Rotor_Wake_Fidelity_One.py 265-278). -/
noncomputable def offsetOf (o : Vec3) (name : String) : Option ℝ :=
  if 'X' ∈ name.toList then some o.x
  else if 'Y' ∈ name.toList then some o.y
  else if 'Z' ∈ name.toList then some o.z
  else none

/-- `wVD[mat] += offset[i]`, in place. -/
noncomputable def moveOne (o : Vec3) (mem : ℕ → ℝ) (a : String × ℕ) : ℕ → ℝ :=
  match offsetOf o a.1 with
  | some d => Function.update mem a.2 (mem a.2 + d)
  | none => mem

/-- `shift_wake_VD` (265-281). -/
noncomputable def shift (o : Vec3) (a : Arrays) : Arrays :=
  { a with mem := (a.top ++ a.reshaped).foldl (moveOne o) a.mem }

/-- Offsets of the copied wakes in the networks with identical rotors: the forward propellers (Battery_Propeller.py 228-238,
Lift_Cruise.py 255-264), `p` a propeller and `prop` the one that was evaluated. -/
noncomputable def copyOffset (p prop : Vec3) : Vec3 := p - prop

/-- The lift rotors (Lift_Cruise.py 374-383): the offset is that of the last forward propeller `p`, whatever the rotor. -/
noncomputable def liftOffset (_r _lift p prop : Vec3) : Vec3 := p - prop

/-! ### Slipstream on a wing -/

/-- `extract_wing_collocation_points` (extract_wing_VD.py 50-66): first and last panel of wing `idx`; `sym` tells the
symmetric wings, `n` the panels of each semispan. -/
def panelRange (sym : List Bool) (n : List ℕ) (idx : ℕ) : Option (ℕ × ℕ) :=
  match sym[idx]? with
  | none => none
  | some s =>
    let semi := idx + (sym.take idx).count true
    let fin := semi + 1 + (if s then 1 else 0)
    if fin ≤ n.length then some ((n.take semi).sum, (n.take fin).sum) else none

open Classical in
/-- `evaluate_slipstream` (Rotor_Wake_Fidelity_One.py 181-209): the velocity at panel `cp` of the vehicle, `v` the velocity of
the wake at each panel. -/
noncomputable def slipAt (given : Bool) (mains sym : List Bool) (n : List ℕ) (v : ℕ → Fin 3 → ℝ) (cp : ℕ) : Option (Fin 3 → ℝ) :=
  match slipWing given mains with
  | none => none
  | some idx =>
    match panelRange sym n idx with
    | none => none
    | some (a, b) => some (if a ≤ cp ∧ cp < b then v cp else 0)

/-! ### External inflow -/

open Classical in
/-- Azimuthal interpolation of an external inflow (Rotor_Wake_Fidelity_Two.py 80-97) at station `j` of `Na`, from `u` at
`Ne` stations; `interp1d` raises outside its table. -/
noncomputable def external (Ne Na : ℕ) (u : ℕ → ℝ) (j : ℕ) : Option ℝ :=
  if Ne = Na then some (u j)
  else if 2 * π * ((Na - 1 : ℕ) : ℝ) / Na > 2 * π * ((Ne - 1 : ℕ) : ℝ) / Ne then none
  else
    let x : ℝ := (j : ℝ) * Ne / Na
    let k := ⌊x⌋₊
    some (if (k : ℝ) = x then u k else u k + (u (k + 1) - u k) * (x - k))

end Verif.Rotor.Vortex
