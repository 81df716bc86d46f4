import Mathlib.Analysis.SpecialFunctions.Pow.Real
import Mathlib.Analysis.SpecialFunctions.Trigonometric.Inverse
import Mathlib.Analysis.SpecialFunctions.Trigonometric.Arctan
import Mathlib.Analysis.SpecialFunctions.Complex.Arg
import Mathlib.LinearAlgebra.Matrix.Notation
import Mathlib.Data.Matrix.Mul

/-!
Blade element analysis of rotors: `trunk/SUAVE/Components/Energy/Converters/Rotor.py`,
`trunk/SUAVE/Methods/Aerodynamics/Common/Fidelity_Zero/Lift/BET_calculations.py` and
`trunk/SUAVE/Methods/Propulsion/Rotor_Wake/Fidelity_Zero`.

One control point (row) at a time; radial station `i < n`, azimuthal station `j < Na`.  Arrays are functions of the
index.  Whatever python computes by a root finder (`fsolve`) is an arbitrary number here.
-/

namespace Verif.Rotor
open Real

/-! ### Radial integration -/

/-- Widths of the radial stations (Rotor.py 270-274).  Python fails for fewer than two stations; the theorems ask for two. -/
noncomputable def deltar (n : ℕ) (r : ℕ → ℝ) (i : ℕ) : ℝ :=
  if i = 0 then (r 1 - r 0) / 2
  else if i = n - 1 then (r (n - 1) - r (n - 2)) / 2
  else (r i - r (i - 1)) / 2 + (r (i + 1) - r i) / 2

/-- Azimuth of station `j`: `np.linspace(0,2*pi,Na+1)[:-1]` (Rotor.py 289). -/
noncomputable def azimuth (Na j : ℕ) : ℝ := 2 * π * j / Na

/-! ### Velocities seen by the blade -/

/-- Velocity of the vehicle in the frame of the rotor, `V_thrust` (Rotor.py 262). -/
structure Flow where
  x : ℝ
  y : ℝ
  z : ℝ

/-- `V[V==0.0] = 1E-6` (Rotor.py 265-266); `V` is a view, so that `V_thrust` changes too. -/
noncomputable def axial (f : Flow) : ℝ := if f.x = 0 then 1e-6 else f.x

/-- The test of line 306: does any row have a cross flow, and is the analysis two dimensional? -/
noncomputable def crossUsed (rows : List Flow) (use2d : Bool) : Bool :=
  open Classical in
  (decide (∃ f ∈ rows, |f.y| > 1e-3) || decide (∃ f ∈ rows, |f.z| > 1e-3)) && use2d

/-- Tangential and radial velocity of the cross flow (Rotor.py 319-325). -/
noncomputable def crossT (f : Flow) (ψ : ℝ) : ℝ := -f.z * sin ψ + -f.y * cos ψ

/-- See `crossT`. -/
noncomputable def crossR (f : Flow) (ψ : ℝ) : ℝ := f.z * cos ψ + f.y * sin ψ

/-- Velocities added by the user, `axial_velocities_2d` and so on (Rotor.py 334-336), for one row. -/
structure Disturbance where
  a : ℕ → ℕ → ℝ
  t : ℕ → ℕ → ℝ
  r : ℕ → ℕ → ℝ

/-- What the blade sees before induction (Rotor.py 348, 374, 378-379). -/
structure Seen where
  Ua : ℝ
  Ut : ℝ
  U : ℝ

/-- Rotor.py 294-379 for one row `f` of `rows`: whether the analysis is two dimensional, and the velocities at station
`i`, `j`.  `use2d` is `self.use_2d_analysis` or the presence of a fidelity one wake (227-228); `nonuniform` holds the
velocities of a nonuniform freestream.  With a swept blade line 296 calls `np.repeat(sweep[:, None], (1,Na))`: two repeat
counts for an array of `Nr` elements raise an exception, also when `Nr` is 2, because then the result has `1+Na` elements
and does not fit the division of line 297. -/
noncomputable def seen (rows : List Flow) (f : Flow) (swept use2d : Bool) (nonuniform : Option Disturbance) (ω : ℝ)
    (r : ℕ → ℝ) (Na : ℕ) : Option (Bool × (ℕ → ℕ → Seen)) :=
  if swept then none
  else
    let cross := crossUsed rows use2d
    let add : ℕ → ℕ → ℝ × ℝ × ℝ := fun i j =>
      match nonuniform with
      | some d => (d.a i j, d.t i j, d.r i j)
      | none => (0, 0, 0)
    let ut : ℕ → ℕ → ℝ := fun i j => (if cross then crossT f (azimuth Na j) else 0) + (add i j).2.1
    let ur : ℕ → ℕ → ℝ := fun i j => (if cross then crossR f (azimuth Na j) else 0) + (add i j).2.2
    let ua : ℕ → ℕ → ℝ := fun i j => (add i j).1
    some (use2d || nonuniform.isSome, fun i j =>
      let Ua := axial f + ua i j
      let Ut := ω * r i - ut i j
      ⟨Ua, Ut, sqrt (Ua * Ua + Ut * Ut + ur i j * ur i j)⟩)

/-! ### Induced velocity -/

/-- Velocity at the disc for the parameter `ψ` of the wake (fidelity_zero_wake_convergence.py 122-125 and 185-188). -/
noncomputable def wake (s : Seen) (ψ : ℝ) : ℝ × ℝ :=
  (0.5 * s.Ua + 0.5 * s.U * sin ψ, 0.5 * s.Ut + 0.5 * s.U * cos ψ)

/-- `va_vt` (fidelity_zero_wake_convergence.py 185-192). -/
noncomputable def induced (s : Seen) (ψ : ℝ) : ℝ × ℝ := ((wake s ψ).1 - s.Ua, s.Ut - (wake s ψ).2)

/-- Inflow ratio of `compute_inflow_and_tip_loss` (BET_calculations.py 143-144). -/
noncomputable def inflow (r R Wa Wt : ℝ) : ℝ := if r * Wa / (R * Wt) ≤ 0 then 1e-12 else r * Wa / (R * Wt)

/-- The exponential `piece` of `compute_inflow_and_tip_loss` (146-148), with the exponents left at their default 1. -/
noncomputable def tipPiece (r R lam B : ℝ) : ℝ := exp (-(B / 2 * (R / r - 1) / lam))

/-- `Ftip` (BET_calculations.py 149). For a piece above one numpy returns nan. -/
noncomputable def tipLoss (r R lam B : ℝ) : ℝ := 2 * arccos (tipPiece r R lam B) / π

/-- Circulation of the wake, line 135 of fidelity_zero_wake_convergence.py. -/
noncomputable def wakeGamma (vt r R B lam F : ℝ) : ℝ :=
  vt * (4 * π * r / B) * F * sqrt (1 + 4 * lam * R / (π * B * r) * (4 * lam * R / (π * B * r)))

/-- Circulation of the blade element (Rotor.py 412 and BET_calculations.py 54). -/
noncomputable def bladeGamma (Wa Wt c Cl : ℝ) : ℝ := 0.5 * sqrt (Wa * Wa + Wt * Wt) * c * Cl

/-- The residual given to `fsolve` (fidelity_zero_wake_convergence.py 122-136) at one station; `cl` is the lift
coefficient as a function of the velocities at the disc. -/
noncomputable def residual (s : Seen) (r R B c : ℝ) (cl : ℝ → ℝ → ℝ) (ψ : ℝ) : ℝ :=
  let w := wake s ψ
  let lam := inflow r R w.1 w.2
  wakeGamma (induced s ψ).2 r R B lam (tipLoss r R lam B) - bladeGamma w.1 w.2 c (cl w.1 w.2)

/-! ### Section -/

/-- Largest lift coefficient of the default section (BET_calculations.py 86-90). -/
noncomputable def clMax (tc Re : ℝ) : ℝ :=
  let t := tc * 100
  let ref := -0.0009 * t ^ 3 + 0.0217 * t ^ 2 - 0.0442 * t + 0.7005
  (if ref < 0.7 then 0.7 else ref) * (Re / (9 * 10 ^ 6)) ^ (0.1 : ℝ)

/-- Karman-Tsien correction (BET_calculations.py 100-101). -/
noncomputable def karmanTsien (Ma Cl : ℝ) : ℝ :=
  if Ma < 1 ∧ 0 < Cl then
    Cl / (sqrt (1 - Ma * Ma) + Ma * Ma / (1 + sqrt (1 - Ma * Ma)) * Cl / 2)
  else Cl

/-- Lift coefficient of the default section (BET_calculations.py 93-104), before line 112. -/
noncomputable def clDefault (tc α Ma Re : ℝ) : ℝ :=
  let cl := 2 * π * α
  let cl := if cl > clMax tc Re then clMax tc Re else cl
  let cl := if α ≥ π / 2 then 0 else cl
  karmanTsien Ma cl

/-- Drag polar of the default section (BET_calculations.py 107). -/
noncomputable def polar (Cl : ℝ) : ℝ := 0.108 * Cl ^ 4 - 0.2612 * Cl ^ 3 + 0.181 * Cl ^ 2 - 0.0139 * Cl + 0.0278

/-- Drag coefficient of the default section (BET_calculations.py 107-108). -/
noncomputable def cdDefault (α Re Cl : ℝ) : ℝ := if α ≥ π / 2 then 2 else polar Cl * (50000 / Re) ^ (0.2 : ℝ)

/-- Line 112: no lift coefficient is exactly zero. -/
noncomputable def nonzero (Cl : ℝ) : ℝ := if Cl = 0 then 1e-6 else Cl

/-- The default section at one station (BET_calculations.py 53-56 and 86-112): lift and drag coefficient, angle of attack,
Mach number and speed.  `np.arctan2(Wa,Wt)` is the argument of `Wt + i Wa`. -/
structure Section where
  Cl : ℝ
  Cd : ℝ
  α : ℝ
  Ma : ℝ
  W : ℝ

/-- See `Section`. -/
noncomputable def sectionDefault (β c Wa Wt a ν tc : ℝ) : Section :=
  let α := β - Complex.arg ⟨Wt, Wa⟩
  let W := sqrt (Wa * Wa + Wt * Wt)
  let Ma := W / a
  let Re := W * c / ν
  let Cl := clDefault tc α Ma Re
  ⟨nonzero Cl, cdDefault α Re Cl, α, Ma, W⟩

/-- The thickness used at station `i`, `j` by lines 86-90: the array `tc` of length `Nr` is broadcast against `Re`, along its
last axis.  In the one-dimensional analysis that axis is the radius, in the two-dimensional one the azimuth: there the
lengths must agree (or one of the thicknesses be the only one). -/
def thicknessAt (is2d : Bool) (Nr Na : ℕ) (tc : ℕ → ℝ) (i j : ℕ) : Option ℝ :=
  if is2d then
    if Nr = Na then some (tc j) else if Nr = 1 then some (tc 0) else if Na = 1 then some (tc i) else none
  else some (tc i)

/-- Factor on the drag for compressibility (Rotor.py 422-426). -/
noncomputable def dragFactor (T Ma : ℝ) : ℝ :=
  let Tw := 1 + 1.78 * (Ma * Ma)
  let Tp := 1 + 0.035 * (Ma * Ma) + 0.45 * (Tw - 1)
  let Rp := Tp ^ (2.5 : ℝ) * (Tp * T + 110.4) / (T + 110.4)
  1 / Tp * (1 / Rp) ^ (0.2 : ℝ)

/-! ### Loads and totals -/

/-- Thrust and torque of one blade per unit of radius (Rotor.py 412, 428, 434-435).  `Cl` is never zero (line 112 of
BET_calculations.py), so line 429 has no effect. -/
structure Load where
  dT : ℝ
  dQ : ℝ

/-- See `Load`. -/
noncomputable def load (ρ c r Wa Wt Cl Cd : ℝ) : Load :=
  let Γ := bladeGamma Wa Wt c Cl
  let ε := Cd / Cl
  ⟨ρ * (Γ * (Wt - ε * Wa)), ρ * (Γ * (Wa + ε * Wt) * r)⟩

/-- Mean over the azimuth, `np.mean(..., axis=2)`. -/
noncomputable def meanAz (Na : ℕ) (f : ℕ → ℝ) : ℝ := (∑ j ∈ Finset.range Na, f j) / Na

/-- Total of a distribution per unit of radius (Rotor.py 432-433, 457-458, 495-496): each station is multiplied by its width,
averaged over the azimuth in the two-dimensional analysis, summed and multiplied by the number of blades.  In the
one-dimensional analysis the arrays have no azimuth; `f i 0` is their value. -/
noncomputable def total (is2d : Bool) (B : ℝ) (n Na : ℕ) (r : ℕ → ℝ) (f : ℕ → ℕ → ℝ) : ℝ :=
  B * ∑ i ∈ Finset.range n,
    if is2d then meanAz Na fun j => f i j * deltar n r i else f i 0 * deltar n r i

/-- In-plane force (Rotor.py 463-466, 487-492, 497); the arrays of the one-dimensional analysis are repeated over the
azimuth. -/
noncomputable def rotorDrag (is2d : Bool) (B ρ ω : ℝ) (n Na : ℕ) (r c : ℕ → ℝ) (Cl Cd : ℕ → ℕ → ℝ) : ℝ :=
  B * ∑ i ∈ Finset.range n, meanAz Na fun j =>
    let k := if is2d then j else 0
    let dL := 0.5 * ρ * c i * Cd i k * (ω * r i) ^ 2 * deltar n r i
    let dD := 0.5 * ρ * c i * Cl i k * (ω * r i) ^ 2 * deltar n r i
    dL * sin (azimuth Na j) + dD * cos (azimuth Na j)

/-- What `spin` reports for one row, apart from distributions. -/
structure Report where
  thrust : ℝ
  power : ℝ
  torque : ℝ
  drag : ℝ
  Ct : ℝ
  Cp : ℝ
  Cq : ℝ
  Crd : ℝ
  etap : ℝ
  FoM : ℝ

/-- Rotor.py 495-525 for one row: `T0`, `Q0`, `H0` are the totals of thrust, torque and rotor drag. Divisions by zero (nan in
python) are zero here: with `ω = 0` the torque and drag coefficients and the figure of merit are nan in python. -/
noncomputable def report (ρ V ω R Rh throttle T0 Q0 H0 : ℝ) : Report :=
  let P0 := ω * Q0
  let n := ω / (2 * π)
  let D := 2 * R
  let Cq := Q0 / (ρ * (n * n) * (D * D * D * D * D))
  let Ct := T0 / (ρ * (n * n) * (D * D * D * D))
  let Cp := P0 / (ρ * (n * n * n) * (D * D * D * D * D))
  let A := π * (R ^ 2 - Rh ^ 2)
  let off (x : ℝ) := if ω = 0 then 0 else if throttle ≤ 0 then 0 else x
  { thrust := if ω = 0 then 0 else if ω < 0 then -(off T0) else off T0
    power := off P0
    torque := off Q0
    drag := off H0
    Cq := if Cq < 0 then 0 else Cq
    Ct := if ω = 0 then 0 else if Ct < 0 then 0 else Ct
    Cp := if ω = 0 then 0 else if Cp < 0 then 0 else Cp
    Crd := H0 / (ρ * (n * n) * (D * D * D * D))
    etap := if ω = 0 then 0 else V * T0 / P0
    FoM := T0 * sqrt (T0 / (2 * ρ * A)) / P0 }

/-! ### Orientation -/

/-- Rotation by `θ` about the second axis, `Rotation.from_rotvec([0,θ,0]).as_matrix()`. -/
noncomputable def rotY (θ : ℝ) : Matrix (Fin 3) (Fin 3) ℝ := !![cos θ, 0, sin θ; 0, 1, 0; -sin θ, 0, cos θ]

/-- `body_to_prop_vel` (Rotor.py 637-655); `M` is the rotation matrix scipy makes of the orientation angles. -/
noncomputable def bodyToProp (M : Matrix (Fin 3) (Fin 3) ℝ) : Matrix (Fin 3) (Fin 3) ℝ := rotY π * M * rotY π

/-- `V_thrust` (Rotor.py 259-262): the matrix is transposed once. -/
noncomputable def rotorVelocity (M : Matrix (Fin 3) (Fin 3) ℝ) (v : Fin 3 → ℝ) : Fin 3 → ℝ :=
  (bodyToProp M).transpose.mulVec v

/-- `thrust_vector` (Rotor.py 529-531): the transpose is transposed again. -/
noncomputable def thrustVector (M : Matrix (Fin 3) (Fin 3) ℝ) (T : ℝ) : Fin 3 → ℝ :=
  ((bodyToProp M).transpose.transpose).mulVec ![T, 0, 0]

end Verif.Rotor
