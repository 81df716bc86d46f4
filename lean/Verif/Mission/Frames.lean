import Mathlib.LinearAlgebra.Matrix.Notation
import Mathlib.LinearAlgebra.Matrix.Determinant.Basic
import Mathlib.Analysis.SpecialFunctions.Complex.Arg
import Mathlib.Analysis.SpecialFunctions.Trigonometric.Basic

/-!
# Frames, orientations and forces

Models of
* `trunk/SUAVE/Methods/Geometry/Three_Dimensional/{angles_to_dcms,orientation_product,orientation_transpose}.py`,
* `trunk/SUAVE/Methods/Missions/Segments/Common/Frames.py` (orientations, forces, planet position),
* `trunk/SUAVE/Methods/Missions/Segments/Common/Aerodynamics.py` (freestream, aerodynamic forces).

All arrays have one row per control point and every operation modelled here except the integration
in `update_planet_position` acts row by row, so one row is modelled.  Real numbers stand for floats.
-/

namespace Verif.Mission.Frames

open Matrix

/-- A direction cosine matrix, one row of the three-index arrays. -/
abbrev M3 := Matrix (Fin 3) (Fin 3) ℝ
/-- A vector, one row of the two-index arrays. -/
abbrev V3 := Fin 3 → ℝ

/-- `T0` (`angles_to_dcms.py` 45-77): the identity with four entries replaced. -/
noncomputable def T0 (a : ℝ) : M3 := !![1, 0, 0; 0, Real.cos a, Real.sin a; 0, -Real.sin a, Real.cos a]

/-- `T1` (`angles_to_dcms.py` 80-112). -/
noncomputable def T1 (a : ℝ) : M3 := !![Real.cos a, 0, -Real.sin a; 0, 1, 0; Real.sin a, 0, Real.cos a]

/-- `T2` (`angles_to_dcms.py` 115-147). -/
noncomputable def T2 (a : ℝ) : M3 := !![Real.cos a, Real.sin a, 0; -Real.sin a, Real.cos a, 0; 0, 0, 1]

/-- `Ts[dim]` (`angles_to_dcms.py` 31). -/
noncomputable def T (dim : Fin 3) (a : ℝ) : M3 :=
  match dim with
  | 0 => T0 a
  | 1 => T1 a
  | 2 => T2 a

/-- `orientation_product` with a three-index second argument (`orientation_product.py` 42-43). -/
def productM (A B : M3) : M3 := fun i k => ∑ j, A i j * B j k

/-- `orientation_product` with a two-index second argument (`orientation_product.py` 44-45). -/
def productV (A : M3) (b : V3) : V3 := fun i => ∑ j, A i j * b j

/-- `orientation_transpose` (`orientation_transpose.py` 19-43). -/
def transp (A : M3) : M3 := fun i j => A j i

/-- `new_tensor` (`angles_to_dcms.py` 150-179), one row: the identity. -/
def newTensor : M3 := fun i j => if i = j then 1 else 0

/-- `angles_to_dcms` (`angles_to_dcms.py` 10-42): the sequence is walked backwards, each time
multiplying on the right. -/
noncomputable def dcm (rot : V3) (seq : List (Fin 3)) : M3 :=
  seq.reverse.foldl (fun t dim => productM t (T dim (rot dim))) newTensor

/-- `numpy.arctan2(y, x)`. -/
noncomputable def arctan2 (y x : ℝ) : ℝ := Complex.arg ⟨x, y⟩

/-- What `update_orientations` stores. -/
structure Orient where
  alpha : ℝ
  sideSlip : ℝ
  roll : ℝ
  body2inertial : M3
  windRotations : V3
  wind2inertial : M3

/-- `update_orientations` (`Frames.py` 225-315). -/
noncomputable def updateOrientations (V rot : V3) : Orient :=
  let inertial2body := dcm rot [2, 1, 0]
  let body2inertial := transp inertial2body
  let Vb := productV inertial2body V
  let Vs : V3 := fun i => if i = 1 then 0 else Vb i
  let mag := Real.sqrt (∑ i, Vs i ^ 2)
  let alpha := arctan2 (Vs 2) (Vs 0)
  let beta := arctan2 (Vb 1) mag
  let wind : V3 := ![0, alpha, beta]
  let wind2body := dcm wind [2, 1, 0]
  { alpha := alpha
    sideSlip := -beta
    roll := rot 0
    body2inertial := body2inertial
    windRotations := wind
    wind2inertial := productM wind2body body2inertial }

/-- The contributions computed by `update_forces` (`Frames.py` 364-367) in inertial axes. -/
structure Forces where
  lift : V3
  drag : V3
  thrust : V3
  weight : V3
  total : V3

/-- `update_forces` (`Frames.py` 323-376). -/
noncomputable def updateForces (o : Orient) (lift drag thrust weight : V3) : Forces :=
  let L := productV o.wind2inertial lift
  let D := productV o.wind2inertial drag
  let T := productV o.body2inertial thrust
  { lift := L, drag := D, thrust := T, weight := weight, total := fun i => L i + D i + T i + weight i }

/-! ### Aerodynamics.py -/

/-- `update_freestream` (`Aerodynamics.py` 124-147). -/
structure Free where
  velocity : ℝ
  mach : ℝ
  reynolds : ℝ
  q : ℝ

/-- `update_freestream` (`Aerodynamics.py` 124-147). -/
noncomputable def updateFreestream (V : V3) (rho a mu : ℝ) : Free :=
  let v2 := ∑ i, V i ^ 2
  let v := Real.sqrt v2
  { velocity := v, mach := v / a, reynolds := rho * v / mu, q := 1 / 2 * rho * v2 }

/-- Coefficients and wind-axis forces stored by `update_aerodynamics`. -/
structure Aero where
  cl : ℝ
  cd : ℝ
  lift : V3
  drag : V3

/-- `update_aerodynamics` (`Aerodynamics.py` 182-217); `cl` and `cd` are the totals returned by the
aerodynamics model. -/
noncomputable def updateAerodynamics (q sref clmax cl cd : ℝ) : Aero :=
  let cl := if q ≤ 0 then 0 else cl
  let cd := if q ≤ 0 then 0 else cd
  let cl := if cl > clmax then clmax else cl
  let cl := if cl < -clmax then -clmax else cl
  { cl := cl, cd := cd, lift := ![0, 0, -cl * q * sref], drag := ![-cd * q * sref, 0, 0] }

/-! ### Planet position -/

/-- `Units.deg`. -/
noncomputable def deg : ℝ := Real.pi / 180

/-- `update_planet_position` (`Frames.py` 185-215): `I` is the integration operator on `n` control
points.  Returns latitude and longitude. -/
noncomputable def updatePlanet {n : ℕ} (I : Matrix (Fin n) (Fin n) ℝ) (V altitude theta alpha : Fin n → ℝ) (psi Re : ℝ)
    (lat lon : ℝ) : (Fin n → ℝ) × (Fin n → ℝ) :=
  let gamma : Fin n → ℝ := fun i => theta i - alpha i
  let R : Fin n → ℝ := fun i => altitude i + Re
  let lamdadot : Fin n → ℝ := fun i => V i / R i * Real.cos (gamma i) * Real.cos psi
  let lamda : Fin n → ℝ := fun i => (∑ j, I i j * lamdadot j) / deg
  let mudot : Fin n → ℝ := fun i => V i / R i * Real.cos (gamma i) * Real.sin psi / Real.cos (lamda i)
  let mu : Fin n → ℝ := fun i => (∑ j, I i j * mudot j) / deg
  (fun i => lat + lamda i, fun i => lon + mu i)

end Verif.Mission.Frames
