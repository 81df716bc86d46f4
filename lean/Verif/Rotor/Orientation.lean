import Verif.Rotor.Blade

/-!
# Orientation of rotors and nacelles

`body_to_prop_vel` and `prop_vel_to_body` of `Components/Energy/Converters/Rotor.py` (615-684), `body_to_nac_vel` and
`nac_vel_to_body` of `Components/Nacelles/Nacelle.py` (119-211), one control point.  Scipy's
`Rotation.from_rotvec(v).as_matrix()` is the rotation by the length of `v` about the direction of `v` (Rodrigues), and
`from_matrix(M).inv().as_matrix()` is the transpose for a rotation matrix `M`.
-/

namespace Verif.Rotor
open Real

/-- Length of a rotation vector, its angle. -/
noncomputable def rotAngle (v : Fin 3 → ℝ) : ℝ := √(v 0 ^ 2 + v 1 ^ 2 + v 2 ^ 2)

open Classical in
/-- `sin θ / θ`, one for no rotation. -/
noncomputable def rotSin (v : Fin 3 → ℝ) : ℝ := if rotAngle v = 0 then 1 else sin (rotAngle v) / rotAngle v

open Classical in
/-- `(1 - cos θ) / θ²`, a half for no rotation. -/
noncomputable def rotVer (v : Fin 3 → ℝ) : ℝ := if rotAngle v = 0 then 1 / 2 else (1 - cos (rotAngle v)) / rotAngle v ^ 2

/-- `Rotation.from_rotvec(v).as_matrix()`. -/
noncomputable def rotvec (v : Fin 3 → ℝ) : Matrix (Fin 3) (Fin 3) ℝ :=
  let C := cos (rotAngle v)
  let s := rotSin v
  let c := rotVer v
  !![C + c * v 0 ^ 2, c * v 0 * v 1 - s * v 2, c * v 0 * v 2 + s * v 1;
     c * v 0 * v 1 + s * v 2, C + c * v 1 ^ 2, c * v 1 * v 2 - s * v 0;
     c * v 0 * v 2 - s * v 1, c * v 1 * v 2 + s * v 0, C + c * v 2 ^ 2]

/-- `body_to_nac_vel` (Nacelle.py 170-184) for the orientation of a nacelle. -/
noncomputable def bodyToNac (angles : Fin 3 → ℝ) : Matrix (Fin 3) (Fin 3) ℝ := rotY π * rotvec angles * rotY π

/-- `nac_vel_to_body` (Nacelle.py 140-146). -/
noncomputable def nacToBody (angles : Fin 3 → ℝ) : Matrix (Fin 3) (Fin 3) ℝ := (bodyToNac angles).transpose

/-- The rotation vector of a rotor (Rotor.py 640-643): the tilt is added to the second of the orientation angles. -/
def rotorAngles (angles : Fin 3 → ℝ) (tilt : ℝ) : Fin 3 → ℝ := ![angles 0, angles 1 + tilt, angles 2]

/-- `body_to_prop_vel` (Rotor.py 637-655) for orientation and tilt of a rotor. -/
noncomputable def bodyToRotor (angles : Fin 3 → ℝ) (tilt : ℝ) : Matrix (Fin 3) (Fin 3) ℝ :=
  bodyToProp (rotvec (rotorAngles angles tilt))

/-- `prop_vel_to_body` (Rotor.py 676-682). -/
noncomputable def rotorToBody (angles : Fin 3 → ℝ) (tilt : ℝ) : Matrix (Fin 3) (Fin 3) ℝ := (bodyToRotor angles tilt).transpose

end Verif.Rotor
