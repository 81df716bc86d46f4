import Verif.Rotor.Orientation

/-!
# One operating point of a propeller

`propeller_single_point` (Methods/Performance/propeller_single_point.py): a rotor is run at a speed, altitude, pitch and
rotation speed given by the caller.
-/

namespace Verif.Rotor
open Real

/-- What the atmosphere gives (lines 95-99). -/
structure SingleAir where
  T : ℝ
  a : ℝ
  rho : ℝ
  mu : ℝ

/-- The rotor the caller passes; the inputs are overwritten at every call (lines 93 and 103), and `variable` is
`variable_pitch` (Rotor.py 101). -/
structure SingleRotor where
  angles : Fin 3 → ℝ
  tilt : ℝ
  R : ℝ
  Rh : ℝ
  pitch : ℝ
  omega : ℝ
  varies : Bool

/-- What the caller asks for. -/
structure Asked where
  pitch : ℝ
  omega : ℝ
  altitude : ℝ
  disa : ℝ
  speed : ℝ

/-- The results of lines 170-175. -/
structure SingleOut where
  thrust : ℝ
  torque : ℝ
  power : ℝ
  Cp : ℝ
  efficiency : ℝ

/-- Velocity at the rotor (lines 118-121 and Rotor.py 255-262): the body axes are those of the ground. -/
noncomputable def SingleRotor.flow (s : SingleRotor) (speed : ℝ) : Fin 3 → ℝ :=
  rotorVelocity (rotvec (rotorAngles s.angles s.tilt)) ![speed, 0, 0]

open Classical in
/-- Lines 93-175.  `atm` is the atmosphere analysis, `blade` gives the totals of thrust, torque and drag of the blades for
air, pitch, rotation speed and velocity in the rotor's frame (Rotor.py 264-492). The thrust is the first component of the
thrust vector (line 171), the throttle is one (line 119). -/
noncomputable def single (atm : ℝ → ℝ → SingleAir) (blade : SingleAir → ℝ → ℝ → (Fin 3 → ℝ) → ℝ × ℝ × ℝ) (s : SingleRotor) (q : Asked) :
    SingleRotor × SingleOut :=
  let air := atm q.altitude q.disa
  let v := s.flow q.speed
  let t := blade air q.pitch q.omega v
  let V := axial ⟨v 0, v 1, v 2⟩
  let p := report air.rho V q.omega s.R s.Rh 1 t.1 t.2.1 t.2.2
  ({ s with pitch := q.pitch, omega := q.omega, varies := s.varies || decide (q.pitch ≠ 0) },
   ⟨thrustVector (rotvec (rotorAngles s.angles s.tilt)) p.thrust 0, p.torque, p.power, p.Cp, p.etap⟩)

/-- Several calls one after the other with the rotor each call returns. -/
noncomputable def singles (atm : ℝ → ℝ → SingleAir) (blade : SingleAir → ℝ → ℝ → (Fin 3 → ℝ) → ℝ × ℝ × ℝ) (s : SingleRotor) :
    List Asked → SingleRotor × List SingleOut
  | [] => (s, [])
  | q :: qs =>
    let r := single atm blade s q
    let rest := singles atm blade r.1 qs
    (rest.1, r.2 :: rest.2)

end Verif.Rotor
