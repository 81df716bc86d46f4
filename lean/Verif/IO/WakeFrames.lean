import Mathlib.Analysis.SpecialFunctions.Trigonometric.Basic

/-!
# Saving the evolution of a wake

`trunk/SUAVE/Input_Output/VTK/store_wake_evolution_vtks.py`.  The files written are outside the model; a frame is the blade
angle the rotor has and the evaluation points when it is written.
-/

namespace Verif.IO
open Real

/-- What of a rotor the function changes, with the points of its lattice as one number each. -/
structure WakeRotor where
  startAngle : ℝ
  /-- `VD.XC`, `VD.YC`, `VD.ZC` -/
  points : List ℝ

/-- What it reads: azimuthal stations, speed, sense of rotation, `initial_timestep_offset`, and the radial points of the
blade for each station (one coordinate). -/
structure WakeCase where
  Na : ℕ
  omega : ℝ
  rotation : ℝ
  ito : ℝ
  blades : ℕ → List ℝ

/-- `azi`, `np.linspace(0,2*np.pi,Na+1)[:-1]` (47). -/
noncomputable def WakeCase.azi (c : WakeCase) (i : ℕ) : ℝ := i * (2 * π / c.Na)

/-- `t0` (49-50). -/
noncomputable def WakeCase.t0 (c : WakeCase) : ℝ := (c.azi 1 - c.azi 0) / c.omega * c.ito

/-- `blade_angle` (62). -/
noncomputable def WakeCase.bladeAngle (c : WakeCase) (i : ℕ) : ℝ :=
  (c.omega * c.t0 + i * (2 * π / c.Na)) * c.rotation

/-- Centres between neighbours (81-83). -/
noncomputable def midpoints : List ℝ → List ℝ
  | a :: b :: rest => (b + a) / 2 :: midpoints (b :: rest)
  | _ => []

/-- The loop (60-92): the rotor at the end and the frames written, `(start angle, points)`.  The vehicle is saved with the
angle set but before the points are. -/
noncomputable def wakeLoop (c : WakeCase) : ℕ → ℕ → WakeRotor → WakeRotor × List (ℝ × List ℝ)
  | 0, _, r => (r, [])
  | n + 1, i, _ =>
    let r' : WakeRotor := ⟨c.bladeAngle i, midpoints (c.blades i)⟩
    let rest := wakeLoop c n (i + 1) r'
    (rest.1, (r'.startAngle, r'.points) :: rest.2)

/-- `store_wake_evolution_vtks` (41-93); `none` for the index error of `azi[1]`. -/
noncomputable def storeWake (c : WakeCase) (save : Bool) (r : WakeRotor) : Option (WakeRotor × List (ℝ × List ℝ)) :=
  if c.Na < 2 then none
  else if save then some (wakeLoop c c.Na 0 r) else some (r, [])

end Verif.IO
