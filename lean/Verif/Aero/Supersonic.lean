import Verif.Num.Blend
import Mathlib.Analysis.SpecialFunctions.Pow.Real
import Mathlib.Analysis.SpecialFunctions.Trigonometric.Inverse
import Mathlib.Data.Finset.Sort
/-
Model of the sonic boom lift area (trunk/SUAVE/Methods/Noise/Boom/lift_equivalent_area.py), of the volume wave
drag (trunk/SUAVE/Methods/Aerodynamics/Supersonic_Zero/Drag/wave_drag_volume_raymer.py and
wave_drag_volume_sears_haack.py), and of the viscous wake of a wing
(trunk/SUAVE/Methods/Aerodynamics/Common/Fidelity_Zero/Lift/compute_wing_wake.py and generate_wing_wake_grid.py).

Simplifications
* Exact real arithmetic; the pressures of the vortex lattice are arbitrary.
* `none` stands for an exception or not-a-number.
-/

namespace Verif.Aero

open Verif.Num

/-! ### Equivalent area of lift -/

/-- A panel of the lattice. -/
structure BoomPanel where
  cp : ℝ
  x : ℝ
  z : ℝ
  nz : ℝ
  area : ℝ

/-- `lift_force_per_panel` (line 67). -/
noncomputable def BoomPanel.force (p : BoomPanel) (q aoa : ℝ) : ℝ := p.cp * q * p.nz * p.area * Real.cos aoa
/-- `X_shift` (lines 70-73). -/
noncomputable def BoomPanel.shift (p : BoomPanel) (mach : ℝ) : ℝ := p.x + p.z * Real.tan (Real.arcsin (1 / mach))

/-- `np.unique` of the stations (lines 76-80): sorted, each once.  The sort before has no further effect. -/
noncomputable def stations (l : List (ℝ × ℝ)) : List ℝ := (l.map Prod.fst).toFinset.sort (· ≤ ·)

open Classical in
/-- `np.add.at` (lines 81-82): the sum at a station. -/
noncomputable def sumAt (l : List (ℝ × ℝ)) (u : ℝ) : ℝ := ((l.filter fun p => p.1 = u).map Prod.snd).sum

/-- `np.cumsum`. -/
noncomputable def running : ℝ → List ℝ → List ℝ
  | _, [] => []
  | acc, x :: xs => (acc + x) :: running (acc + x) xs

/-- `lift_equivalent_area` (lines 67-98).  `none`: no panel to take the last value of. -/
noncomputable def liftArea (q aoa mach length : ℝ) (panels : List BoomPanel) : Option (List ℝ × List ℝ) :=
  let l := panels.map fun p => (p.shift mach, p.force q aoa)
  let u := stations l
  let ae := (running 0 (u.map (sumAt l))).map fun s => Real.sqrt (mach ^ 2 - 1) / (2 * q) * s
  ae.getLast?.map fun last => (0 :: u ++ [length * (5 / 4)], 0 :: ae ++ [last])

/-! ### Volume wave drag -/

/-- What is read of the vehicle. -/
structure WaveBody where
  L : ℝ
  area : ℝ
  S : ℝ

/-- `wave_drag_volume_sears_haack` (lines 33-50) for the only body type there is.  `none`: another type. -/
noncomputable def searsHaack (v : WaveBody) (scaling : ℝ) (type : Nat) : Option ℝ :=
  let rmax := Real.sqrt (v.area / Real.pi)
  let d := rmax * 2
  if type = 3 then some (3 / 2 * Real.pi * Real.pi * (d / v.L) * (d / v.L) * v.area / v.S * scaling) else none

/-- `Dq_SH` (line 59). -/
noncomputable def dqSH (v : WaveBody) : ℝ := 9 * Real.pi / 2 * (v.area / v.L) * (v.area / v.L)

/-- `wave_drag_volume_raymer` (lines 48-75) for one Mach number; `sweep` of the leading edge in degrees.  `none`: a
fractional power of a negative sweep. -/
noncomputable def raymer (v : WaveBody) (sweep scaling mach : ℝ) : Option ℝ :=
  if sweep < 0 then none else
  let dq := if 12 / 10 ≤ mach then
      scaling * (1 - 2 / 10 * (mach - 12 / 10) ^ (57 / 100 : ℝ) * (1 - Real.pi * sweep ^ (77 / 100 : ℝ) / 100)) * dqSH v else 0
  let simple := scaling * dqSH v
  let h := blend (12 / 10) (13 / 10) mach
  some ((simple * h + dq * (1 - h)) / v.S)

/-! ### Viscous wake -/

/-- What is read of the wing and the flow. -/
structure WakeWing where
  span : ℝ
  croot : ℝ
  ctip : ℝ
  x0 : ℝ
  V : ℝ
  nu : ℝ

/-- Local chord (line 106). -/
noncomputable def WakeWing.chord (w : WakeWing) (y : ℝ) : ℝ := w.croot - (w.croot - w.ctip) * (|y| / (1 / 2 * w.span))
/-- `theta_turb` (lines 109-115). -/
noncomputable def WakeWing.theta (w : WakeWing) (x : ℝ) : ℝ :=
  36 / 1000 * (x - w.x0) / (w.V * (x - w.x0) / w.nu) ^ (1 / 5 : ℝ)
/-- `x_theta` (line 116). -/
noncomputable def WakeWing.xTheta (w : WakeWing) (x y : ℝ) : ℝ := (x - w.x0 - w.chord y) / w.theta x
/-- `W0` (line 119). -/
noncomputable def WakeWing.peak (w : WakeWing) (x y : ℝ) : ℝ := w.V / Real.sqrt (4 * Real.pi * (32 / 1000) * w.xTheta x y)
/-- `b` (line 120). -/
noncomputable def WakeWing.width (w : WakeWing) (x y : ℝ) : ℝ :=
  2 * w.theta x * Real.sqrt (16 * (32 / 1000) * Real.log 2 * w.xTheta x y)

open Classical in
/-- `Va_deficit` (lines 100-121) at a point of the plane `x`.  `none`: the square root of a number that is not
positive. -/
noncomputable def WakeWing.deficit (w : WakeWing) (viscous : Bool) (x y z : ℝ) : Option ℝ :=
  if viscous = true ∧ w.x0 ≤ x then
    if |y| < 1 / 2 * w.span then
      if w.xTheta x y ≤ 0 then none
      else some (w.peak x y * Real.exp (-4 * Real.log 2 * (|z| / w.width x y) ^ 2))
    else some 0
  else some 0

open Classical in
/-- `ylocs` (lines 52-64 of generate_wing_wake_grid.py) from the control points of one side and the points added
beyond the tip. -/
noncomputable def gridY (semi outer : List ℝ) (L half : ℝ) : List ℝ :=
  let s := if 1 ≤ L then semi ++ outer else semi.filter fun y => y < L * half
  (s.map fun y => -y).reverse ++ s

end Verif.Aero
