import Mathlib.Analysis.SpecialFunctions.Pow.Real
import Mathlib.Analysis.SpecialFunctions.Trigonometric.Basic

/-!
Maximum lift coefficient with flaps and slats, `Methods/Aerodynamics/Fidelity_Zero/Lift`, one row.
-/

namespace Verif.Aero
open Real

/-- `dmax_ref` by thickness in per cent (compute_flap_lift.py:53). -/
noncomputable def flapRef (tc : ℝ) : ℝ := -4E-05 * tc ^ 4 + 0.0014 * tc ^ 3 - 0.0093 * tc ^ 2 + 0.0436 * tc + 0.9734

/-- The factor of the flap type (compute_flap_lift.py:56-61), the name in lower case. -/
noncomputable def flapKind : Option String → ℝ
  | none => 0
  | some t => if t = "single_slotted" then 0.93 else if t = "triple_slotted" then 1.08 else 1

/-- `Kd` by deflection in degrees (compute_flap_lift.py:67). -/
noncomputable def flapKd (fa : ℝ) : ℝ := -1.7857E-04 * fa ^ 2 + 2.9214E-02 * fa - 1.4000E-02

/-- `compute_flap_lift` (compute_flap_lift.py:46-78): thickness in per cent, chord fraction, deflection in degrees, cosine
of the sweep. -/
noncomputable def flapLift (tc : ℝ) (kind : Option String) (chord fa cs wingS Swf : ℝ) : ℝ :=
  let Kc := 0.0395 * (chord * 100) + 0.0057
  let Ksw := (1 - 0.08 * cs ^ 2) * cs ^ (0.75 : ℝ)
  Kc * flapKd fa * Ksw * (flapRef tc * flapKind kind) * Swf / wingS

/-- `compute_slat_lift` (compute_slat_lift.py:42-49), deflection in degrees, cosine of the sweep. -/
noncomputable def slatLift (sa cs : ℝ) : ℝ := sa / 23 * cs ^ (1.4 : ℝ) * cos (sa * (π / 180)) ^ 2

/-- A flap: type, chord fraction, deflection in degrees. -/
structure Flap where
  kind : Option String
  chord : ℝ
  angle : ℝ

/-- What of a wing enters: `sweep` in degrees, `tc` in per cent, `Re` the Reynolds number of its mean chord. -/
structure HWing where
  highLift : Bool
  area : ℝ
  tc : ℝ
  sweep : ℝ
  taper : ℝ
  Re : ℝ
  slat : Option ℝ
  flap : Option Flap
  affected : ℝ

/-- `w_Clmax` (compute_max_lift_coeff.py:92-103). -/
noncomputable def cleanMax (w : HWing) : ℝ :=
  let ref := -0.0009 * w.tc ^ 3 + 0.0217 * w.tc ^ 2 - 0.0442 * w.tc + 0.7005
  let op := ref * (w.Re / (9 * 10 ^ 6)) ^ (0.1 : ℝ)
  op * (0.919729714285715 - 0.044504761904771 * w.taper - 0.001835900000000 * w.sweep
    + 0.247071428571446 * w.taper ^ 2 + 0.003191500000000 * w.taper * w.sweep - 0.000056632142857 * w.sweep ^ 2
    - 0.279166666666676 * w.taper ^ 3 + 0.002300000000000 * w.taper ^ 2 * w.sweep
    + 0.000049982142857 * w.taper * w.sweep ^ 2 - 0.000000280000000 * w.sweep ^ 3)

/-- The sum in the brackets of line 131 (compute_max_lift_coeff.py:107-131). -/
noncomputable def wingMax (S : ℝ) (w : HWing) : ℝ :=
  let cs := cos (w.sweep * (π / 180))
  let slat := match w.slat with | some a => slatLift a cs | none => 0
  let flap := match w.flap with | some f => flapLift w.tc f.kind f.chord f.angle cs S w.affected | none => 0
  (1.1 * cleanMax w - 0.2) + slat + flap

/-- `compute_max_lift_coeff` (compute_max_lift_coeff.py:67-135): lift and induced drag coefficients. -/
noncomputable def maxLift (factor S : ℝ) (ws : List HWing) : ℝ × ℝ :=
  let ws := ws.filter HWing.highLift
  ((ws.map fun w => wingMax S w * w.area / S).sum * factor, (ws.map fun w => 0.01 * w.area / S).sum)

end Verif.Aero
