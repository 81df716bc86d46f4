import Verif.Rotor.Blade
import Mathlib.Analysis.SpecialFunctions.Trigonometric.InverseDeriv
import Mathlib.Analysis.SpecialFunctions.Trigonometric.ArctanDeriv
import Mathlib.Analysis.SpecialFunctions.Sqrt
/-
`compute_dR_dpsi` (trunk/SUAVE/Methods/Propulsion/Rotor_Wake/Fidelity_Zero/fidelity_zero_wake_convergence.py:195-284) at one station, and what it is
meant to be the derivative of.

Simplifications
* One entry of the diagonal; the replacement of nan by 0.1 (277) is not modelled.
-/

namespace Verif.Rotor

open Real

/-- The lift coefficient the derivative was taken with. -/
noncomputable def thinLift (β Wa Wt : ℝ) : ℝ := 2 * π * (β - arctan (Wa / Wt))

/-- `U + Utcospsi + Uasinpsi`. -/
noncomputable def turn (s : Seen) (ψ : ℝ) : ℝ := s.U + s.Ut * cos ψ + s.Ua * sin ψ

/-- First summand (269). -/
noncomputable def dRSwirl (s : Seen) (r B p ψ : ℝ) : ℝ :=
  4 * s.U * r * arccos p * sin ψ * √(16 * (s.Ua + s.U * sin ψ) ^ 2 / (B * B * π ^ 2 * (4 * (wake s ψ).2 * (wake s ψ).2)) + 1) / B

/-- Second and third summand (270-271): those of the blade. -/
noncomputable def dRBlade (s : Seen) (β ψ : ℝ) : ℝ :=
  let Wa := (wake s ψ).1
  let Wt := (wake s ψ).2;
  -(π * s.U * (s.Ua * cos ψ - s.Ut * sin ψ) * (β - arctan ((Wa + Wa) / (Wt + Wt))) / (2 * √(4 * Wt * Wt + 4 * Wa * Wa)))
    + π * s.U * √(4 * Wt * Wt + 4 * Wa * Wa) * turn s ψ / (2 * (4 * Wa * Wa / (4 * Wt * Wt) + 1) * (s.Ut + s.U * cos ψ) ^ 2)

/-- Fourth summand (272-274): that of the tip loss. -/
noncomputable def dRTip (s : Seen) (r R B p ψ : ℝ) : ℝ :=
  let Wa := (wake s ψ).1
  let Wt := (wake s ψ).2;
  -(4 * s.U * p * √(16 * (s.Ua + s.U * sin ψ) ^ 2 / (B * B * π ^ 2 * (4 * Wt * Wt)) + 1) * (R - r) * (s.Ut / 2 - s.U * cos ψ / 2) * turn s ψ
    / (4 * Wa * Wa * √(1 - exp (-(B * (Wt + Wt) * (R - r) / (r * (Wa + Wa)))))))

/-- Last summand (274-275): that of the geometry of the wake. -/
noncomputable def dRWake (s : Seen) (r B p ψ : ℝ) : ℝ :=
  let Wa := (wake s ψ).1
  let Wt := (wake s ψ).2;
  128 * s.U * r * arccos p * (Wa + Wa) * (s.Ut / 2 - s.U * cos ψ / 2) * turn s ψ
    / (B * B * B * π ^ 2 * (s.Ut + s.U * cos ψ) ^ 3 * √(16 * (4 * Wa * Wa) / (B * B * π ^ 2 * (4 * Wt * Wt)) + 1))

/-- `compute_dR_dpsi` (245-275). -/
noncomputable def dRdpsi (s : Seen) (r R B β ψ : ℝ) : ℝ :=
  let p := tipPiece r R (inflow r R (wake s ψ).1 (wake s ψ).2) B
  dRSwirl s r B p ψ + dRBlade s β ψ + dRTip s r R B p ψ + dRWake s r B p ψ

end Verif.Rotor
