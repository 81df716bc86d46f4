import Verif.Optim.TrustRegion

/-!
# The numbers the trust-region optimizer compares

`Trust_Region_Optimization.optimize` (trunk/SUAVE/Optimization/Package_Setups/TRMM/Trust_Region_Optimization.py:163-325):
which values of the two models enter the accuracy ratio.

Simplifications
* Both fidelity levels are functions of the point: an objective and `m` constraints.  The violation of a vector of
  constraint values is any function `viol` of it; its formula is `violation` in `Verif.Optim.TrustRegion`.
* The inner solver is external, its point is an argument.
-/

namespace Verif.Optim

variable {K : Type} [Field K] [LinearOrder K] {n m : Nat}

/-- Objective and constraints of one fidelity level (`evaluate_model`, 392-429). -/
structure Level (K : Type) (n m : Nat) where
  f : (Fin n → K) → K
  g : (Fin n → K) → Fin m → K

/-- The derivatives found at the centre (`finite_difference`, 427): of the objective, and of each constraint. -/
structure Slopes (K : Type) (n m : Nat) where
  df : Fin n → K
  dg : Fin m → Fin n → K

/-- `evaluate_corrected_model` (456-465) at the point `x` with the corrections of the centre `x0` (586-602): the low
level plus the differences in value and slope. -/
def Level.correct (low high : Level K n m) (s0 s1 : Slopes K n m) (x0 : Fin n → K) : Level K n m where
  f := corrected low.f (correction (low.f x0) (high.f x0) s0.df s1.df) x0
  g := fun x j => corrected (fun y => low.g y j) (correction (low.g x0 j) (high.g x0 j) (s0.dg j) (s1.dg j)) x0 x

/-- Which inner optimizer is used (191, 230). -/
inductive Inner where
  | snopt | slsqp
deriving DecidableEq

/-- `fOpt_corr`, `gOpt_corr` (223-227, 242-244, 282-287, 297-303).  When the solve succeeds SNOPT reports the values it
found, with SLSQP the constraints are evaluated again by the problem itself, at fidelity level 1 (189).  After a failed
solve both are evaluated at the centre `x`, not at the new point. -/
def reported (o : Inner) (low high : Level K n m) (s0 s1 : Slopes K n m) (x0 x : Fin n → K) (success : Bool) : K × (Fin m → K) :=
  let c := low.correct high s0 s1 x0
  if success then
    match o with
    | .snopt => (c.f x, c.g x)
    | .slsqp => (c.f x, low.g x)
  else (c.f x0, c.g x0)

/-- `rho` (317-325) for the new point `x`, found by the first solve or, after its failure, by the second one. -/
def ratio (precision : K) (viol : (Fin m → K) → K) (o : Inner) (low high : Level K n m) (s0 s1 : Slopes K n m)
    (x0 x : Fin n → K) (success : Bool) : K :=
  let r := reported o low high s0 s1 x0 x success
  accuracyRatio precision (high.f x0) (high.f x) r.1 (viol (high.g x0)) (viol (high.g x)) (viol r.2)

end Verif.Optim
