import Mathlib.Analysis.SpecialFunctions.Pow.Real

/-!
# Boundary layers of a section

Model of `trunk/SUAVE/Methods/Aerodynamics/Airfoil_Panel_Method/{thwaites_method,heads_method,airfoil_analysis}.py`: closure
relations, right-hand sides, viscosity, velocity gradient, smoothing, transition panel and drag.  The solution of the
differential equations is not modelled; one case and one Reynolds number at a time; real numbers stand for floats.
-/

namespace Verif.Airfoil
open Real

open Classical in
/-- Shape factor of the laminar layer (`thwaites_method.py` lines 163-165). -/
noncomputable def laminarH (l : ℝ) : ℝ := if 0 < l then 2.61 - 3.75 * l + 5.24 * l ^ 2 else 0.0731 / (0.14 + l) + 2.088

open Classical in
/-- Friction function of the laminar layer (lines 260-262). -/
noncomputable def laminarL (l : ℝ) : ℝ :=
  if 0 < l then 0.22 + 1.57 * l - 1.8 * l ^ 2 else 0.22 + 1.402 * l + 0.018 * l / (0.107 + l)

/-- Friction coefficient reported (lines 107, 263). -/
noncomputable def laminarCf (l reTheta : ℝ) : ℝ := |2 * laminarL l / reTheta|

/-- Right-hand side of the laminar equation for `θ²Vₑ⁶` (lines 190-191). -/
noncomputable def laminarRhs (nu ve : ℝ) : ℝ := 0.45 * ve ^ 5 * nu

/-- Viscosity of the laminar part (line 74) for a surface of length `L`. -/
noncomputable def laminarNu (L re : ℝ) : ℝ := L / re

/-- Viscosity of the turbulent part (`heads_method.py` lines 73, 79; `airfoil_analysis.py` lines 158, 298) behind the transition at
`xtr`. -/
noncomputable def turbulentNu (L xtr re : ℝ) : ℝ := (L - xtr) / re

open Classical in
/-- Shape factor from the entrainment shape factor (`heads_method.py` lines 183-187); `none` for the infinite value at 3.3. -/
noncomputable def headH (h1 : ℝ) : Option ℝ :=
  if 5.3 < h1 then some (1.1 + 0.86 * (h1 - 3.3) ^ (-0.777 : ℝ))
  else if h1 < 3.3 then some 3 else if h1 = 3.3 then none else some (0.6778 + 1.1536 * (h1 - 3.3) ^ (-0.326 : ℝ))

open Classical in
/-- Friction coefficient of the turbulent layer (lines 299-301). -/
noncomputable def headCf (reTheta h : ℝ) : ℝ :=
  if reTheta = 0 then 0.246 * 10 ^ (-0.678 * h) * (1e-3 : ℝ) ^ (-0.268 : ℝ)
  else 0.246 * 10 ^ (-0.678 * h) * reTheta ^ (-0.268 : ℝ)

/-- Reynolds number inside the momentum equation (line 237). -/
noncomputable def equationRe (re L xtr theta : ℝ) : ℝ := re / (L - xtr) * theta

/-- Reynolds number reported and used for the reported friction (line 127). -/
noncomputable def reportedRe (re L xtr ve theta : ℝ) : ℝ := re / (L - xtr) * ve * theta

/-- Growth of the momentum thickness (lines 236-239). -/
noncomputable def headRhs (re L xtr theta h ve dve : ℝ) : ℝ :=
  0.5 * headCf (equationRe re L xtr theta) h - (theta / ve) * (2 + h) * dve

/-- Velocity gradient at an inner panel (`airfoil_analysis.py` lines 121-124, 261-264). -/
noncomputable def gradient (x v : ℕ → ℝ) (i : ℕ) : ℝ :=
  let d := fun k => (v (k + 1) - v k) / (x (k + 1) - x k)
  let a := x (i + 1) - x i
  let b := x (i + 2) - x i
  (b * d i + a * d (i + 1)) / (a + b)

open Classical in
/-- Panels whose value jumps by more than the tolerance from the panel before (`thwaites_method.py` line 85). -/
noncomputable def jumps (n : ℕ) (tol : ℝ) (v : ℕ → ℝ) : List ℕ :=
  (List.range (n - 1)).filter fun i => tol < |(v (i + 1) - v i) / v i|

open Classical in
/-- Smoothing (lines 85-87, 96-98; `heads_method.py` lines 108-113, 122-124): all replacements are made with the old values. -/
noncomputable def smooth (n : ℕ) (tol : ℝ) (v : ℕ → ℝ) : ℕ → ℝ :=
  if 1 < (jumps n tol v).length then
    fun k => if k ≠ 0 ∧ (k - 1) ∈ jumps n tol v then v (k - 1) else v k
  else v

/-- Transition criterion (`airfoil_analysis.py` line 145). -/
noncomputable def criterion (reTheta reX : ℝ) : ℝ := reTheta - 1.174 * (1 + 224000 / reX) * reX ^ (0.46 : ℝ)

open Classical in
/-- Transition panel (lines 146-149): the number of panels where the criterion is not met, at most the last panel. -/
noncomputable def transitionPanel (n : ℕ) (crit : ℕ → ℝ) : ℕ :=
  let c := ((List.range n).filter fun i => ¬ 0 < crit i).length
  if c = n then n - 1 else c

/-- Drag coefficient (line 462) from the momentum thicknesses of all panels, the lower trailing edge first. -/
noncomputable def sectionDrag (n : ℕ) (theta : ℕ → ℝ) (ue h : ℝ) : ℝ := 2 * theta (n - 1) * ue ^ ((5 + h) / 2)

end Verif.Airfoil
