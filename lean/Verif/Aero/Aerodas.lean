import Verif.Aero.Parasite
import Mathlib.Analysis.SpecialFunctions.Pow.Real
import Mathlib.Analysis.SpecialFunctions.Trigonometric.Basic

/-!
Lift and drag before and after stall, `Methods/Aerodynamics/AERODAS`, one row. Angles in radians unless said otherwise.
-/

namespace Verif.Aero.Aerodas
open Real

/-- `Units.deg`. -/
noncomputable def deg : ℝ := π / 180

/-- `k` (section_properties.py:78-81). -/
noncomputable def sectionK (tc : ℝ) : ℝ := 1 + 2 * 1.1 * tc + 1.1 * 1.1 * (1 + 5) ^ tc * tc / 2

/-- `Cd0` (section_properties.py:58, 74, 84), by Reynolds number. -/
noncomputable def sectionCd0 (tc Re : ℝ) : ℝ := 2 * sectionK tc * (0.0576 * Re ^ (-0.2 : ℝ))

/-- `CL1maxp` (section_properties.py:66). -/
noncomputable def sectionMax : ℝ := 1.5

/-- `ACLp` (section_properties.py:69), stored as the section's angle of maximum lift (97). -/
noncomputable def sectionAngle (A0 S1p : ℝ) : ℝ := A0 + sectionMax / S1p

/-- What `finite_aspect_ratio` stores (finite_aspect_ratio.py:78-81). -/
structure Finite where
  clMax : ℝ
  cdMax : ℝ
  slope : ℝ
  acd : ℝ

/-- `finite_aspect_ratio` (finite_aspect_ratio.py:51-83). `ACL1` (60) is computed there and not stored. -/
noncomputable def finite (AR clMaxp acdp cdMaxp S1p : ℝ) : Finite where
  slope := S1p / deg * AR / (2 + √(4 + AR ^ 2)) * deg
  acd := acdp + 18.2 * clMaxp * AR ^ (-0.9 : ℝ) * deg
  cdMax := cdMaxp + 0.280 * (clMaxp * clMaxp) * AR ^ (-0.9 : ℝ)
  clMax := clMaxp * (0.67 + 0.33 * exp (-(4.0 / AR) ^ (2 : ℝ)))

/-- `RCL1` (pre_stall_coefficients.py:66-67). -/
noncomputable def rcl (A0 acl clMax slope : ℝ) : ℝ :=
  if slope * (acl - A0) - clMax ≤ 0 then 1e-16 else slope * (acl - A0) - clMax

/-- `CL1` (pre_stall_coefficients.py:66-76). -/
noncomputable def preLift (A0 acl clMax slope a : ℝ) : ℝ :=
  let r := rcl A0 acl clMax slope
  let N := 1 + clMax / r
  if A0 < a then slope * (a - A0) - r * ((a - A0) / (acl - A0)) ^ N
  else if a = A0 then 0
  else slope * (a - A0) + r * ((A0 - a) / (acl - A0)) ^ N

/-- `CD1` (pre_stall_coefficients.py:79-87). -/
noncomputable def preDrag (A0 acd cdMin cdMax aMin a : ℝ) : ℝ :=
  if 2 * A0 - acd ≤ a ∧ a ≤ acd then cdMin + (cdMax - cdMin) * ((a - aMin) / (acd - aMin)) ^ 2 else 0

/-- `CL2max` (post_stall_coefficients.py:63-64, 71). -/
noncomputable def postMax (tc AR : ℝ) : ℝ := 1.190 * (1 - tc * tc) * (0.65 + 0.35 * exp (-(9 / AR) ^ (2.3 : ℝ)))

/-- `CD2max` (post_stall_coefficients.py:67-68, 72). -/
noncomputable def postDragMax (tc AR : ℝ) : ℝ :=
  2.3 * exp (-(0.65 * tc) ^ (0.9 : ℝ)) * (0.52 + 0.48 * exp (-(6.5 / AR) ^ (1.1 : ℝ)))

/-- The two branches from `ACL1` on (post_stall_coefficients.py:82-87). The mask of line 83 stands in a list, which
recent numpy refuses; taken as the mask. -/
noncomputable def postBranch (m a : ℝ) : ℝ :=
  let r := 1.632 - m
  let N := 1 + m / r
  if a ≥ 92 * deg then -0.032 * (a / deg - 92) + r * ((a - 92 * deg) / (51 * deg)) ^ N
  else -0.032 * (a / deg - 92) - r * ((92 * deg - a) / (51 * deg)) ^ N

/-- `CL2` (post_stall_coefficients.py:75-96). -/
noncomputable def postLift (A0 acl m a : ℝ) : ℝ :=
  let first := if acl ≤ a then postBranch m a else 0
  let an := -a + 2 * A0
  if acl ≤ an then -postBranch m an else if 0 < an then 0 else first

/-- The branch of `CD2` (post_stall_coefficients.py:103, 110). -/
noncomputable def dragBranch (acd cd1 cd2 a : ℝ) : ℝ := cd1 + (cd2 - cd1) * sin ((a - acd) / (π / 2 - acd))

/-- `CD2` (post_stall_coefficients.py:99-110). -/
noncomputable def postDrag (A0 acl acd cd1 cd2 a : ℝ) : ℝ :=
  let first := if acd < a then dragBranch acd cd1 cd2 a else 0
  let an := -a + 2 * A0
  if acd ≤ an then dragBranch acd cd1 cd2 an
  else if 2 * A0 - acl < an ∧ an < acl then 0 else first

/-- A wing in `lift_drag_total`: its four coefficients, area, whether vertical. -/
structure Wing where
  cl1 : ℝ
  cd1 : ℝ
  cl2 : ℝ
  cd2 : ℝ
  area : ℝ
  vertical : Bool

/-- `CL` of a wing (AERODAS_setup.py:103-106). -/
noncomputable def wingLift (A0 a : ℝ) (w : Wing) : ℝ := if a ≤ A0 then min w.cl1 w.cl2 else max w.cl1 w.cl2

/-- `lift_drag_total` (AERODAS_setup.py:83-126): lift and drag coefficients. -/
noncomputable def total (A0 a S incr : ℝ) (ws : List Wing) : ℝ × ℝ :=
  ((ws.map fun w => if w.vertical then 0 else wingLift A0 a w * w.area / S).sum,
    (ws.map fun w => max w.cd1 w.cd2 * w.area / S).sum + incr)

end Verif.Aero.Aerodas
