import Verif.Aero.Friction
import Verif.Num.Blend
import Mathlib.Analysis.SpecialFunctions.Artanh
import Mathlib.Analysis.SpecialFunctions.Trigonometric.Basic

/-!
Parasite drag of wings, fuselages and nacelles: form factors, wetted areas, one row.
-/

namespace Verif.Aero
open Real Verif.Num

/-- `k_w` before the blending (parasite_drag_wing.py:236-241); `none` for a division by zero. -/
noncomputable def wingK0 (C tc cosS M : ℝ) : Option ℝ :=
  let cos2 := cosS * cosS
  if M ≤ 1 then
    if 1 - M * M * cos2 = 0 then none
    else some (1 + 2 * C * (tc * cos2) / √(1 - M * M * cos2)
      + C * C * cos2 * tc * tc * (1 + 5 * cos2) / (2 * (1 - (M * cosS) ^ 2)))
  else some 1

/-- `k_w` (parasite_drag_wing.py:233-246). -/
noncomputable def wingK (C tc cosS M : ℝ) : Option ℝ :=
  (wingK0 C tc cosS M).map fun k => k * blend 0.95 1 M + 1 * (1 - blend 0.95 1 M)

/-- `compute_parasite_drag` (parasite_drag_wing.py:224-252): drag coefficient and form factor. -/
noncomputable def wingDrag (C tc cosS xtu xtl Re M T Sref Swet : ℝ) : Option (ℝ × ℝ) := do
  let u ← mixedPlate Re M T xtu
  let l ← mixedPlate Re M T xtl
  let k ← wingK C tc cosS M
  pure (k * u.cf * Swet / Sref / 2 + k * l.cf * Swet / Sref / 2, k)

/-- What of an unsegmented wing enters the wetted area. -/
structure Panel where
  root : ℝ
  tip : ℝ
  span : ℝ
  area : ℝ
  offset : ℝ
  symmetric : Bool
  tc : ℝ

/-- `S_exposed_w` (parasite_drag_wing.py:145-155). -/
noncomputable def exposed (p : Panel) : ℝ :=
  let wingRoot := p.root + p.offset * ((p.tip - p.root) / p.span)
  if p.symmetric then p.area - (p.root + wingRoot) * p.offset else p.area - 0.5 * (p.root + wingRoot) * p.offset

/-- `Swet` (parasite_drag_wing.py:157-160). -/
noncomputable def wetted (p : Panel) : ℝ :=
  if p.tc < 0.05 then 2.003 * exposed p else (1.977 + 0.52 * p.tc) * exposed p

/-- A segment but the last: drag coefficient, form factor, reference area. -/
structure Seg where
  cd : ℝ
  k : ℝ
  area : ℝ

/-- The sums over the segments (parasite_drag_wing.py:105-129); `segs` leaves the last segment out. -/
noncomputable def segmented (segs : List Seg) (Sref : ℝ) : ℝ × ℝ :=
  ((segs.map fun s => s.cd * s.area).sum / Sref, (segs.map fun s => s.k * s.area).sum / Sref)

/-- `a` (Fidelity_Zero parasite_drag_fuselage.py:79-80, 83-84); `b2` is `1-M**2`, or one. -/
noncomputable def bodyA (b2 d : ℝ) : ℝ :=
  let D := √(1 - b2 * d ^ 2)
  2 * b2 * d ^ 2 * (artanh D - D) / D ^ 3

/-- Subsonic `du_max_u` (parasite_drag_fuselage.py:81). -/
noncomputable def duLow (d M : ℝ) : ℝ := bodyA (1 - M ^ 2) d / ((2 - bodyA (1 - M ^ 2) d) * √(1 - M ^ 2))

/-- `du_max_u` without compressibility (parasite_drag_fuselage.py:85). -/
noncomputable def duHigh (d : ℝ) : ℝ := bodyA 1 d / (2 - bodyA 1 d)

/-- `k_fus` (Fidelity_Zero parasite_drag_fuselage.py:73-87), `d` the diameter over the length. -/
noncomputable def bodyK (ff d M : ℝ) : ℝ := (1 + ff * (if M < 0.95 then duLow d M else duHigh d)) ^ 2

/-- `k_fus` (Supersonic_Zero parasite_drag_fuselage.py:78-106). -/
noncomputable def bodyKSuper (ff d lo hi M : ℝ) : ℝ :=
  let low := if M < hi then duLow d M else 0
  let high := if lo < M then duHigh d else 0
  (1 + ff * (low * blend lo hi M + high * (1 - blend lo hi M))) ^ 2

/-- `k_prop` (parasite_drag_nacelle.py:75). -/
noncomputable def nacelleK (l d : ℝ) : ℝ := 1 + 0.35 / (l / d)

/-- `k_prop` (Supersonic_Zero parasite_drag_nacelle.py:77-85). -/
noncomputable def nacelleKSuper (l d lo hi M : ℝ) : ℝ :=
  nacelleK l d * blend lo hi M + 1 * (1 - blend lo hi M)

/-- Drag coefficient of fuselage and nacelle on their own reference area (parasite_drag_fuselage.py:89,
parasite_drag_nacelle.py:79). -/
noncomputable def bodyDrag (k : ℝ) (f : Friction) (Swet Sref : ℝ) : ℝ := k * f.cf * Swet / Sref

end Verif.Aero
