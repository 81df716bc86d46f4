import Verif.Weights.Raymer

/-!
# Raymer's items of the systems

`Methods/Weights/Correlations/Raymer/systems.py`, lines 61 to 106: the nine items in pounds.  Their conversion and their
sum are in `Verif.Weights.Flops`.  A power of a negative number is no number, here `none`.
-/

namespace Verif.Weights
open Real

/-- What `systems_Raymer` reads (61-71), lengths in metres, masses in kilograms. -/
structure RaymerSys where
  /-- fuselage length, width and largest height -/
  length : ℝ
  width : ℝ
  height : ℝ
  /-- projected span of the main wing -/
  span : ℝ
  /-- `flap_ratio * reference_area` -/
  flaps : ℝ
  tow : ℝ
  mach : ℝ
  pax : ℕ
  engines : ℕ
  cargo : ℝ

/-- `flight_crew` (73-76). -/
def RaymerSys.crew (s : RaymerSys) : ℕ := if 150 ≤ s.pax then 3 else 2

/-- `D` in feet (97). -/
noncomputable def RaymerSys.D (s : RaymerSys) : ℝ := (s.width / ft + s.height / ft) / 2

/-- `Sf` in square feet (98). -/
noncomputable def RaymerSys.Sf (s : RaymerSys) : ℝ := π * (s.length / ft / s.D - 1.7) * s.D ^ 2

/-- `WSC` (84). -/
noncomputable def RaymerSys.controls (s : RaymerSys) : ℝ :=
  36.28 * s.mach ^ (0.003 : ℝ) * (s.flaps / ft ^ 2) ^ (0.489 : ℝ) * (4 : ℝ) ^ (0.484 : ℝ) * (s.crew : ℝ) ^ (0.124 : ℝ)

/-- `WAPU` (86-90). -/
noncomputable def RaymerSys.apu (s : RaymerSys) : ℝ := max (if 6 ≤ s.pax then 7 * (s.pax : ℝ) else 0) (70 / lb)

/-- `WIN` (92). -/
noncomputable def RaymerSys.instruments (s : RaymerSys) : ℝ :=
  4.509 * (s.crew : ℝ) ^ (0.541 : ℝ) * s.engines * (s.length / ft + s.span / ft) ^ (0.5 : ℝ)

/-- `WHYD` (93). -/
noncomputable def RaymerSys.hydraulics (s : RaymerSys) : ℝ := 0.2673 * 7 * (s.length / ft + s.span / ft) ^ (0.937 : ℝ)

/-- `WELEC` (94). -/
noncomputable def RaymerSys.electrical (s : RaymerSys) : ℝ :=
  7.291 * (60 : ℝ) ^ (0.782 : ℝ) * (2 * (s.length / ft)) ^ (0.346 : ℝ) * (s.engines : ℝ) ^ (0.1 : ℝ)

/-- `WAVONC` (95). -/
noncomputable def raymerAvionics : ℝ := 1.73 * (1400 : ℝ) ^ (0.983 : ℝ)

/-- `WFURN` (99-101). -/
noncomputable def RaymerSys.furnishings (s : RaymerSys) : ℝ :=
  0.0577 * (s.crew : ℝ) ^ (0.1 : ℝ) * (s.cargo / lb) ^ (0.393 : ℝ) * s.Sf ^ (0.75 : ℝ) + 46 * s.pax + 75 * s.crew
    + 2.5 * (s.pax : ℝ) ^ (1.33 : ℝ)

/-- `WAC` (103-104). -/
noncomputable def RaymerSys.airCond (s : RaymerSys) : ℝ :=
  62.36 * (s.pax : ℝ) ^ (0.25 : ℝ) * (s.D ^ 2 * π / 4 * (s.length / ft) / 1000) ^ (0.604 : ℝ) * (1400 : ℝ) ^ (0.1 : ℝ)

/-- `WAI` (106). -/
noncomputable def RaymerSys.antiIce (s : RaymerSys) : ℝ := 0.002 * (s.tow / lb)

open Classical in
/-- The items in the order of the sum of line 118; `none` if one of them is not a number. -/
noncomputable def raymerItems (s : RaymerSys) : Option (List ℝ) :=
  if s.D = 0 ∨ s.mach < 0 ∨ s.flaps < 0 ∨ s.length < 0 ∨ s.length / ft + s.span / ft < 0 ∨ s.cargo < 0 ∨ s.Sf < 0 then none
  else some [s.controls, s.apu, s.instruments, s.hydraulics, s.electrical, raymerAvionics, s.furnishings, s.airCond,
    s.antiIce]

end Verif.Weights
