import Verif.Weights.Flops
import Verif.Weights.Light

/-!
# Raymer's fuselage, horizontal tail, landing gear and nacelles

`Methods/Weights/Correlations/Raymer/{fuselage, tail, landing_gear, prop_system}.py`.  Lengths and masses are in
metres and kilograms on entry.  A power of a negative number is not a number, here `none`; so is a division by a
zero length.
-/

namespace Verif.Weights
open Real

/-- What `fuselage_weight_Raymer` reads (Raymer/fuselage.py:42-53). -/
structure RaymerFuse where
  /-- `settings.Raymer.fuselage_mounted_landing_gear_factor` -/
  klg : ℝ
  /-- `max_takeoff` -/
  tow : ℝ
  /-- `ultimate_load` -/
  nult : ℝ
  /-- `lengths.total` -/
  length : ℝ
  width : ℝ
  height : ℝ
  /-- taper, projected span and quarter chord sweep of the main wing -/
  taper : ℝ
  span : ℝ
  sweep : ℝ

/-- `D` in feet (Raymer/fuselage.py:49, Raymer/systems.py:97). -/
noncomputable def RaymerFuse.D (f : RaymerFuse) : ℝ := (f.width / ft + f.height / ft) / 2

/-- `Sf` in square feet (Raymer/fuselage.py:50, Raymer/systems.py:98). -/
noncomputable def RaymerFuse.Sf (f : RaymerFuse) : ℝ := π * (f.length / ft / f.D - 1.7) * f.D ^ 2

/-- `Kws` (Raymer/fuselage.py:52-53). -/
noncomputable def RaymerFuse.Kws (f : RaymerFuse) : ℝ :=
  0.75 * (1 + 2 * f.taper) / (1 + f.taper) * (f.span / ft * tan f.sweep) / (f.length / ft)

open Classical in
/-- `fuselage_weight_Raymer` (Raymer/fuselage.py:42-57). -/
noncomputable def fuselageRaymer (f : RaymerFuse) : Option ℝ :=
  let L := f.length / ft
  if f.D = 0 ∨ L = 0 ∨ L < 0 ∨ f.tow / lb * f.nult < 0 ∨ f.Sf < 0 ∨ 1 + f.Kws < 0 ∨ L / f.D < 0 then none
  else some (0.328 * 1.06 * f.klg * (f.tow / lb * f.nult) ^ (0.5 : ℝ) * L ^ (0.25 : ℝ) * f.Sf ^ (0.302 : ℝ)
    * (1 + f.Kws) ^ (0.04 : ℝ) * (L / f.D) ^ (0.1 : ℝ) * lb)

open Classical in
/-- `tail_horizontal_Raymer` (Raymer/tail.py:96-111): tail arm in metres, from the aerodynamic centre of the main wing
to that of the tail.  `Se / Sht` is nan for a tail without area. -/
noncomputable def tailHorizontalRaymer (width span tow S arm sweep AR nult elevator : ℝ) : Option ℝ :=
  let Lt := arm / ft
  if span / ft = 0 ∨ S / ft ^ 2 ≤ 0 ∨ Lt ≤ 0 ∨ cos sweep = 0 ∨ 1 + width / ft / (span / ft) ≤ 0 ∨ tow / lb < 0 ∨ nult < 0
    ∨ AR < 0 ∨ 1 + elevator * (S / ft ^ 2) / (S / ft ^ 2) < 0 then none
  else some (0.0379 * 1 * (1 + width / ft / (span / ft)) ^ (-0.25 : ℝ) * (tow / lb) ^ (0.639 : ℝ) * nult ^ (0.1 : ℝ)
    * (S / ft ^ 2) ^ (0.75 : ℝ) * Lt⁻¹ * (0.3 * Lt) ^ (0.704 : ℝ) * (cos sweep)⁻¹ * AR ^ (0.166 : ℝ)
    * (1 + elevator * (S / ft ^ 2) / (S / ft ^ 2)) ^ (0.1 : ℝ) * lb)

/-- `Vstall`, 51 knots in metres per second (Raymer/landing_gear.py:59). -/
noncomputable def vstallRaymer : ℝ := 51 * (1852 / 3600)

open Classical in
/-- `landing_gear_Raymer` (Raymer/landing_gear.py:47-69): main and nose gear. -/
noncomputable def gearRaymer (ac : String) (tow range mainStrut noseStrut mainWheels noseWheels : ℝ) : Option (ℝ × ℝ) :=
  let W := landingWeight ac tow range
  let Lm := mainStrut / inch
  let Ln := noseStrut / inch
  let Nmw := mainWheels * 2
  if W < 0 ∨ Lm < 0 ∨ Ln < 0 ∨ Nmw < 0 ∨ noseWheels < 0 then none
  else some (0.0106 * 1 * W ^ (0.888 : ℝ) * (3 * 1.5 : ℝ) ^ (0.25 : ℝ) * Lm ^ (0.4 : ℝ) * Nmw ^ (0.321 : ℝ)
      * (2 : ℝ) ^ (-0.5 : ℝ) * vstallRaymer ^ (0.1 : ℝ) * lb,
    0.032 * 1 * W ^ (0.646 : ℝ) * (3 * 1.5 : ℝ) ^ (0.2 : ℝ) * Ln ^ (0.5 : ℝ) * noseWheels ^ (0.45 : ℝ) * lb)

/-- `nacelle_Raymer` (Raymer/prop_system.py:91-101) for `n` nacelles with length and diameter of the first one, all
arguments not negative; `weng` is what `engine_FLOPS` returns, in kilograms. -/
noncomputable def nacelleRaymer (n length diameter nult weng : ℝ) : ℝ :=
  let Nlt := length / ft
  let Nw := diameter / ft
  let Wec := 2.331 * weng ^ (0.901 : ℝ) * 1.18
  let Sn := 2 * π * Nw / 2 * Nlt + π * Nw ^ 2 / 4 * 2
  0.6724 * 1 * Nlt ^ (0.1 : ℝ) * Nw ^ (0.294 : ℝ) * nult ^ (0.119 : ℝ) * Wec ^ (0.611 : ℝ) * n * 0.984 * Sn ^ (0.224 : ℝ) * lb

end Verif.Weights
