import Mathlib.Analysis.SpecialFunctions.Pow.Real
import Mathlib.Analysis.SpecialFunctions.Trigonometric.Inverse
import Mathlib.Algebra.Order.Floor.Ring

/-!
`Components/Energy/Processes/Solar_Radiation.py`, one row, over `ℝ`.
-/

namespace Verif.Sun
open Real

/-- Where, when and how the aircraft flies (Solar_Radiation.py:61-68): day of the year and second of the day
of `start_time`, mission time, latitude and longitude in degrees, body angles, altitude. -/
structure Place where
  yday : ℝ
  sec : ℝ
  time : ℝ
  lat : ℝ
  lon : ℝ
  φ : ℝ
  θ : ℝ
  ψ : ℝ
  alt : ℝ

/-- `day` (71); `np.floor_divide`. -/
noncomputable def Place.day (p : Place) : ℝ := p.yday + ⌊p.time / (24 * 60 * 60)⌋

/-- `TUTC` (72); `np.mod(times, 24*60*60)` is what the floor leaves. -/
noncomputable def Place.tutc (p : Place) : ℝ := p.sec + (p.time - ⌊p.time / (24 * 60 * 60)⌋ * (24 * 60 * 60))

/-- `EoT` (84-87). -/
noncomputable def eot (day : ℝ) : ℝ :=
  let B := (360 / 365) * (day - 81) * π / 180
  9.87 * sin (2 * B) - 7.53 * cos B - 1.5 * sin B

/-- `LST` (90-93). -/
noncomputable def Place.lst (p : Place) : ℝ := p.tutc / 3600 + (4 * p.lon + eot p.day) / 60

/-- `HRA` (96). -/
noncomputable def Place.hra (p : Place) : ℝ := (15 * (p.lst - 12)) * π / 180

/-- `delta` (99). -/
noncomputable def decl (day : ℝ) : ℝ := -23.44 * cos ((360 / 365) * (day + 10) * π / 180) * π / 180

/-- The argument of the `arccos` in `psi` (102). -/
noncomputable def Place.cosZ (p : Place) : ℝ :=
  sin (decl p.day) * sin (p.lat * π / 180) + cos (decl p.day) * cos (p.lat * π / 180) * cos p.hra

/-- `psi` (102). -/
noncomputable def Place.zenith (p : Place) : ℝ := arccos p.cosZ

/-- `gammas` (105). -/
noncomputable def Place.azimuth (p : Place) : ℝ :=
  SignType.sign p.hra * |(cos p.zenith * sin (p.lat * π / 180) - sin (decl p.day)) / (sin p.zenith * cos (p.lat * π / 180))|

/-- `beta` (108). -/
noncomputable def Place.tilt (p : Place) : ℝ := arccos (cos p.θ * cos p.φ)

/-- `theta` (75, 111). -/
noncomputable def Place.incidence (p : Place) : ℝ :=
  arccos (cos p.zenith * cos p.tilt + sin p.zenith * sin p.tilt * cos (p.azimuth - (p.ψ - π)))

/-- `r` (115-120) with `mean_radius = 6.371e6` (Earth.py:47). -/
noncomputable def rAtm : ℝ := 6371000 / 9

/-- `AM` (121-125). -/
noncomputable def airMass (alt z : ℝ) : ℝ :=
  let c := alt / 9000
  if alt < 9000 then
    ((rAtm + c) * (rAtm + c) * (cos z * cos z) + 2 * rAtm * (1 - c) - c * c + 1) ^ (0.5 : ℝ) - (rAtm + c) * cos z
  else 0

/-- Direct intensity: `Id` (78-81, 128) and (137) above 9000 m. -/
noncomputable def direct (alt z : ℝ) : ℝ := if 9000 < alt then 1367 else 1367 * 0.7 ^ (airMass alt z ^ (0.678 : ℝ))

/-- `I` before the cut-off (131-139). -/
noncomputable def Place.raw (p : Place) : ℝ :=
  let Ih := direct p.alt p.zenith
    * (cos (p.lat * π / 180) * cos (decl p.day) * cos p.hra + sin (p.lat * π / 180) * sin (decl p.day))
  Ih * cos p.incidence / cos p.zenith

/-- `flux` (142-147). -/
noncomputable def Place.flux (p : Place) : ℝ :=
  max 0 (if p.zenith < -π / 2 ∨ 96.70995 * π / 180 < p.zenith then 0 else p.raw)

end Verif.Sun
