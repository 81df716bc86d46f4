import Verif.Noise.LevelProps
import Mathlib.Analysis.SpecialFunctions.Trigonometric.Basic

/-!
`Methods/Noise/Fidelity_One/Airframe`: wing, flap, slat and landing gear noise, and their sum.  Spectra are functions of
the band; `Units.ft`, `Units.kts` are the parameters `ft`, `kts`.
-/

namespace Verif.Noise.Air
open Real

/-- `Att_dB` (atmospheric_attenuation.py:41). -/
noncomputable def attTable : List ℝ :=
  [0.09, 0.11, 0.14, 0.17, 0.22, 0.28, 0.35, 0.44, 0.55, 0.7, 0.88, 1.11, 1.42, 1.78, 2.24, 2.88, 3.64, 4.6, 5.89, 7.63,
    8.68, 11.08, 14.87, 20.61]

/-- `atmospheric_attenuation` (atmospheric_attenuation.py:41-46). -/
noncomputable def attenuation (dist : ℝ) (i : ℕ) : ℝ := attTable.getD i 0 * dist / 1000

/-- Flight condition and line of sight. -/
structure Cond where
  v : ℝ
  visc : ℝ
  M : ℝ
  phi : ℝ
  theta : ℝ
  dist : ℝ

/-- `fmax` (noise_clean_wing.py:57, 69). -/
noncomputable def delta (ft S b : ℝ) (c : Cond) : ℝ := 0.37 * (S / b) * (c.v / ft * S / (b * c.visc)) ^ (-0.2 : ℝ)

/-- `noise_clean_wing` (noise_clean_wing.py:57-76) at frequency `f`; `horz` is `IsHorz==1`. -/
noncomputable def cleanWing (ft kts S b ND : ℝ) (horz : Bool) (c : Cond) (f : ℝ) : ℝ :=
  let d := delta ft S b c
  let dir := if horz then cos c.phi else sin c.phi
  if dir = 0 then 0
  else
    let fmax := 0.1 * (c.v / ft) / (d * (1 - c.M * cos c.theta))
    let oaspl := 50 * logb 10 ((c.v / kts) / 100) + 10 * logb 10 (d * b / c.dist ^ 2) + 8 * ND
      + 20 * logb 10 (dir * sin c.theta * cos (c.theta / 2)) + 104.3
    oaspl + 10 * logb 10 (0.613 * (f / fmax) ^ 4 * ((f / fmax) ^ (1.5 : ℝ) + 0.5) ^ (-4 : ℤ))
      - 0.03 * |f / fmax - 1| ^ (1.5 : ℝ)

/-- `G` (noise_trailing_edge_flap.py:50-66); `none` for another number of slots means that `G` stays zero. -/
noncomputable def flapG (slots : ℕ) (t : ℝ) : ℝ :=
  if slots = 1 ∨ slots = 2 then
    if t < 2 then 99 + 10 * logb 10 t else if t < 20 then 103.82 - 6 * logb 10 t else 135.04 - 30 * logb 10 t
  else if slots = 3 then
    if t < 2 then 99 + 10 * logb 10 t else if t < 75 then 102.61 - 2 * logb 10 t else 158.11 - 30 * logb 10 t
  else 0

/-- `directivity` (noise_trailing_edge_flap.py:70-73). -/
noncomputable def directivity (phi theta deltaf : ℝ) : ℝ :=
  if π ≤ theta + deltaf then 0 else 20 * logb 10 (sin theta * cos phi ^ 2 * sin (theta + deltaf))

/-- `noise_trailing_edge_flap` (noise_trailing_edge_flap.py:46-78). -/
noncomputable def flap (ft kts Sf cf deltaf : ℝ) (slots : ℕ) (c : Cond) (f : ℝ) : ℝ :=
  flapG slots (f * cf / (c.v / ft * (1 - c.M * cos c.theta))) + 10 * logb 10 (Sf * sin deltaf ^ 2 / c.dist ^ 2)
    + 60 * logb 10 ((c.v / kts) / 100) + directivity c.phi c.theta deltaf

/-- The spectrum functions of a gear (noise_landing_gear.py:66-76): `none` when `G1`, `G2` are not assigned.  `x` is
`frequency*D/(velocity_fts*(1-M*cos(theta)))`, `y` the same with the denominator squared (69). -/
noncomputable def gearG (wheels : ℕ) (x y H D phi : ℝ) : Option (ℝ × ℝ) :=
  if wheels = 1 ∨ wheels = 2 then
    some (13 + logb 10 (4.5 * x ^ 2 * (12.5 + x ^ 2) ^ (-2.25 : ℝ)),
      ((13 + logb 10 (2.0 * y)) * (30 + x ^ 8)⁻¹ * (0.34 * H / D)) * sin phi ^ 2)
  else if wheels = 4 then
    some (12 + (logb 10 x) ^ 2 * (0.4 + x ^ 2) ^ (-1.6 : ℝ),
      (12 + logb 10 (7.0 * x ^ 3 * (1.06 + x ^ 2) ^ (-3 : ℤ) * 1)) * sin phi ^ 2)
  else none

/-- `noise_landing_gear` (noise_landing_gear.py:63-83). -/
noncomputable def landingGear (ft kts D H : ℝ) (wheels : ℕ) (c : Cond) (f : ℝ) : Option ℝ :=
  let u := c.v / ft * (1 - c.M * cos c.theta)
  (gearG wheels (f * D / u) (f * D / u ^ 2) H D c.phi).map fun g =>
    60 * logb 10 (c.v / kts / 194) + 20 * logb 10 (D / c.dist) + 10 * logb 10 ((10 : ℝ) ^ g.1 + (10 : ℝ) ^ g.2)

/-- Dimensions of the gear, in feet. -/
structure GearDims where
  mainTire : ℝ
  noseTire : ℝ
  mainStrut : ℝ
  noseStrut : ℝ

/-- `Dp`, `Hp` (noise_airframe_Fink.py:101-102, 181). -/
noncomputable def mainGear (ft kts : ℝ) (g : GearDims) (wheels : ℕ) (c : Cond) (f : ℝ) : Option ℝ :=
  landingGear ft kts g.mainTire g.noseTire wheels c f

/-- `Dn`, `Hn` (noise_airframe_Fink.py:103-104, 182). -/
noncomputable def noseGear (ft kts : ℝ) (g : GearDims) (wheels : ℕ) (c : Cond) (f : ℝ) : Option ℝ :=
  landingGear ft kts g.mainStrut g.noseStrut wheels c f

/-- `max` of a spectrum of 24 bands (noise_leading_edge_slat.py:47). -/
noncomputable def top (s : ℕ → ℝ) : ℝ := (Finset.range 24).sup' ⟨0, by simp⟩ s

/-- `noise_leading_edge_slat` (noise_leading_edge_slat.py:45-52); `s2` is `noise_clean_wing(0.15*Sw,...)`. -/
noncomputable def slat (wing s2 : ℕ → ℝ) (i : ℕ) : ℝ :=
  let peakfactor := 3 + top wing - top s2
  10 * logb 10 ((10 : ℝ) ^ (0.1 * (wing i + 3)) + (10 : ℝ) ^ (0.1 * (s2 i + peakfactor)))

/-- What `noise_airframe_Fink` uses of one time step: the spectra returned by the component functions, before the
attenuation. -/
structure Step where
  dist : ℝ
  wing : ℕ → ℝ
  ht : ℕ → ℝ
  vt : ℕ → ℝ
  s2 : ℕ → ℝ
  flap : ℕ → ℝ
  main : ℕ → ℝ
  nose : ℕ → ℝ

/-- Configuration (noise_airframe_Fink.py:98, 105, 109). -/
structure Config where
  deltaf : ℝ
  gearUp : Bool
  mainUnits : ℝ

/-- The components as added (noise_airframe_Fink.py:164-185). -/
structure Parts where
  wing : ℝ
  ht : ℝ
  vt : ℝ
  slat : ℝ
  flap : ℝ
  main : ℝ
  nose : ℝ

open Classical in
/-- noise_airframe_Fink.py:164-185, band `i`. -/
noncomputable def parts (k : Config) (s : Step) (i : ℕ) : Parts :=
  let a := attenuation s.dist
  let wing := fun j => s.wing j - a j
  let main := if k.gearUp then 0 else s.main i - a i
  { wing := wing i
    ht := s.ht i - a i
    vt := s.vt i - a i
    slat := slat wing s.s2 i - a i
    flap := if k.deltaf = 0 then 0 else s.flap i - a i
    main := if 1 < k.mainUnits then main + 3 * (k.mainUnits - 1) else main
    nose := if k.gearUp then 0 else s.nose i - a i }

/-- `SPL_total` (noise_airframe_Fink.py:189-190). -/
noncomputable def airTotal (p : Parts) : ℝ :=
  10 * logb 10 ((10 : ℝ) ^ (0.1 * p.wing) + (10 : ℝ) ^ (0.1 * p.ht) + (10 : ℝ) ^ (0.1 * p.flap)
    + (10 : ℝ) ^ (0.1 * p.slat) + (10 : ℝ) ^ (0.1 * p.main) + (10 : ℝ) ^ (0.1 * p.nose))

/-- `SPL_total_history` (noise_airframe_Fink.py:148, 155, 192): `range(nrange-1)` leaves the last row zero. -/
noncomputable def history (k : Config) (s : List Step) (i t : ℕ) : ℝ :=
  if t < s.length - 1 then ((s[t]?).map fun x => airTotal (parts k x i)).getD 0 else 0

end Verif.Noise.Air
