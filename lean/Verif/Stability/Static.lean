import Verif.Stability.Planform
import Mathlib.Analysis.SpecialFunctions.Log.Basic

/-!
Static stability: lift-curve slope, pitching and yawing moment slopes and the static part of the
`Fidelity_Zero` stability analysis
(`trunk/SUAVE/Methods/Flight_Dynamics/Static_Stability/Approximations`,
`trunk/SUAVE/Analyses/Stability/Fidelity_Zero.py`). One row (control point) of the arrays at a time.
-/

namespace Verif.Stability
open Real

open Classical in
/-- `Beta` of `datcom.py` 77, 81-82: the array starts as ones and is overwritten where the Mach number is
below or above one. -/
noncomputable def datcomBeta (M : ℝ) : ℝ :=
  if M < 1 then sqrt (1 - M ^ 2) else if 1 < M then sqrt (M ^ 2 - 1) else 1

open Classical in
/-- `cla_M` of `datcom.py` 74, 79, 83-84. -/
noncomputable def datcomSection (M : ℝ) : ℝ :=
  if M < 1 then 6.13 / datcomBeta M else if 1 < M then 4 / datcomBeta M else 1

/-- `datcom`, `datcom.py` 58-90. -/
noncomputable def datcom (w : SweepWing) (M : ℝ) : ℝ :=
  let ar := w.arUsed
  let half := convertSweep w 0.25 0.5
  let B := datcomBeta M
  let k := datcomSection M / (2 * π / B)
  2 * π * ar / (2 + sqrt (ar ^ 2 * (B * B) / (k * k) * (1 + tan half ^ 2 / (B * B)) + 4))

/-- The fields of a lifting surface read by `taw_cmalpha`. `vertical` is the python truth value. The airfoil
coefficients default to zero (`taw_cmalpha.py` 120-131). -/
structure Lifting where
  area : ℝ
  origin : ℝ
  ac : ℝ
  eta : ℝ
  epAlpha : ℝ
  CLalpha : ℝ
  vertical : Bool
  twistRoot : ℝ
  twistTip : ℝ
  taper : ℝ
  al0 : ℝ := 0
  cmac : ℝ := 0

/-- The fields of the fuselage named `fuselage` read by `taw_cmalpha`. -/
structure Tube where
  width : ℝ
  length : ℝ

/-- The main wing and reference quantities read by `taw_cmalpha`, lines 75-81. -/
structure MainWing where
  Sref : ℝ
  mac : ℝ
  root : ℝ
  taper : ℝ
  span : ℝ
  sweep : ℝ
  origin : ℝ

/-- Body term, `taw_cmalpha.py` 93-103. -/
noncomputable def cmBody (g : MainWing) (fus : Option Tube) : ℝ :=
  match fus with
  | some f =>
    let xrqc := g.origin + 0.5 * f.width * tan g.sweep + 0.25 * g.root * (1 - f.width / g.span * (1 - g.taper))
    let p := xrqc / f.length
    let Kf := 1.5012 * p ^ 2 + 0.538 * p + 0.0331
    Kf * f.width * f.width * f.length / g.Sref / g.mac
  | none => 0

/-- Slope of one surface, `taw_cmalpha.py` 137-138. -/
noncomputable def cmSurf (g : MainWing) (xcg : ℝ) (s : Lifting) : ℝ :=
  -(s.origin + s.ac - xcg) * s.area / (g.mac * g.Sref) * (s.CLalpha * s.eta * (1 - s.epAlpha)) * (1 - num s.vertical)

/-- Zero-lift moment of one surface, `taw_cmalpha.py` 134-139. -/
noncomputable def cm0Surf (g : MainWing) (xcg : ℝ) (s : Lifting) : ℝ :=
  let CL0 := s.CLalpha * ((s.twistRoot + s.taper * s.twistTip) / 2 - s.al0)
  s.cmac + s.area * s.eta * CL0 * (s.origin + s.ac - xcg) * (1 - s.epAlpha) * (1 - num s.vertical) / (g.mac * g.Sref)

/-- What `taw_cmalpha` returns: `cm_alpha`, `CM0`, `CM`. -/
structure CmOut where
  slope : ℝ
  zero : ℝ
  total : ℝ

/-- `taw_cmalpha`, `taw_cmalpha.py` 75-150. The centre of gravity `xcg` is that of the mission mass (lines
86-89), modelled as given. -/
noncomputable def tawCmalpha (g : MainWing) (fus : Option Tube) (surfs : List Lifting) (xcg alpha : ℝ) : CmOut :=
  let slope := (surfs.map (cmSurf g xcg)).sum + cmBody g fus
  let zero := (surfs.map (cm0Surf g xcg)).sum
  { slope := slope, zero := zero, total := slope * alpha + zero }

/-- The fields of a fuselage read by `taw_cnbeta`, lines 146-152. -/
structure SideBody where
  sideArea : ℝ
  length : ℝ
  hMax : ℝ
  width : ℝ
  h1 : ℝ
  h2 : ℝ
  hWing : ℝ

/-- Flight condition and reference quantities read by `taw_cnbeta`, lines 124-137. -/
structure SideRef where
  S : ℝ
  b : ℝ
  AR : ℝ
  zw : ℝ
  sweep : ℝ
  xcg : ℝ
  V : ℝ
  mu : ℝ
  rho : ℝ

/-- Body term of one fuselage, `taw_cnbeta.py` 155-166. -/
noncomputable def cnBody (r : SideRef) (f : SideBody) : ℝ :=
  let Re := r.rho * r.V * f.length / r.mu
  let x1 := r.xcg / f.length
  let x2 := f.length * f.length / f.sideArea
  let x3 := sqrt (f.h1 / f.h2)
  let x4 := f.hMax / f.width
  let k1 := 3.2413 * x1 - 0.663345 + 6.1086 * exp (-0.22 * x2)
  let k2 := (-0.2023 + 1.3422 * x3 - 0.1454 * x3 * x3) * k1
  let k3 := 0.7870 + 0.1038 * x4 + 0.1834 * x4 * x4 - 2.811 * exp (-4 * x4)
  let KN := (-0.47899 + k3 * k2) * 0.001
  let KR := 1 + 0.8 * log (Re / 1000000) / log 50
  let drop := 57.3 * KN * KR * f.sideArea * f.length / r.S / r.b
  0 - drop

open Classical in
/-- Empirical factor, `taw_cnbeta.py` 179-185. -/
noncomputable def finFactor (bf : ℝ) : ℝ :=
  if bf < 2 then 0.76 else if bf < 3.5 then 0.76 + 0.24 * (bf - 2) / 1.5 else 1

/-- The extended fin as `taw_cnbeta` sees it, lines 128-132: extended area, origin and span, aerodynamic centre and
lift-curve slope from `datcom`. -/
structure Fin where
  S : ℝ
  x : ℝ
  b : ℝ
  ac : ℝ
  CLa : ℝ

/-- `taw_cnbeta`, `taw_cnbeta.py` 124-200. `none` when there is no fuselage: the names `d_i` and `h_max` of lines 179
and 193 are then unbound; both are those of the last fuselage of the loop. The Mach number is an array (a bare float is
wrapped into a list, on which `datcom` fails, line 175). -/
noncomputable def tawCnbeta (r : SideRef) (v : Fin) (fus : List SideBody) : Option ℝ :=
  match fus.getLast? with
  | none => none
  | some last =>
    let body := fus.foldl (fun acc f => acc + cnBody r f) 0
    let lv := v.x + v.ac - r.xcg
    let kv := finFactor (v.b / last.hWing)
    let ks := 1 + cos r.sweep
    let dsdb := 0.724 + 3.06 * (v.S / r.S / ks) + 0.4 * r.zw / last.hMax + 0.009 * r.AR
    let Cy := -kv * v.CLa * dsdb * (v.S / r.S)
    some (0 + -Cy * lv / r.b + body)

/-- `ep_alpha`, `Supporting_Functions/ep_alpha.py` 42. -/
noncomputable def epAlpha (CLa Sref span : ℝ) : ℝ := 2 * CLa / π / (span ^ 2 / Sref)

/-- A surface of the vehicle before `Fidelity_Zero.__call__`: everything but lift slope and downwash. -/
structure BareSurf where
  w : SweepWing
  base : Lifting

/-- Lines 146-150 of `Fidelity_Zero.py`: lift slope and downwash slope of each surface, the latter from its own lift slope
and its own aspect ratio. -/
noncomputable def BareSurf.filled (M : ℝ) (s : BareSurf) : Lifting :=
  let CLa := datcom s.w M
  { s.base with CLalpha := CLa, epAlpha := epAlpha CLa s.base.area (sqrt (s.w.ar * s.base.area)) }

/-- Static part of the result, `Fidelity_Zero.py` 125-164, for one condition. `cgX` is the entry of the stored centre of
gravity used on line 164, `xcg` that of the mission mass inside `taw_cmalpha`. -/
structure StaticOut where
  CmAlpha : ℝ
  margin : ℝ
  neutral : ℝ

/-- See `StaticOut`. -/
noncomputable def fidelityZeroStatic (g : MainWing) (fus : Option Tube) (main : SweepWing) (surfs : List BareSurf) (M cgX xcg alpha : ℝ) :
    StaticOut :=
  let slope := datcom main M
  let cm := tawCmalpha g fus (surfs.map (BareSurf.filled M)) xcg alpha
  let margin := -cm.slope / slope
  { CmAlpha := cm.slope, margin := margin, neutral := cgX + g.mac * margin }

end Verif.Stability
