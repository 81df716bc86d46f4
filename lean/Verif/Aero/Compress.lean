import Verif.Num.Blend
import Mathlib.Analysis.SpecialFunctions.Pow.Real
import Mathlib.Analysis.SpecialFunctions.Trigonometric.Basic

/-!
Compressibility drag: crest-critical Mach number and drag rise of a wing, volume and lift wave drag.
-/

namespace Verif.Aero
open Real Verif.Num

/-- `mcc_cos_ws` (Common/Fidelity_Zero/Drag/compressibility_drag_wing.py:69-74,
Supersonic_Zero/Drag/compressibility_drag_total.py:250-255). -/
noncomputable def crestCos (tc cl : ℝ) : ℝ :=
  0.922321524499352 - 1.153885166170620 * tc - 0.304541067183461 * cl + 0.332881324404729 * tc * tc
    + 0.467317361111105 * tc * cl + 0.087490431201549 * cl * cl

/-- `mcc` (compressibility_drag_wing.py:65-77), `cs` the cosine of the sweep. -/
noncomputable def crest (tcw clw cs : ℝ) : ℝ := crestCos (tcw / cs) (clw / (cs * cs)) / cs

/-- What `compressibility_drag_wing` stores. -/
structure Comp where
  cd : ℝ
  crest : ℝ
  divergence : ℝ

/-- `compressibility_drag_wing` (compressibility_drag_wing.py:60-98); `none` for infinities and nan. -/
noncomputable def compWing (tcw clw cs M : ℝ) : Option Comp :=
  let mcc := crest tcw clw cs
  if cs = 0 ∨ mcc = 0 ∨ M / mcc < 0 then none
  else some ⟨0.0019 * (M / mcc) ^ (14.641 : ℝ) * cs * cs * cs, mcc, mcc * (1.02 + 0.08 * (1 - cs))⟩

/-- `compressibility_drag_wing_total` (compressibility_drag_wing_total.py:46-57): wings with drag coefficient and area. -/
noncomputable def compTotal (S : ℝ) (ws : List (ℝ × ℝ)) : ℝ := (ws.map fun w => w.1 * (w.2 / S)).sum

/-- A wing of the supersonic analysis; `cs` the cosine of its sweep. -/
structure SWing where
  highMach : Bool
  main : Bool
  tc : ℝ
  cs : ℝ
  area : ℝ

/-- `mcc` in `drag_div` (compressibility_drag_total.py:227-258). -/
noncomputable def superCrest (w : SWing) (cl : ℝ) : ℝ :=
  if w.highMach then 0.95 else crest w.tc (if w.main then cl else 0) w.cs

/-- `drag_div` (compressibility_drag_total.py:227-277), the drag; meant for a positive `mcc`. -/
noncomputable def dragDiv (S : ℝ) (w : SWing) (cl M : ℝ) : ℝ :=
  let d := 0.0019 * (M / superCrest w cl) ^ (14.641 : ℝ)
  (if w.highMach then d else d * w.cs ^ 3) * w.area / S

/-- The sum over the wings (compressibility_drag_total.py:97-98, 127-128), wings with their lift coefficients. -/
noncomputable def dragDivAll (S : ℝ) (ws : List (SWing × ℝ)) (M : ℝ) : ℝ := (ws.map fun w => dragDiv S w.1 w.2 M).sum

/-- `wave_drag_volume_raymer` (wave_drag_volume_raymer.py:53-75), sweep in degrees, not negative; the check for several
main wings is left out. -/
noncomputable def volumeRaymer (sweep L A S scale M : ℝ) : ℝ :=
  let sh := 9 * π / 2 * (A / L) * (A / L)
  let full := if 1.2 ≤ M then
    scale * (1 - 0.2 * (M - 1.2) ^ (0.57 : ℝ) * (1 - π * sweep ^ (0.77 : ℝ) / 100)) * sh else 0
  (scale * sh * blend 1.2 1.3 M + full * (1 - blend 1.2 1.3 M)) / S

/-- `wave_drag_volume_sears_haack` (wave_drag_volume_sears_haack.py:33-50), type 3. -/
noncomputable def volumeSears (L A S scale : ℝ) : ℝ :=
  let d := √(A / π) * 2
  3 / 2 * π * π * (d / L) * (d / L) * A / S * scale

/-- `CD_v_para` (compressibility_drag_total.py:106-114): parabola with vertex at the peak, through `v` at `m`. -/
noncomputable def parabola (peak top m v M : ℝ) : ℝ :=
  (v - top) / (m - peak) / (m - peak) * (M - peak) * (M - peak) + top

/-- `cd_c_v` (compressibility_drag_total.py:91-136): `sub` the sum of `drag_div` over the wings, `wv` the volume wave
drag, by Mach number. The value at the end of the rise is taken at the beginning (99). -/
noncomputable def volumeDrag (low high peak factor : ℝ) (sub wv : ℝ → ℝ) (M : ℝ) : ℝ :=
  let vLow := sub low
  let vHigh := wv low
  let top := vHigh * factor
  if M < peak then
    let h := blend low (peak - (peak - low) * 3 / 4) M
    sub M * h + parabola peak top low vLow M * (1 - h)
  else
    let h := blend peak high M
    parabola peak top high vHigh M * h + wv M * (1 - h)

/-- `fw` (Supersonic_Zero/Drag/wave_drag_lift.py:91-96). -/
noncomputable def fw (x : ℝ) : ℝ :=
  if 0.178 < x then
    0.4935 - 0.2382 * x + 1.6306 * x ^ 2 - 0.86 * x ^ 3 + 0.2232 * x ^ 4 - 0.0365 * x ^ 5 - 0.5
  else 0

/-- `wave_drag_lift` (Supersonic_Zero/Drag/wave_drag_lift.py:47-69) of a row: half span `s`, length `l`, aspect ratio. -/
noncomputable def waveLift (s l AR CL M : ℝ) : ℝ :=
  if 1.01 ≤ M then
    let p := 2 / AR * s / l
    let b := √(M ^ 2 - 1)
    let Kw := (1 + 1 / p) * fw (b * s / l) / (2 * b ^ 2 * (s / l) ^ 2)
    CL ^ 2 * (b ^ 2 / π * p * (s / l) * Kw)
  else 0

/-- `x[mask] = v` (numpy): the values go to the marked places in turn. -/
def scatter {α : Type} : List Bool → List α → List α → List α
  | true :: ms, _ :: xs, v :: vs => v :: scatter ms xs vs
  | false :: ms, x :: xs, vs => x :: scatter ms xs vs
  | _, xs, _ => xs

/-- `lift_wave_drag` (compressibility_drag_total.py:179-194), all rows, by their `waveLift` and Mach number: the values
assigned are the first ones of the array (189). -/
noncomputable def liftWave (area S : ℝ) (rows : List (ℝ × ℝ)) : List ℝ :=
  let mask := rows.map fun r => decide (1.01 ≤ r.2)
  let vals := (rows.map Prod.fst).take (mask.count true)
  (scatter mask (rows.map fun _ => 0) vals).map fun c => c * area / S

/-- A row of `wave_drag_lift` in Common/Fidelity_Zero/Helper_Functions/wave_drag_lift.py:51-65. -/
noncomputable def helperWaveRow (l Sref CL M : ℝ) : ℝ :=
  if 1.05 ≤ M then
    let x := π * (l ^ 2 / Sref) / 4
    CL ^ 2 * x / 4 * (√(1 + (√(M ^ 2 - 1) / x) ^ 2) - 1)
  else 0

/-- All its rows, by `helperWaveRow` and Mach number (wave_drag_lift.py:64-66): the supersonic values are written again
into the first rows. -/
noncomputable def helperWave (rows : List (ℝ × ℝ)) : List ℝ :=
  let vals := (rows.filter fun r => decide (1.05 ≤ r.2)).map Prod.fst
  vals ++ (rows.map Prod.fst).drop vals.length

end Verif.Aero
