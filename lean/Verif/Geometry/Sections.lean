import Verif.Geometry.Planform
import Mathlib.Analysis.SpecialFunctions.Pow.Real

/-!
Spanwise stations, spar box volume, tails from volume coefficients, fuel volume and nacelle size
(`trunk/SUAVE/Methods/Geometry`). Exact real arithmetic.
-/

namespace Verif.Geometry
open Real

/-- `compute_chord_length_from_span_location`, `Three_Dimensional/compute_chord_length_from_span_location.py` 36-42. -/
noncomputable def chordAt (cr ct b y : ℝ) : ℝ := ct + (cr - ct) / (b / 2) * (b / 2 - y)

open Classical in
/-- `compute_span_location_from_chord_length`, `Three_Dimensional/compute_span_location_from_chord_length.py` 37-46. -/
noncomputable def spanAt (cr ct b c : ℝ) : ℝ := if cr - ct = 0 then 0 else b / 2 * (1 - (c - ct) / (cr - ct))

/-- What `estimate_naca_4_series_internal_volume` reads: thickness to chord, chords, span, camber and its position. -/
structure Box where
  tc : ℝ
  root : ℝ
  tip : ℝ
  span : ℝ
  m : ℝ
  p : ℝ

/-- Half thickness of the section at the front spar per chord and thickness, line 65. -/
noncomputable def thickFront : ℝ := 5 * (0.2969 * sqrt 0.1 - 0.126 * 0.1 - 0.3516 * 0.1 ^ 2 + 0.2843 * 0.1 ^ 3 - 0.1015 * 0.1 ^ 4)

/-- The same at the rear spar, line 66. -/
noncomputable def thickRear : ℝ := 5 * (0.2969 * sqrt 0.6 - 0.126 * 0.6 - 0.3516 * 0.6 ^ 2 + 0.2843 * 0.6 ^ 3 - 0.1015 * 0.6 ^ 4)

/-- Camber at the front spar of a section of chord `c`, lines 52, 54. -/
noncomputable def Box.camberFront (w : Box) (c : ℝ) : ℝ := w.m * (0.1 * c / w.p ^ 2) * (2 * w.p - 0.1)

/-- Camber at the rear spar, lines 53, 55. -/
noncomputable def Box.camberRear (w : Box) (c : ℝ) : ℝ := w.m * ((c - 0.6 * c) / (1 - w.p) ^ 2) * (1 + 0.6 - 2 * w.p)

/-- Slope angle of the camber line at the front spar, lines 57, 60. -/
noncomputable def Box.angleFront (w : Box) : ℝ := arctan (2 * w.m / w.p ^ 2 * (w.p - 0.1))

/-- The same at the rear spar, lines 58, 61. -/
noncomputable def Box.angleRear (w : Box) : ℝ := arctan (2 * w.m / (1 - w.p) ^ 2 * (w.p - 0.6))

/-- Half height of the front spar of a section, lines 65, 68 and the second summand of 71. -/
noncomputable def Box.halfFront (w : Box) (c : ℝ) : ℝ := w.tc * c * thickFront * cos w.angleFront

/-- Half height of the rear spar. -/
noncomputable def Box.halfRear (w : Box) (c : ℝ) : ℝ := w.tc * c * thickRear * cos w.angleRear

/-- `estimate_naca_4_series_internal_volume`, `Three_Dimensional/estimate_naca_4_series_internal_volume.py` 46-99. The lower
end of the front spar at mid span, line 89, is taken along the slope of the upper end. -/
noncomputable def Box.volume (w : Box) : ℝ :=
  let rc := w.root
  let tc := w.tip
  let span := w.span
  let yuFR := w.camberFront rc + w.halfFront rc
  let ylFR := w.camberFront rc - w.halfFront rc
  let yuRR := w.camberRear rc + w.halfRear rc
  let ylRR := w.camberRear rc - w.halfRear rc
  let yuFT := w.camberFront tc + w.halfFront tc
  let ylFT := w.camberFront tc - w.halfFront tc
  let yuRT := w.camberRear tc + w.halfRear tc
  let ylRT := w.camberRear tc - w.halfRear tc
  let slopeuF := (yuFR - yuFT) / (span / 2)
  let slopeuR := (yuRR - yuRT) / (span / 2)
  let slopelR := (ylRR - ylRT) / (span / 2)
  let yuFM := span / 4 * slopeuF + yuFT
  let ylFM := span / 4 * slopeuF + ylFT
  let yuRM := span / 4 * slopeuR + yuRT
  let ylRM := span / 4 * slopelR + ylRT
  let mid := (rc - tc) / (span / 2) * (span / 4) + tc
  let aRoot := ((yuFR - ylFR) + (yuRR - ylRR)) * (rc * (0.6 - 0.1)) / 2
  let aTip := ((yuFT - ylFT) + (yuRT - ylRT)) * (tc * (0.6 - 0.1)) / 2
  let aMid := ((yuFM - ylFM) + (yuRM - ylRM)) * (mid * (0.6 - 0.1)) / 2
  2 * (span / 12) * (aRoot + 4 * aMid + aTip)

/-- `horizontal_tail_planform_raymer`, `Planform/horizontal_tail_planform_raymer.py` 39-40: the tail gets a reference area from
the wing's mean aerodynamic chord and reference area, then its planform. -/
noncomputable def horizontalTail (tail : TrapIn) (mac sref arm c : ℝ) : TrapIn × TrapOut :=
  let t := { tail with sref := mac * c * sref / arm }
  (t, wingPlanform t)

/-- `vertical_tail_planform_raymer`, `Planform/vertical_tail_planform_raymer.py` 44-46: with the wing's span. -/
noncomputable def verticalTail (tail : TrapIn) (span sref arm c : ℝ) : TrapIn × TrapOut :=
  let t := { tail with sref := span * c * sref / arm }
  (t, wingPlanform t)

/-- `wing_fuel_volume`, `Planform/wing_fuel_volume.py` 34-42. -/
noncomputable def fuelVolume (sref ar tc : ℝ) : ℝ := 0.90 * tc * sref ^ (1.5 : ℝ) * ar ^ (-0.5 : ℝ) * 0.55

/-- What `compute_turbofan_geometry` writes. -/
structure Nacelle where
  diameter : ℝ
  length : ℝ
  inlet : ℝ
  wetted : ℝ

/-- `compute_turbofan_geometry`, `Cross_Section/Propulsion/compute_turbofan_geometry.py` 45-60; `lbf` is `Units.lbf`, an inch
is `Units.inches = 0.0254`. -/
noncomputable def turbofanGeometry (lbf thrust : ℝ) : Nacelle :=
  let t := thrust / lbf
  let d := 0.0254 * (1.0827 * t ^ (0.4134 : ℝ))
  let l := 2.4077 * t ^ (0.3876 : ℝ) * 0.0254
  { diameter := d, length := l, inlet := d / sqrt 2.1, wetted := 1.1 * π * d * l }

end Verif.Geometry
