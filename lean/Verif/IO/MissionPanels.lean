import Mathlib.Analysis.Real.Sqrt

/-!
What the panels of the mission plots show.

Source: trunk/SUAVE/Plots/Performance/Mission_Plots.py: `plot_altitude_sfc_weight` (50-72), `plot_aircraft_velocities` (109-130),
`plot_aerodynamic_coefficients` (307-333), `plot_aerodynamic_forces` (372-398), `plot_battery_pack_conditions` (507-564), `plot_battery_cell_conditions`
(617-691), `plot_flight_conditions` (820-846), `plot_stability_coefficients` (1218-1244), `plot_solar_flux` (1284-1303).

Simplifications: one control point; the panels with two curves show the first one; the C-rates are those of C375.  Colours and axes are left out.
-/

namespace Verif.IO.MissionPanels

/-- The conditions at a control point, in units of the SI. -/
structure Point where
  time : ℝ
  mass : ℝ
  altitude : ℝ
  massRate : ℝ
  thrust : ℝ
  velocity : ℝ
  density : ℝ
  mach : ℝ
  cl : ℝ
  cd : ℝ
  alpha : ℝ
  liftZ : ℝ
  dragX : ℝ
  throttle : ℝ
  packPower : ℝ
  packEnergy : ℝ
  packVolts : ℝ
  packCurrent : ℝ
  soc : ℝ
  cellPower : ℝ
  cellEnergy : ℝ
  cellVolts : ℝ
  cellCurrent : ℝ
  cellTemp : ℝ
  cellCharge : ℝ
  pitch : ℝ
  range : ℝ
  cm : ℝ
  cmAlpha : ℝ
  margin : ℝ
  flux : ℝ

/-- The units that labels name, in units of the SI. -/
structure UnitSet where
  min : ℝ
  hr : ℝ
  lb : ℝ
  lbf : ℝ
  ft : ℝ
  kts : ℝ
  mph : ℝ
  nmi : ℝ
  deg : ℝ
  wh : ℝ
  mj : ℝ

/-- The labels of the vertical axes; a plot of the cell has labels of its own. -/
inductive Label
  | altitudeFt | sfc | weightLb | velocityKts | equivalent | mach | alphaDeg | cl | cd | ratio | throttle | liftN | thrustN | dragN
  | soc | packKwh | packKw | packV | packA | cellWh | cellW | cellV | cellA | cellAh | cellK
  | airspeedMph | pitchDeg | rangeNmi | cm | cmAlpha | marginPercent | flux | chargingW | packMj
  deriving DecidableEq

/-- A panel: its label and what it draws. -/
structure Panel where
  label : Label
  shown : UnitSet → Point → ℝ

/-- Lines 50-72. -/
noncomputable def sfcPlot : List Panel :=
  [⟨.altitudeFt, fun u p => p.altitude / u.ft⟩, ⟨.sfc, fun u p => p.massRate / u.lb / (p.thrust / u.lbf) * u.hr⟩, ⟨.weightLb, fun u p => p.mass / u.lb⟩]

/-- Lines 109-130. -/
noncomputable def velocityPlot : List Panel :=
  [⟨.velocityKts, fun u p => p.velocity / u.kts⟩, ⟨.equivalent, fun u p => p.velocity * Real.sqrt (p.density / 1.225) / u.kts⟩, ⟨.mach, fun _ p => p.mach⟩]

/-- Lines 307-333. -/
noncomputable def coefficientPlot : List Panel :=
  [⟨.alphaDeg, fun u p => p.alpha / u.deg⟩, ⟨.cl, fun _ p => p.cl⟩, ⟨.cd, fun _ p => p.cd⟩, ⟨.ratio, fun _ p => p.cl / p.cd⟩]

/-- Lines 372-398. -/
def forcePlot : List Panel :=
  [⟨.throttle, fun _ p => p.throttle⟩, ⟨.liftN, fun _ p => -p.liftZ⟩, ⟨.thrustN, fun _ p => p.thrust⟩, ⟨.dragN, fun _ p => -p.dragX⟩]

/-- Lines 507-564. -/
noncomputable def packPlot : List Panel :=
  [⟨.soc, fun _ p => p.soc⟩, ⟨.packKwh, fun u p => p.packEnergy / u.wh / 1000⟩, ⟨.packKw, fun _ p => -p.packPower / 1000⟩, ⟨.packV, fun _ p => p.packVolts⟩,
   ⟨.packA, fun _ p => p.packCurrent⟩]

/-- Lines 617-691: the panel of the current (676-679) draws the charge throughput. -/
noncomputable def cellPlot : List Panel :=
  [⟨.soc, fun _ p => p.soc⟩, ⟨.cellWh, fun u p => p.cellEnergy / u.wh⟩, ⟨.cellW, fun _ p => -p.cellPower⟩, ⟨.cellV, fun _ p => p.cellVolts⟩,
   ⟨.cellA, fun _ p => p.cellCharge⟩, ⟨.cellAh, fun _ p => p.cellCharge⟩, ⟨.cellK, fun _ p => p.cellTemp⟩]

/-- Lines 820-846. -/
noncomputable def flightPlot : List Panel :=
  [⟨.altitudeFt, fun u p => p.altitude / u.ft⟩, ⟨.airspeedMph, fun u p => p.velocity / u.mph⟩, ⟨.pitchDeg, fun u p => p.pitch / u.deg⟩,
   ⟨.rangeNmi, fun u p => p.range / u.nmi⟩]

/-- Lines 1218-1244. -/
noncomputable def stabilityPlot : List Panel :=
  [⟨.alphaDeg, fun u p => p.alpha / u.deg⟩, ⟨.cm, fun _ p => p.cm⟩, ⟨.cmAlpha, fun _ p => p.cmAlpha⟩, ⟨.marginPercent, fun _ p => p.margin⟩]

/-- Lines 1284-1303. -/
noncomputable def solarPlot : List Panel :=
  [⟨.flux, fun _ p => p.flux⟩, ⟨.chargingW, fun _ p => p.packPower⟩, ⟨.packMj, fun u p => p.packEnergy / u.mj⟩]

/-- All of them. -/
noncomputable def panels : List Panel :=
  sfcPlot ++ velocityPlot ++ coefficientPlot ++ forcePlot ++ packPlot ++ cellPlot ++ flightPlot ++ stabilityPlot ++ solarPlot

end Verif.IO.MissionPanels
