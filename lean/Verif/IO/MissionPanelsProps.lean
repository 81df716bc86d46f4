import Verif.IO.MissionPanels
import Mathlib.Tactic.FieldSimp
import Mathlib.Tactic.NormNum
import Mathlib.Tactic.Ring
import Mathlib.Tactic.Linarith
import Mathlib.Tactic.Positivity

/-! C438: the panels of the mission plots. -/

namespace Verif.IO.MissionPanels

/-- The unit that a label names, in units of the SI. -/
noncomputable def Label.unit (u : UnitSet) : Label → ℝ
  | .altitudeFt => u.ft
  | .sfc => u.lb / (u.lbf * u.hr)
  | .weightLb => u.lb
  | .velocityKts => u.kts
  | .equivalent => u.kts
  | .alphaDeg => u.deg
  | .packKwh => 1000 * u.wh
  | .packKw => 1000
  | .cellWh => u.wh
  | .airspeedMph => u.mph
  | .pitchDeg => u.deg
  | .rangeNmi => u.nmi
  | .marginPercent => 1 / 100
  | .packMj => u.mj
  | _ => 1

/-- The quantity `x` of the point that a label names; batteries deliver power, and lift is against the third and drag against the first axis of the wind. -/
def Label.Names (p : Point) (x : ℝ) : Label → Prop
  | .altitudeFt => x = p.altitude
  | .sfc => x * p.thrust = p.massRate
  | .weightLb => x = p.mass
  | .velocityKts => x = p.velocity
  | .equivalent => 0 ≤ x ∧ 1.225 * x ^ 2 = p.density * p.velocity ^ 2
  | .mach => x = p.mach
  | .alphaDeg => x = p.alpha
  | .cl => x = p.cl
  | .cd => x = p.cd
  | .ratio => x * p.cd = p.cl
  | .throttle => x = p.throttle
  | .liftN => x = -p.liftZ
  | .thrustN => x = p.thrust
  | .dragN => x = -p.dragX
  | .soc => x = p.soc
  | .packKwh => x = p.packEnergy
  | .packKw => x = -p.packPower
  | .packV => x = p.packVolts
  | .packA => x = p.packCurrent
  | .cellWh => x = p.cellEnergy
  | .cellW => x = -p.cellPower
  | .cellV => x = p.cellVolts
  | .cellA => x = p.cellCurrent
  | .cellAh => x = p.cellCharge
  | .cellK => x = p.cellTemp
  | .airspeedMph => x = p.velocity
  | .pitchDeg => x = p.pitch
  | .rangeNmi => x = p.range
  | .cm => x = p.cm
  | .cmAlpha => x = p.cmAlpha
  | .marginPercent => x = p.margin
  | .flux => x = p.flux
  | .chargingW => x = p.packPower
  | .packMj => x = p.packEnergy

/-- Units are positive. -/
structure UnitSet.Valid (u : UnitSet) : Prop where
  hr : 0 < u.hr
  lb : 0 < u.lb
  lbf : 0 < u.lbf
  ft : 0 < u.ft
  kts : 0 < u.kts
  mph : 0 < u.mph
  nmi : 0 < u.nmi
  deg : 0 < u.deg
  wh : 0 < u.wh
  mj : 0 < u.mj

/-- **C438.** Every panel of the mission plots but two draws the number that, in the unit of its label, is the quantity its label names, at every point with
thrust, drag and forward speed.  Missing: the current of the cell (`C438_current_counterexample`) and the static margin in percent
(`C438_margin_counterexample`). -/
theorem C438_panels_partial (u : UnitSet) (h : u.Valid) (p : Point) (ht : p.thrust ≠ 0) (hd : p.cd ≠ 0) (hv : 0 ≤ p.velocity) (hr : 0 ≤ p.density)
    (a : Panel) (ha : a ∈ panels) (h1 : a.label ≠ .cellA) (h2 : a.label ≠ .marginPercent) : a.label.Names p (a.shown u p * a.label.unit u) := by
  obtain ⟨e1, e2, e3, e4, e5, e6, e7, e8, e9, e10⟩ := h
  simp only [panels, sfcPlot, velocityPlot, coefficientPlot, forcePlot, packPlot, cellPlot, flightPlot, stabilityPlot, solarPlot, List.mem_append,
    List.mem_cons, List.not_mem_nil, or_false] at ha
  have eas : 0 ≤ p.velocity * Real.sqrt (p.density / 1.225) / u.kts * u.kts ∧
      1.225 * (p.velocity * Real.sqrt (p.density / 1.225) / u.kts * u.kts) ^ 2 = p.density * p.velocity ^ 2 := by
    rw [div_mul_cancel₀ _ e5.ne']
    refine ⟨mul_nonneg hv (Real.sqrt_nonneg _), ?_⟩
    rw [mul_pow, Real.sq_sqrt (by positivity)]
    ring
  have sfc : p.massRate / u.lb / (p.thrust / u.lbf) * u.hr * (u.lb / (u.lbf * u.hr)) * p.thrust = p.massRate := by
    have := e1.ne'
    have := e2.ne'
    have := e3.ne'
    field_simp
  have n4 := e4.ne'
  have n5 := e5.ne'
  have n6 := e6.ne'
  have n7 := e7.ne'
  have n8 := e8.ne'
  have n9 := e9.ne'
  have n10 := e10.ne'
  have n2 := e2.ne'
  rcases ha with (((((((((rfl | rfl | rfl) | (rfl | rfl | rfl)) | (rfl | rfl | rfl | rfl)) | (rfl | rfl | rfl | rfl)) | (rfl | rfl | rfl | rfl | rfl)) |
    (rfl | rfl | rfl | rfl | rfl | rfl | rfl)) | (rfl | rfl | rfl | rfl)) | (rfl | rfl | rfl | rfl)) | (rfl | rfl | rfl)) <;>
    first
    | exact absurd rfl h1
    | exact absurd rfl h2
    | exact eas
    | exact sfc
    | (simp only [Label.Names, Label.unit]; field_simp)

/-- The panel labelled with the current of a cell draws its charge throughput. -/
theorem C438_current_counterexample : ∃ a ∈ cellPlot, a.label = .cellA ∧ ∀ u p, a.shown u p = p.cellCharge :=
  ⟨⟨.cellA, fun _ p => p.cellCharge⟩, by simp [cellPlot], rfl, fun _ _ => rfl⟩

/-- The panel of the static margin in percent draws it as a fraction. -/
theorem C438_margin_counterexample : ∃ a ∈ stabilityPlot, a.label = .marginPercent ∧
    ∀ u p, p.margin ≠ 0 → ¬ a.label.Names p (a.shown u p * a.label.unit u) := by
  refine ⟨⟨.marginPercent, fun _ p => p.margin⟩, by simp [stabilityPlot], rfl, fun u p hp h => hp ?_⟩
  simp only [Label.Names, Label.unit] at h
  linarith

/-- A point in cruise. -/
def cruise : Point :=
  ⟨0, 70000, 10000, 1, 50000, 230, 0.4, 0.78, 0.5, 0.03, 0.05, -700000, -40000, 0.7, 0, 0, 0, 0, 0, 0, 0, 0, 0, 0, 0, 0.05, 1000000, 0, -1, 0.3, 0⟩

example (u : UnitSet) (h : u.Valid) : Label.Names cruise (cruise.velocity / u.kts * u.kts) .velocityKts :=
  C438_panels_partial u h cruise (by norm_num [cruise]) (by norm_num [cruise]) (by norm_num [cruise]) (by norm_num [cruise])
    ⟨.velocityKts, fun u p => p.velocity / u.kts⟩ (by simp [panels, velocityPlot]) (by simp) (by simp)

end Verif.IO.MissionPanels
