import Mathlib.Analysis.SpecialFunctions.Trigonometric.Basic

/-!
# Panels about rotors and ageing cells

Source: trunk/SUAVE/Plots/Performance/Mission_Plots.py: `plot_propeller_conditions` (955-1013), `plot_eMotor_Prop_efficiencies`
(1155-1180), `plot_battery_degradation` (737-779); trunk/SUAVE/Plots/Performance/Propeller_Plots.py:
`plot_propeller_disc_performance` (120-137).  Colours, fonts and ticks are left out.
-/

namespace Verif.IO.RotorPanels
open Real

/-- Thrust of the first panel (962): the length of the thrust vector. -/
noncomputable def thrust (x y z : ℝ) : ℝ := √(x ^ 2 + y ^ 2 + z ^ 2)

/-- Limits of the six panels (1002-1007), from those matplotlib chose. -/
noncomputable def limits (lo hi : ℝ) : ℝ × ℝ := (if lo > 0 then 0 else lo, hi * 1.1)

/-- Limits of the panels of efficiencies (1167, 1176). -/
def efficiencyLimits : ℝ × ℝ := (0, 1)

/-- A value that can be seen in a panel. -/
def Seen (l : ℝ × ℝ) (y : ℝ) : Prop := l.1 ≤ y ∧ y ≤ l.2

/-- A segment as `plot_battery_degradation` reads it: the times (s) and charge throughputs of its points, the day and the factors. -/
structure Ageing where
  times : List ℝ
  charges : List ℝ
  day : ℝ
  capacity : ℝ
  resistance : ℝ

/-- A point of a panel and the label under it. -/
structure Mark where
  label : String
  x : ℝ
  y : ℝ

/-- The first curve of each of the three panels (752-779) for one segment; a segment without points raises an exception. -/
noncomputable def ageing (hour : ℝ) (s : Ageing) : Option (Mark × Mark × Mark) := do
  let t ← s.times.getLast?
  let q ← s.charges.getLast?
  pure (⟨"Time (hrs)", q, s.capacity⟩, ⟨"Time (hrs)", t / hour, s.capacity⟩, ⟨"Time (days)", s.day, s.capacity⟩)

/-- One ring of the disc (Propeller_Plots.py 120-137): azimuths and values, with the first value again at a full turn. -/
noncomputable def ring (psi v : List ℝ) : Option (List (ℝ × ℝ)) :=
  v.head?.map fun v0 => (psi ++ [2 * π]).zip (v ++ [v0])

end Verif.IO.RotorPanels
