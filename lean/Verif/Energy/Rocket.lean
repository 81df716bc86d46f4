import Verif.Physics.Shock

/-!
# Liquid rockets

Model of `trunk/SUAVE/Components/Energy/Converters/{Rocket_Combustor,de_Laval_Nozzle}.py`,
`Components/Energy/Processes/Rocket_Thrust.py`, `Components/Energy/Networks/Liquid_Rocket.py` and
`Methods/Propulsion/liquid_rocket_sizing.py`.  One control point; real numbers stand for floats.  `fsolve` inside `fm_solver` is
represented by any Mach number at which the function solved (`Physics.Shock.fmFun`) vanishes.
-/

namespace Verif.Energy.Rocket
open Verif.Physics.Shock

/-- What the nozzle receives from the combustor (Rocket_Combustor.py 93-105): the throttle is read but not used. -/
structure Chamber where
  P : ℝ
  T : ℝ
  γ : ℝ
  R : ℝ

/-- Nozzle (de_Laval_Nozzle.py 113-116). -/
structure Nozzle where
  π : ℝ
  η : ℝ
  expansion : ℝ
  throat : ℝ

/-- State at a section: static values, velocity and density. -/
structure Sect where
  Pt : ℝ
  Tt : ℝ
  p : ℝ
  T : ℝ
  u : ℝ
  ρ : ℝ

/-- Stagnation temperature behind a passage with pressure ratio `π` (124, 135). -/
noncomputable def Nozzle.cool (n : Nozzle) (γ T : ℝ) : ℝ := T * n.π ^ ((γ - 1) / γ * n.η)

/-- Throat (123-130). -/
noncomputable def throatState (c : Chamber) (n : Nozzle) : Sect :=
  let Pt := c.P * n.π
  let Tt := n.cool c.γ c.T
  let T := Tt / (1 + (c.γ - 1) / 2)
  let P := Pt / (1 + (c.γ - 1) / 2) ^ (c.γ / (c.γ - 1))
  ⟨Pt, Tt, P, T, Real.sqrt (c.γ * c.R * T), P / (c.R * T)⟩

/-- Exit (134-144) for the Mach number found by `fm_solver`. -/
noncomputable def exitState (c : Chamber) (n : Nozzle) (Me : ℝ) : Sect :=
  let Pt := (throatState c n).Pt * n.π
  let Tt := n.cool c.γ (throatState c n).Tt
  let T := Tt / (1 + (c.γ - 1) / 2 * Me * Me)
  let P := Pt / (1 + (c.γ - 1) / 2 * Me * Me) ^ (c.γ / (c.γ - 1))
  ⟨Pt, Tt, P, T, Me * Real.sqrt (c.γ * c.R * T), P / (c.R * T)⟩

/-- Results of the thrust component (Rocket_Thrust.py 130-132). -/
structure Thrust where
  thrust : ℝ
  massRate : ℝ
  isp : ℝ

open Classical in
/-- `Rocket_Thrust.compute` (95-132): the thrust is computed before the mass flow is clipped. -/
noncomputable def rocketThrust (γ Me At ε p0 g0 throttle count : ℝ) (e : Sect) : Thrust :=
  let C := e.u * (1 + 1 / (γ * Me * Me) * (1 - p0 / e.p))
  let m := throttle * e.ρ * e.u * (At * ε)
  let F := count * m * C
  ⟨if F < 0 then 0 else F, if m < 0 then 0 else m, C / g0⟩

/-- `Liquid_Rocket.evaluate_thrust` (92-133). -/
noncomputable def evaluateRocket (c : Chamber) (n : Nozzle) (Me p0 g0 throttle count : ℝ) : Thrust :=
  rocketThrust c.γ Me n.throat n.expansion p0 g0 throttle count (exitState c n Me)

/-- Mass flow set by `Rocket_Thrust.size` (163-177). -/
noncomputable def sizedMassFlow (totalDesign isp g0 count : ℝ) : ℝ := totalDesign / (isp * g0) * count

/-- Ways in which `liquid_rocket_sizing` ends. -/
inductive SizingEnd where
  | done
  | noAltitude
  | planetUnbound
  deriving DecidableEq

/-- `liquid_rocket_sizing` (24-101): `planet` is bound only where no conditions are given, and read at the end. -/
def sizingEnd (conditionsGiven altitudeGiven : Bool) : SizingEnd :=
  if conditionsGiven then SizingEnd.planetUnbound
  else if altitudeGiven then SizingEnd.done else SizingEnd.noAltitude

end Verif.Energy.Rocket
