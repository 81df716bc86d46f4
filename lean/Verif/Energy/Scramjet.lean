import Verif.Energy.GasTurbine
import Verif.Physics.Shock

/-!
# Ramjet and scramjet: supersonic burner, nozzles, stream thrust

Model of `Combustor.compute_supersonic_combustion`
(`trunk/SUAVE/Components/Energy/Converters/Combustor.py`), `Supersonic_Nozzle.compute_limited_geometry`
and `compute_scramjet` (`trunk/SUAVE/Components/Energy/Converters/Supersonic_Nozzle.py`),
`Thrust.compute_stream_thrust` and `size_stream_thrust`
(`trunk/SUAVE/Components/Energy/Processes/Thrust.py`), and how
`trunk/SUAVE/Components/Energy/Networks/Scramjet.py` and
`trunk/SUAVE/Methods/Propulsion/scramjet_sizing.py` connect them.

Arrays are modelled row by row.
-/

namespace Verif.Energy.Scramjet

open Verif.Energy.GasTurbine (machOf fm)
open Verif.Physics.Shock (shockTrain scramInlet ptRatio)

/-- Settings of the supersonic burner (Combustor.py:315-321, 333). -/
structure Burner where
  htf : ℝ
  ηb : ℝ
  vfx : ℝ
  vf : ℝ
  cfb : ℝ
  hf : ℝ
  φ : ℝ
  fst : ℝ

/-- Flow handed from component to component. -/
structure Gas where
  T : ℝ
  P : ℝ
  u : ℝ
  Tt : ℝ
  Pt : ℝ
  M : ℝ
  f : ℝ
  cp : ℝ
  γ : ℝ

/-- `compute_supersonic_combustion` (Combustor.py:254-357).  `Tref` is the free stream temperature. -/
noncomputable def burn (s : Burner) (R Tref : ℝ) (i : Gas) : Gas :=
  let cpb := i.cp * (145 / 100)
  let γb := (cpb / R) / (cpb / R - 1)
  let f := s.φ * s.fst
  let V := i.u * (((1 + f * s.vfx) / (1 + f)) - (s.cfb / (2 * (1 + f))))
  let T := ((i.T / (1 + f)) * (1 + (1 / (cpb * i.T)) *
    (s.ηb * f * s.htf + f * s.hf + f * cpb * Tref + (1 + f * s.vf * s.vf) * i.u * i.u / 2))) - V * V / (2 * cpb)
  let M := V / Real.sqrt (γb * R * T)
  { T := T, P := i.P, u := V, Tt := T * (1 + (γb - 1) / 2) * M * M, Pt := i.Pt * ptRatio γb M, M := M, f := f, cp := cpb, γ := γb }

/-- Exit of `Supersonic_Nozzle.compute_scramjet`. -/
structure Exit where
  T : ℝ
  P : ℝ
  u : ℝ
  area : ℝ
  M : ℝ

/-- `Supersonic_Nozzle.compute_scramjet` (Supersonic_Nozzle.py:385-419). -/
noncomputable def expand (η pr Po Vo To R : ℝ) (i : Gas) : Exit :=
  let P := Po * pr
  let T := i.T * (1 - η * (1 - ((P / Po) * (Po / i.P)) ^ (R / i.cp)))
  let u := Real.sqrt (i.u * i.u + 2 * i.cp * (i.T - T))
  { T := T, P := P, u := u, area := (1 + i.f) * (Po / P) * (T / To) * (Vo / u), M := u / Real.sqrt (i.γ * R * T) }

/-- What the thrust process reads from the flight condition. -/
structure Stream where
  u0 : ℝ
  a0 : ℝ
  T0 : ℝ
  g : ℝ
  throttle : ℝ
  R : ℝ

/-- Its other inputs and settings; `refT`, `refP` are the reference stagnation values in `inputs`. -/
structure ThrustIn where
  f : ℝ
  refT : ℝ
  refP : ℝ
  T : ℝ
  u : ℝ
  area : ℝ
  n : ℝ

/-- Settings. -/
structure ThrustSet where
  Tref : ℝ
  Pref : ℝ
  mdhc : ℝ
  design : ℝ

/-- Outputs. -/
structure ThrustOut where
  thrust : ℝ
  tsfc : ℝ
  fsp : ℝ
  mdot : ℝ
  fuel : ℝ
  power : ℝ
  isp : ℝ

/-- `compute_stream_thrust` (Thrust.py:202-314). -/
noncomputable def streamThrust (w : Stream) (s : ThrustSet) (i : ThrustIn) : ThrustOut :=
  let Sa0 := w.u0 * (1 + w.R * w.T0 / w.u0 ^ 2)
  let Sa10 := i.u * (1 + w.R * i.T / i.u ^ 2)
  let fsp := ((1 + i.f) * Sa10 - Sa0 - w.R * w.T0 / w.u0 * (i.area - 1)) / w.a0
  let tsfc := i.f * w.g / (fsp * w.a0)
  let mdot := s.mdhc * Real.sqrt (s.Tref / i.refT) * (i.refP / s.Pref)
  let F := fsp * w.a0 * mdot * i.n * w.throttle
  { thrust := F, tsfc := tsfc, fsp := fsp, mdot := mdot, fuel := max (F * tsfc / w.g) 0, power := F * w.u0, isp := fsp * w.a0 / (i.f * w.g) }

/-- `size_stream_thrust` (372-431): the settings with the new nondimensional mass flow. -/
noncomputable def sizeStream (w : Stream) (s : ThrustSet) (i : ThrustIn) : ThrustSet :=
  let fsp := (streamThrust w s i).fsp
  let mdot := s.design / (fsp * w.a0 * i.n * 1)
  { s with mdhc := mdot / (Real.sqrt (s.Tref / i.refT) * (i.refP / s.Pref)) }

/-- What the cycle up to the nozzle gives at one flight condition. -/
structure Cycle where
  f : ℝ
  exit : Exit
  Tt : ℝ
  Pt : ℝ

/-- The cycle of the scramjet (Scramjet.py:105-134; scramjet_sizing.py:77-100 is the same): inlet,
burner, nozzle.  The ram component's stagnation pressure is `Pt0`. -/
noncomputable def cycle (s : Burner) (η pr ηc : ℝ) (θs : List ℝ) (w : Stream) (γ cp P0 M0 Pt0 Tt0 : ℝ) : Cycle :=
  let ψ := shockTrain M0 γ θs
  let inl := scramInlet M0 w.T0 w.u0 γ cp θs
  let g : Gas := { T := inl.T, P := P0 * (ψ.T / (ψ.T * (1 - ηc) + ηc)) ^ (cp / w.R), u := inl.u, Tt := Tt0, Pt := ψ.Pt * Pt0,
                   M := inl.M, f := 0, cp := cp, γ := γ }
  let b := burn s w.R w.T0 g
  { f := b.f, exit := expand η pr P0 w.u0 w.T0 w.R b, Tt := b.Tt, Pt := b.Pt }

/-- The network's memory: settings of the thrust process and the reference values left in its inputs. -/
structure Net where
  set : ThrustSet
  refT : ℝ
  refP : ℝ
  n : ℝ

/-- `scramjet_sizing` (scramjet_sizing.py:103-122): stores the reference values, then sizes. -/
noncomputable def Net.size (net : Net) (w : Stream) (c : Cycle) : Net :=
  { net with
    refT := c.Tt
    refP := c.Pt
    set := sizeStream w net.set ⟨c.f, c.Tt, c.Pt, c.exit.T, c.exit.u, c.exit.area, net.n⟩ }

/-- `Scramjet.evaluate_thrust` (Scramjet.py:137-154): hands over the cycle, but not the reference
values, so those stored before are used. -/
noncomputable def Net.evaluate (net : Net) (w : Stream) (c : Cycle) : ThrustOut :=
  streamThrust w net.set ⟨c.f, net.refT, net.refP, c.exit.T, c.exit.u, c.exit.area, net.n⟩

/-! ## Ramjet nozzle -/

/-- Pressure ratios that separate the regimes (Supersonic_Nozzle.py:250-254). -/
structure Limits where
  sub : ℝ
  shock : ℝ
  supMax : ℝ
  supMin : ℝ

/-- `pressure_ratio_shock_in_nozzle` (nozzle_calculations.py:128-155) from the Mach number found. -/
noncomputable def shockRatio (area γ Me : ℝ) : ℝ :=
  let M2 := Verif.Physics.Shock.normalMach γ Me
  (area * (((γ + 1) / 2) ^ ((γ + 1) / (2 * (γ - 1)))) * M2 * ((1 + ((γ - 1) / 2) * M2 ^ (2 : ℝ)) ^ (1 / 2 : ℝ)))⁻¹

/-- The limits, from the Mach numbers the solver finds for the mean, largest and smallest area. -/
noncomputable def limitsOf (γ area Msub Msup Mmax Mmin : ℝ) : Limits :=
  ⟨Verif.Physics.Shock.prIsentropic γ Msub, shockRatio area γ Msup, Verif.Physics.Shock.prIsentropic γ Mmax, Verif.Physics.Shock.prIsentropic γ Mmin⟩

/-- Exit state of the ramjet nozzle. -/
structure RamExit where
  P : ℝ
  M : ℝ
  area : ℝ
  T : ℝ
  u : ℝ

open Classical in
/-- Exit pressure: the masked assignments in the order of the code (Supersonic_Nozzle.py:265-318); a row
that no mask selects keeps the initial one. -/
noncomputable def exitPressure (L : Limits) (Po Pt : ℝ) : ℝ :=
  let r := Po / Pt
  let p0 : ℝ := 1
  let p1 := if r ≥ L.sub then Po else p0
  let p2 := if r < L.sub ∧ r ≥ L.shock then Po else p1
  let p3 := if r < L.shock ∧ r > L.supMin then L.supMin * Pt else p2
  let p4 := if r ≤ L.supMin ∧ r ≥ L.supMax then Po else p3
  if r < L.supMax then L.supMax * Pt else p4

/-- `compute_limited_geometry` (Supersonic_Nozzle.py:181-337).  In every regime the Mach number is
computed from the exit pressure by the same formula. -/
noncomputable def limited (L : Limits) (γ R Po Pt Tt : ℝ) : RamExit :=
  let P := exitPressure L Po Pt
  let M := machOf γ (Pt / P)
  let T := Tt / (1 + (γ - 1) / 2 * M * M)
  { P := P, M := M, area := 1 / fm M γ, T := T, u := M * Real.sqrt (γ * R * T) }

end Verif.Energy.Scramjet
