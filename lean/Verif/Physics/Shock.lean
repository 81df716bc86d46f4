import Mathlib.Analysis.SpecialFunctions.Pow.Real
import Mathlib.Analysis.SpecialFunctions.Trigonometric.Arctan
import Mathlib.Analysis.SpecialFunctions.Sqrt

/-!
# Shocks, shock trains, flow with heat addition and nozzle helper functions

Model of `trunk/SUAVE/Methods/Aerodynamics/Common/Gas_Dynamics/Oblique_Shock.py`,
`trunk/SUAVE/Methods/Propulsion/{shock_train,rayleigh,fm_solver,nozzle_calculations}.py`, and
`Compression_Nozzle.compute_scramjet`
(`trunk/SUAVE/Components/Energy/Converters/Compression_Nozzle.py`).

Arrays are modelled row by row.  `fsolve` is an external solver: its result is any number that makes
the function given to it zero.
-/

namespace Verif.Physics.Shock

/-- What `oblique_shock_relations` returns: Mach number behind, and the ratios of pressure, temperature
and stagnation pressure. -/
structure Behind where
  M1 : ℝ
  Pr : ℝ
  Tr : ℝ
  Ptr : ℝ

/-- `M1_n` (Oblique_Shock.py:50); also `normal_shock` (nozzle_calculations.py:96). -/
noncomputable def normalMach (γ n : ℝ) : ℝ := Real.sqrt (((γ - 1) * n * n + 2) / (2 * γ * n * n - (γ - 1)))

/-- `Ptr` (Oblique_Shock.py:56). -/
noncomputable def ptRatio (γ n : ℝ) : ℝ :=
  ((((γ + 1) * n * n) / ((γ - 1) * n * n + 2)) ^ (γ / (γ - 1))) * ((γ + 1) / (2 * γ * n * n - (γ - 1))) ^ (1 / (γ - 1))

/-- `oblique_shock_relations` (Oblique_Shock.py:19-58). -/
noncomputable def oblique (M0 γ θ β : ℝ) : Behind :=
  let n := M0 * Real.sin β
  let m := normalMach γ n
  let Pr := (2 * γ * n * n - (γ - 1)) / (γ + 1)
  { M1 := m / Real.sin (β - θ)
    Pr := Pr
    Tr := Pr * ((((γ - 1) * n * n) + 2) / ((γ + 1) * n * n))
    Ptr := ptRatio γ n }

/-- The numbers `c`, `a`, `b`, `d` of `theta_beta_mach` (Oblique_Shock.py:85-91). -/
noncomputable def tbmC (M0 : ℝ) : ℝ := Real.tan (Real.arcsin (1 / M0)) * Real.tan (Real.arcsin (1 / M0))

/-- `a` (89). -/
noncomputable def tbmA (M0 γ θ : ℝ) : ℝ := ((γ - 1) / 2 + (γ + 1) * tbmC M0 / 2) * Real.tan θ

/-- `b` (90). -/
noncomputable def tbmB (M0 γ θ : ℝ) : ℝ := ((γ + 1) / 2 + (γ + 3) * tbmC M0 / 2) * Real.tan θ

/-- The expression `27 a² c + 9 a b - 2` (91, 93). -/
noncomputable def tbmQ (M0 γ θ : ℝ) : ℝ :=
  27 * tbmA M0 γ θ * tbmA M0 γ θ * tbmC M0 + 9 * tbmA M0 γ θ * tbmB M0 γ θ - 2

/-- `d` (91). -/
noncomputable def tbmD (M0 γ θ : ℝ) : ℝ :=
  Real.sqrt (4 * (1 - 3 * tbmA M0 γ θ * tbmB M0 γ θ) ^ 3 / (tbmQ M0 γ θ) ^ 2 - 1)

/-- `theta_beta_mach` (61-95) with the default `n = 0`, as used by `shock_train`. -/
noncomputable def thetaBetaMach (M0 γ θ : ℝ) : ℝ :=
  let a := tbmA M0 γ θ
  let b := tbmB M0 γ θ
  let c := tbmC M0
  let d := tbmD M0 γ θ
  Real.arctan ((b + 9 * a * c) / (2 * (1 - 3 * a * b)) -
    (d * tbmQ M0 γ θ) / (6 * a * (1 - 3 * a * b)) * Real.tan (0 * Real.pi / 3 + 1 / 3 * Real.arctan (1 / d)))

/-- State of the loop of `shock_train` (shock_train.py:42-56). -/
structure Train where
  M : ℝ
  T : ℝ
  Pt : ℝ

/-- One pass of the loop. -/
noncomputable def trainStep (γ : ℝ) (s : Train) (θ : ℝ) : Train :=
  let o := oblique s.M γ θ (thetaBetaMach s.M γ θ)
  ⟨o.M1, s.T * o.Tr, s.Pt * o.Ptr⟩

/-- `shock_train` (17-58) for the deflections in `θs`, one per shock. -/
noncomputable def shockTrain (M0 γ : ℝ) (θs : List ℝ) : Train := θs.foldl (trainStep γ) ⟨M0, 1, 1⟩

/-- Outputs of `compute_scramjet` used here. -/
structure ScramInlet where
  T : ℝ
  M : ℝ
  u : ℝ

/-- `Compression_Nozzle.compute_scramjet` (Compression_Nozzle.py:183-274): static temperature, Mach
number and velocity behind the inlet. -/
noncomputable def scramInlet (M0 T0 U0 γ cp : ℝ) (θs : List ℝ) : ScramInlet :=
  let ψ := (shockTrain M0 γ θs).T
  let T := ψ * T0
  ⟨T, Real.sqrt ((2 / (γ - 1)) * ((T0 / T) * (1 + (γ - 1) / 2 * M0 * M0) - 1)), Real.sqrt (U0 * U0 - 2 * cp * T0 * (ψ - 1))⟩

/-- The function solved by `rayleigh` (rayleigh.py:34). -/
noncomputable def rayleighFun (γ M0 TtR M1 : ℝ) : ℝ :=
  ((1 + γ * M0 * M0) ^ (2 : ℝ) * M1 * M1 * (1 + (γ - 1) / 2 * M1 * M1)) /
    ((1 + γ * M1 * M1) ^ (2 : ℝ) * M0 * M0 * (1 + (γ - 1) / 2 * M0 * M0)) - TtR

/-- `Ptr` of `rayleigh` (53). -/
noncomputable def rayleighPtr (γ M0 M1 : ℝ) : ℝ :=
  (1 + γ * M0 * M0) / (1 + γ * M1 * M1) *
    ((1 + (γ - 1) / 2 * M1 * M1) / (1 + (γ - 1) / 2 * M0 * M0)) ^ (γ / (γ - 1))

/-- The stagnation temperature at which the flow chokes (Combustor.py:225). -/
noncomputable def chokeTemp (γ M Tt : ℝ) : ℝ :=
  Tt * (1 + γ * M * M) ^ (2 : ℝ) / ((2 * (1 + γ) * M * M) * (1 + (γ - 1) / 2 * M * M))

open Classical in
/-- The turbine inlet temperature used by `compute_rayleigh` (Combustor.py:228-229). -/
noncomputable def limitedTemp (γ M Tt Tt4 : ℝ) : ℝ := if chokeTemp γ M Tt ≤ Tt4 then chokeTemp γ M Tt else Tt4

/-- The function solved by `fm_solver` (fm_solver.py:37). -/
noncomputable def fmFun (area M0 γ M1 : ℝ) : ℝ :=
  (M0 / M1 * ((1 + (γ - 1) / 2 * M1 * M1) / (1 + (γ - 1) / 2 * M0 * M0)) ^ ((γ + 1) / (2 * (γ - 1)))) - area

/-- The function solved by `mach_area` (nozzle_calculations.py:67). -/
noncomputable def machAreaFun (area γ Me : ℝ) : ℝ :=
  area ^ (2 : ℝ) - ((1 / Me) ^ (2 : ℝ)) * (((2 / (γ + 1)) * (1 + ((γ - 1) / 2) * Me ^ (2 : ℝ))) ^ ((γ + 1) / (γ - 1)))

/-- `pr_isentropic` (nozzle_calculations.py:123) from the Mach number found. -/
noncomputable def prIsentropic (γ Me : ℝ) : ℝ := (1 + ((γ - 1) / 2) * Me ^ (2 : ℝ)) ^ (-γ / (γ - 1))

end Verif.Physics.Shock
