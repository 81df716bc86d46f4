import Mathlib.Analysis.SpecialFunctions.Complex.Log
import Mathlib.Analysis.SpecialFunctions.Trigonometric.Inverse
import Mathlib.Analysis.SpecialFunctions.Trigonometric.Basic
import Mathlib.Data.Sign.Basic

/-!
# Panel method for airfoils

Model of `trunk/SUAVE/Methods/Aerodynamics/Airfoil_Panel_Method`: `panel_geometry.py`, `infl_coeff.py`,
`hess_smith.py`, `velocity_distribution.py` and `aero_coeff.py`.

The arrays of python carry two more axes (angle of attack, control point); every operation acts on each of these
cases alone, so one case is modelled.  Nodes and panels are functions of the index: `n` panels, nodes `0 … n`.
Real numbers stand for floats; the solution of the linear system is an arbitrary vector satisfying it.
-/

namespace Verif.Airfoil
open Real

/-- The nodes of an outline. -/
structure Outline where
  x : ℕ → ℝ
  y : ℕ → ℝ

/-- `l` (`panel_geometry.py` line 46). -/
noncomputable def Outline.len (o : Outline) (j : ℕ) : ℝ := sqrt ((o.x (j + 1) - o.x j) ^ 2 + (o.y (j + 1) - o.y j) ^ 2)
/-- `st` (line 47). -/
noncomputable def Outline.st (o : Outline) (j : ℕ) : ℝ := (o.y (j + 1) - o.y j) / o.len j
/-- `ct` (line 48). -/
noncomputable def Outline.ct (o : Outline) (j : ℕ) : ℝ := (o.x (j + 1) - o.x j) / o.len j
/-- `xbar` (line 49). -/
noncomputable def Outline.xbar (o : Outline) (j : ℕ) : ℝ := (o.x (j + 1) + o.x j) / 2
/-- `ybar` (line 50). -/
noncomputable def Outline.ybar (o : Outline) (j : ℕ) : ℝ := (o.y (j + 1) + o.y j) / 2
/-- `norm` (lines 52-54). -/
noncomputable def Outline.norm (o : Outline) (j : ℕ) : ℝ × ℝ := (-o.st j, o.ct j)

/-- `sti_minus_j` (`infl_coeff.py` line 57, `velocity_distribution.py` line 68). -/
noncomputable def Outline.sinD (o : Outline) (i j : ℕ) : ℝ := o.ct j * o.st i - o.st j * o.ct i
/-- `cti_minus_j` (lines 58 and 69). -/
noncomputable def Outline.cosD (o : Outline) (i j : ℕ) : ℝ := o.ct j * o.ct i + o.st j * o.st i
/-- Distance of the control point of panel `i` from node `j`: `rij`, and with `j + 1` `rij_plus_1` (lines 59-60
and 70-71). -/
noncomputable def Outline.r (o : Outline) (i j : ℕ) : ℝ := sqrt ((o.xbar i - o.x j) ^ 2 + (o.ybar i - o.y j) ^ 2)
/-- `rij_dot_rij_plus_1` (lines 61 and 72). -/
noncomputable def Outline.dot (o : Outline) (i j : ℕ) : ℝ :=
  (o.xbar i - o.x j) * (o.xbar i - o.x (j + 1)) + (o.ybar i - o.y j) * (o.ybar i - o.y (j + 1))
/-- The argument of `np.sign` in lines 62 and 73. -/
noncomputable def Outline.turn (o : Outline) (i j : ℕ) : ℝ :=
  (o.xbar i - o.x j) * (o.ybar i - o.y (j + 1)) - (o.xbar i - o.x (j + 1)) * (o.ybar i - o.y j)
/-- `r_ratio` (lines 63-64 and 74-75). -/
noncomputable def Outline.ratio (o : Outline) (i j : ℕ) : ℝ :=
  let q := o.dot i j / o.r i j / o.r i (j + 1)
  if q > 1 then 1 else q
/-- `betaij` (lines 65-69 and 76-80): the diagonal is overwritten by `π`. -/
noncomputable def Outline.beta (o : Outline) (i j : ℕ) : ℝ :=
  if i = j then π else (SignType.sign (o.turn i j) : ℝ) * arccos (o.ratio i j)
/-- `np.log(rij_plus_1/rij)`. -/
noncomputable def Outline.lg (o : Outline) (i j : ℕ) : ℝ := log (o.r i (j + 1) / o.r i j)

/-- `ainfl[:-1,:-1]` and `mat_3` (lines 71 and 76). -/
noncomputable def Outline.mat3 (o : Outline) (i j : ℕ) : ℝ := 1 / (2 * π) * (o.sinD i j * o.lg i j + o.cosD i j * o.beta i j)
/-- `mat_2` (line 75). -/
noncomputable def Outline.mat2 (o : Outline) (i j : ℕ) : ℝ := 1 / (2 * π) * (o.sinD i j * o.beta i j - o.cosD i j * o.lg i j)
/-- `mat_1` (line 72). -/
noncomputable def Outline.mat1 (o : Outline) (n i : ℕ) : ℝ :=
  ∑ j ∈ Finset.range n, 1 / (2 * π) * (o.cosD i j * o.lg i j - o.sinD i j * o.beta i j)

/-- Row `i < n` of the right-hand side (`hess_smith.py` line 64). -/
noncomputable def Outline.rhs (o : Outline) (α : ℝ) (i : ℕ) : ℝ := o.st i * cos α - sin α * o.ct i
/-- The last row (line 65). -/
noncomputable def Outline.rhsKutta (o : Outline) (n : ℕ) (α : ℝ) : ℝ :=
  -(o.ct 0 * cos α + o.st 0 * sin α) - (o.ct (n - 1) * cos α + o.st (n - 1) * sin α)

/-- `q`, `γ` solve the linear system of lines 60-68: the matrix is that of `infl_coeff.py` lines 71-78. -/
structure Solves (o : Outline) (n : ℕ) (α : ℝ) (q : ℕ → ℝ) (γ : ℝ) : Prop where
  rows : ∀ i < n, ∑ j ∈ Finset.range n, o.mat3 i j * q j + o.mat1 n i * γ = o.rhs α i
  last : ∑ j ∈ Finset.range n, (o.mat2 0 j + o.mat2 (n - 1) j) * q j +
    (∑ j ∈ Finset.range n, o.mat3 0 j + ∑ j ∈ Finset.range n, o.mat3 (n - 1) j) * γ = o.rhsKutta n α

/-- `velocity_distribution` (lines 53-90): the tangential velocity reported at the control point of panel `i`. -/
noncomputable def Outline.vt (o : Outline) (n : ℕ) (α : ℝ) (q : ℕ → ℝ) (γ : ℝ) (i : ℕ) : ℝ :=
  o.ct i * cos α + o.st i * sin α +
    (∑ j ∈ Finset.range n, q j / 2 / π * (o.sinD i j * o.beta i j - o.cosD i j * o.lg i j) +
      ∑ j ∈ Finset.range n, γ / 2 / π * (o.sinD i j * o.lg i j + o.cosD i j * o.beta i j))

/-- Normal and axial force, moment about the quarter chord, lift and drag. -/
structure SectionLoads where
  cl : ℝ
  cdpi : ℝ
  cm : ℝ

/-- `aero_coeff` (lines 44-64) for `n` panels; points and pressure coefficients are functions of the index.  The pressure
of a piece is that of its first point. -/
noncomputable def aeroCoeff (o : Outline) (cp : ℕ → ℝ) (α : ℝ) (n : ℕ) : SectionLoads :=
  let dcn := fun i => -cp i * (o.x (i + 1) - o.x i)
  let dca := fun i => cp i * (o.y (i + 1) - o.y i)
  let xa := fun i => 0.5 * (o.x (i + 1) + o.x i) - 0.25
  let ya := fun i => 0.5 * (o.y (i + 1) + o.y i)
  let cn := ∑ i ∈ Finset.range (n - 1), dcn i
  let ca := ∑ i ∈ Finset.range (n - 1), dca i
  ⟨cn * cos α - ca * sin α, cn * sin α + ca * cos α, ∑ i ∈ Finset.range (n - 1), (-dcn i * xa i + dca i * ya i)⟩

end Verif.Airfoil
