import Mathlib.Analysis.SpecialFunctions.Trigonometric.Basic
import Mathlib.Algebra.Order.Round
import Mathlib.Algebra.Order.Archimedean.Real.Basic

/-!
Figures of the forces on an airfoil and of its polars.

Source: trunk/SUAVE/Plots/Performance/Airfoil_Plots.py: `plot_airfoil_surface_forces` 117-155, `plot_airfoil_polar_files` 158-206,
`plot_airfoil_polars` 209-268.

Simplifications: real numbers; numbers exactly between two decimals are rounded upwards, where Python takes the even one; colours, sizes and
legends are left out. `none` stands for a division by zero, which leaves a gap in the line.
-/

namespace Verif.Airfoil.Figures

/-! ### Forces -/

/-- An arrow: where it starts and how far it goes (149-153). -/
structure Arrow where
  x : ℝ
  y : ℝ
  dx : ℝ
  dy : ℝ

/-- The arrow of one point (146-153): place, normal and pressure coefficient. -/
noncomputable def arrow (x y nx ny cp : ℝ) : Arrow :=
  let dx := nx * |cp| * (1 / 10)
  let dy := ny * |cp| * (1 / 10)
  if cp < 0 then ⟨x, y, dx, dy⟩ else ⟨x + dx, y + dy, -dx, -dy⟩

/-- What `airfoil_analysis` hands over of one case (Methods/Aerodynamics/Airfoil_Panel_Method/airfoil_analysis.py 464-476): the middles of
the `npanel` panels with their normals (`xbar`, `ybar`, `norm` of hess_smith.py 74), and the pressures of the contour with boundary layer,
which runs through these middles and has one panel fewer (400-404, 456). -/
structure Case where
  x : ℕ → ℝ
  y : ℕ → ℝ
  nx : ℕ → ℝ
  ny : ℕ → ℝ
  cp : ℕ → ℝ

/-- The arrows of one figure (136, 145-153): `n_pts = len(ap.x[0,0,:])-1`. -/
noncomputable def arrows (npanel : ℕ) (c : Case) : List Arrow :=
  (List.range (npanel - 1)).map fun k => arrow (c.x k) (c.y k) (c.nx k) (c.ny k) (c.cp k)

/-- One degree in radians (`Units.degrees`). -/
noncomputable def degree : ℝ := Real.pi / 180

/-- The name of the window of a case (141-142): angle in degrees and Reynolds number in millions, both in hundredths. `plt.figure` with a
name that is in use gives back the window that is there. -/
noncomputable def window (aoa re : ℝ) : ℤ × ℤ := (round (aoa / degree * 100), round (re / 1000000 * 100))

/-! ### Polars -/

/-- The polars (178-182, 229-233), as compute_airfoil_properties.py 118-122 leaves them: `reynolds_numbers` are `re_from_polar`, angles in
radians. -/
structure Polars where
  re : List ℝ
  aoa : List ℝ
  cl : ℕ → List ℝ
  cd : ℕ → List ℝ

/-- One row of panels of `plot_airfoil_polar_files` (188-198): the label as a number, and the two lines. -/
structure FileRow where
  label : ℝ
  lift : List (ℝ × ℝ)
  drag : List (ℝ × ℝ)

/-- `plot_airfoil_polar_files` (188-194). The label is `round(Re)/1e6` followed by `e6`. -/
noncomputable def fileRows (p : Polars) : List FileRow :=
  p.re.zipIdx.map fun rj =>
    { label := (round rj.1 : ℝ) / 1000000
      lift := (p.aoa.map (· / degree)).zip (p.cl rj.2)
      drag := (p.aoa.map (· / degree)).zip (p.cd rj.2) }

/-- One polar in the four panels of `plot_airfoil_polars` (241-262). -/
structure PolarLines where
  label : ℝ
  lift : List (ℝ × ℝ)
  drag : List (ℝ × ℝ)
  polar : List (ℝ × ℝ)
  ratio : List (ℝ × Option ℝ)

open Classical in
/-- `CD[ii]/CL[ii]` (259) at one angle. -/
noncomputable def dragOverLift (cd cl : ℝ) : Option ℝ := if cl = 0 then none else some (cd / cl)

/-- `plot_airfoil_polars` (241-262). -/
noncomputable def polarLines (p : Polars) : List PolarLines :=
  p.re.zipIdx.map fun rj =>
    { label := rj.1
      lift := p.aoa.zip (p.cl rj.2)
      drag := p.aoa.zip (p.cd rj.2)
      polar := (p.cd rj.2).zip (p.cl rj.2)
      ratio := p.aoa.zip (List.zipWith dragOverLift (p.cd rj.2) (p.cl rj.2)) }

/-- Whether the grid of a panel is seen after the loop (247, 252, 257, 262): `grid()` without arguments switches it over, once for each
polar. -/
def gridAfter (p : Polars) : Bool := p.re.foldl (fun on _ => !on) false

end Verif.Airfoil.Figures
