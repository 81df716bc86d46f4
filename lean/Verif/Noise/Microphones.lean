import Mathlib.Analysis.SpecialFunctions.Trigonometric.Inverse
import Mathlib.Analysis.SpecialFunctions.Trigonometric.Arctan
import Mathlib.Analysis.SpecialFunctions.Trigonometric.ArctanDeriv
import Mathlib.Analysis.SpecialFunctions.Sqrt

/-!
`generate_microphone_points.py`, `compute_noise_evaluation_locations.py`, `noise_geometric.py`.  Two-dimensional arrays
are functions of row and column; a `reshape` to one dimension reads them row by row.
-/

namespace Verif.Noise.Mic
open Real

/-- `np.linspace(a, b, n)[i]`. -/
noncomputable def linspace (a b : ℝ) (n i : ℕ) : ℝ := if n = 1 then a else a + i * ((b - a) / ((n : ℝ) - 1))

/-- `np.repeat(v[:,np.newaxis], k, axis=1)`: every column is `v`. -/
def columns (v : ℕ → ℝ) : ℕ → ℕ → ℝ := fun i _ => v i

/-- `.T`. -/
def transpose (m : ℕ → ℕ → ℝ) : ℕ → ℕ → ℝ := fun i j => m j i

/-- `reshape` of a matrix of `c` columns to one dimension. -/
def flatten (c : ℕ) (m : ℕ → ℕ → ℝ) : ℕ → ℝ := fun k => m (k / c) (k % c)

/-- A point. -/
@[ext] structure Pt where
  x : ℝ
  y : ℝ
  z : ℝ

/-- `generate_ground_microphone_points` (generate_microphone_points.py:38-47): row `k` of `N_x*N_y`. -/
noncomputable def ground (x1 x2 y1 y2 : ℝ) (nx ny k : ℕ) : Pt :=
  ⟨flatten ny (columns (linspace x1 x2 nx)) k, flatten ny (transpose (columns (linspace y1 y2 ny))) k, 0⟩

/-- A building: location and dimensions. -/
structure Building where
  x0 : ℝ
  y0 : ℝ
  z0 : ℝ
  l : ℝ
  w : ℝ
  h : ℝ

/-- Size check of `reshape(N_b,N_y*N_z)` on an array of `a*b` values per building (generate_microphone_points.py:102,
117, 132, 148). -/
def fits (a b ny nz : ℕ) : Prop := a * b = ny * nz

/-- A wall facing along x (generate_microphone_points.py:92-104, 122-134), at coordinate `x`. -/
noncomputable def wallX (b : Building) (x : ℝ) (ny nz k : ℕ) : Pt :=
  ⟨flatten nz (fun _ _ => x) k,
   flatten nz (columns (linspace (-1) 1 ny)) k * (b.w / 2) + b.y0,
   flatten nz (transpose (columns (linspace 0 1 nz))) k * b.h⟩

/-- A wall facing along y (generate_microphone_points.py:107-119, 137-150), at coordinate `y`. -/
noncomputable def wallY (b : Building) (y : ℝ) (nx nz k : ℕ) : Pt :=
  ⟨flatten nz (columns (linspace (-1) 1 nx)) k * (b.l / 2) + b.x0,
   flatten nz (fun _ _ => y) k,
   flatten nz (transpose (columns (linspace 0 1 nz))) k * b.h⟩

/-- The roof (generate_microphone_points.py:153-165). -/
noncomputable def roof (b : Building) (nx ny k : ℕ) : Pt :=
  ⟨flatten ny (columns (linspace (-1) 1 nx)) k * (b.l / 2) + b.x0,
   flatten ny (transpose (columns (linspace (-1) 1 ny))) k * (b.w / 2) + b.y0, b.h⟩

/-- `generate_building_microphone_points` for one building of a non-empty list (generate_microphone_points.py:75-169):
five slices; `none` when a reshape does not fit. -/
noncomputable def building (b : Building) (nx ny nz : ℕ) : Option (List Pt) :=
  open Classical in
  if fits nx nz ny nz then
    some ((List.range (ny * nz)).map (wallX b (b.x0 - b.l / 2) ny nz)
      ++ (List.range (nx * nz)).map (wallY b (b.y0 + b.w / 2) nx nz)
      ++ (List.range (ny * nz)).map (wallX b (b.x0 + b.l / 2) ny nz)
      ++ (List.range (nx * nz)).map (wallY b (b.y0 - b.w / 2) nx nz)
      ++ (List.range (nx * ny)).map (roof b nx ny))
  else none

/-- `GML`, `UCML` (compute_noise_evaluation_locations.py:43-50, 88-95): `pos` has its third component downwards. -/
def relative (pos mic : Pt) : Pt := ⟨pos.x - mic.x, pos.y - mic.y, -pos.z - mic.z⟩

/-- Angle of a relative position (compute_noise_evaluation_locations.py:53-54, 98-99): `arctan(z/x)`; a zero divisor is
excluded. -/
noncomputable def elevation (z x : ℝ) : Option ℝ := if x = 0 then none else some (arctan (z / x))

/-! ## `noise_geometric` -/

/-- What `noise_geometric` returns for one time step: distance and angles. -/
structure View where
  dist : ℝ
  theta : ℝ
  phi : ℝ

/-- `s[s==0] = 1E-8` (noise_geometric.py:51-52): `s` is a view of the position vector, which changes too. -/
noncomputable def nudge (p : Pt) : Pt := if p.x = 0 then { p with x := 1e-8 } else p

/-- `np.arctan(np.abs(a/d))`; at `d = 0` the quotient is infinite. -/
noncomputable def arctanAbs (a d : ℝ) : ℝ := if d = 0 then π / 2 else arctan |a / d|

/-- Microphone below the path (noise_geometric.py:62-72, 81-102). -/
noncomputable def below (x0 : ℝ) (p : Pt) : View :=
  let alt := -p.z
  let s := (nudge p).x
  ⟨√(alt ^ 2 + (s - x0) ^ 2), if s - x0 < 0 then π - arctanAbs alt (s - x0) else arctanAbs alt (s - x0), 0⟩

/-- Microphone to the side (noise_geometric.py:110-111, 132-136, 142-151), altitude not zero. -/
noncomputable def aside (x0 : ℝ) (p : Pt) : View :=
  let alt := -p.z
  let s := (nudge p).x
  let phi := arctan (450 / alt)
  let dist := √((450 / sin phi) ^ 2 + (s - x0) ^ 2)
  ⟨dist, if s - x0 < 0 then π - arccos |(x0 - s) / dist| else arccos |(x0 - s) / dist|, phi⟩

/-- Settings `approach`, `flyover`, `sideline` and `mic_x_position` (noise_geometric.py:44-47). -/
structure Flags where
  approach : Bool
  flyover : Bool
  sideline : Bool
  micX : ℝ

/-- `noise_geometric` (noise_geometric.py:44-165); `tofl` is the estimated take-off field length, `x1000` the position
found at 304.8 m.  In the last branch the position of the microphone is the third column (144). -/
noncomputable def view (f : Flags) (tofl x1000 : ℝ) (p : Pt) : View :=
  if f.approach then below 2000 p
  else if f.flyover then below (6500 - tofl) p
  else if f.sideline then aside (if f.micX = 0 then x1000 else f.micX) p
  else aside p.z p

end Verif.Noise.Mic
