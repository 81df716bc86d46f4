import Verif.Noise.Microphones

/-!
Figures of the noise of a mission on the ground and on buildings.

Source: trunk/SUAVE/Plots/Performance/Mission_Plots.py: `plot_ground_noise_levels` 1935-1994, `plot_flight_profile_noise_contours` 1998-2189.

Simplifications: one microphone at a time; `none` stands for an exception. Colours, labels and the camera are left out.
-/

namespace Verif.Noise.Mic

/-- What is read of a segment: whether the battery is discharged, and the weighted level of each microphone at each control point. -/
structure NoiseSeg where
  discharge : Bool
  levels : List (ℕ → ℝ)

/-- The rows of one segment in the table of `n` control points, which starts as zeros (1975-1982, 2030-2045). -/
def tableRows (n : ℕ) (s : NoiseSeg) : Option (List (ℕ → ℝ)) :=
  (List.range n).mapM fun j => if s.discharge then s.levels[j]? else some fun _ => 0

/-- `max_SPL`, `max_SPL_contour_gm` at microphone `m` (1959-1961 and 1983, 2023-2024 and 2055): the number of points is that of the first
segment. -/
noncomputable def loudest (segs : List NoiseSeg) (m : ℕ) : Option ℝ := do
  let first ← segs.head?
  let rows ← segs.mapM (tableRows first.levels.length)
  (rows.flatten.map (· m)).max?

/-- Where a microphone is drawn on the horizontal axis of the first figure, in nautical miles (1964-1965, 1985); `pos0` is the position of the
aircraft at the first point of the mission. -/
noncomputable def rangeShown (pos0 mic : Pt) : ℝ := -(relative pos0 mic).x / 1852

/-- Where a microphone on the ground is drawn in the three-dimensional figure (2051-2054, 2068-2069, 2079). -/
noncomputable def groundMark (mic : Pt) : Pt := ⟨mic.x / 1852, mic.y / 1852, 0⟩

/-- Where the aircraft is drawn in it (2034, 2043-2044, 2083). -/
def flightMark (discharge : Bool) (pos : Pt) : Pt := if discharge then ⟨pos.x, 0, -pos.z⟩ else ⟨0, 0, 0⟩

/-- `a[i:j]`. -/
def slice {α : Type} (l : List α) (i j : ℕ) : List α := (l.take j).drop i

/-- The five surfaces of building number `i` (2112-2167) out of all microphones on buildings. -/
noncomputable def drawnBuilding (mics : List Pt) (i : ℕ) (b : Building) (nx ny nz : ℕ) : List Pt :=
  let per := 2 * (nx * nz + ny * nz) + nx * ny
  let s1 := i * per
  let e1 := i * per + ny * nz
  let e2 := e1 + nx * nz
  let e3 := e2 + ny * nz
  let e4 := e3 + nx * nz
  let e5 := (i + 1) * per
  (slice mics s1 e1).map (fun p => ⟨b.x0 - b.l / 2, p.y, p.z⟩) ++ (slice mics e1 e2).map (fun p => ⟨p.x, b.y0 + b.w / 2, p.z⟩) ++
    (slice mics e2 e3).map (fun p => ⟨b.x0 + b.l / 2, p.y, p.z⟩) ++ (slice mics e3 e4).map (fun p => ⟨p.x, b.y0 - b.w / 2, p.z⟩) ++
    (slice mics e4 e5).map (fun p => ⟨p.x, p.y, b.h⟩)

end Verif.Noise.Mic
