import Mathlib.Data.Real.Basic
import Mathlib.Analysis.SpecialFunctions.Trigonometric.Basic

/-!
# Files for visualization

`trunk/SUAVE/Input_Output/VTK/`: `write_azimuthal_cell_values.py`, `save_fuselage_vtk.py`, `save_nacelle_vtk.py`, `save_prop_vtk.py`,
`save_wing_vtk.py`, `save_prop_wake_vtk.py`, `save_vortex_distribution_vtk.py`, `save_vehicle_vtk.py`, with `extract_wing_VD.py`.

A file is a record of what is written: declared numbers and the lists after them. Points are of any type; rounding to four digits and
the offset of the origin are part of the functions that give them. Text layout is not modelled.
-/

namespace Verif.IO.Vtk

/-- What is written to one file: `POINTS`, `CELLS`, `CELL_TYPES`, `CELL_DATA`, and the scalars. -/
structure File (P S : Type) where
  nPoints : ℕ
  points : List P
  nCells : ℕ
  size : ℕ
  cells : List (List ℕ)
  nTypes : ℕ
  types : List ℕ
  nData : ℕ
  index : List ℕ
  data : List (List S)

/-! ### Closed bodies and blades -/

/-- `write_azimuthal_cell_values.py` 31-46: `k` turns left, turn `i`, laps `rlap`. -/
def azLoop (na : ℕ) : ℕ → ℕ → ℕ → List (List ℕ)
  | 0, _, _ => []
  | k + 1, i, rlap =>
    if i = na - 1 + na * rlap then [i, i - (na - 1), i + 1, i + na] :: azLoop na k (i + 1) (rlap + 1)
    else [i, i + 1, i + na + 1, i + na] :: azLoop na k (i + 1) rlap

/-- The means of `save_prop_vtk.py` 144-160 (the other fields likewise, 166-290). -/
noncomputable def bladeMean (na : ℕ) (v : ℕ → ℕ → ℝ) (i j : ℕ) : ℝ :=
  let jp := if j = na - 1 then 0 else j + 1
  (v i j + v (i + 1) j + v i jp + v (i + 1) jp) / 4

/-- `write_fuselage_data` (`save_fuselage_vtk.py` 126-173), `write_nacelle_data` (`save_nacelle_vtk.py` 96-143), both without fields,
and one blade of `save_prop_vtk` (`save_prop_vtk.py` 92-290). -/
noncomputable def bodyFile {P : Type} (nr na : ℕ) (pt : ℕ → ℕ → P) (fields : List (ℕ → ℕ → ℝ)) : File P ℝ :=
  let n := na * (nr - 1)
  { nPoints := nr * na
    points := (List.range nr).flatMap fun r => (List.range na).map fun a => pt r a
    nCells := n
    size := n * (1 + 4)
    cells := azLoop na n 0 0
    nTypes := n
    types := List.replicate n 9
    nData := n
    index := List.range n
    data := fields.map fun v => (List.range (nr - 1)).flatMap fun i => (List.range na).map fun j => bladeMean na v i j }

/-- Lateral and vertical coordinate of a point of a fuselage station before it is moved (`save_fuselage_vtk.py` 73-78). -/
noncomputable def fusPoint (width height θ : ℝ) : ℝ × ℝ :=
  let a := width / 2
  let b := height / 2
  let r := Real.sqrt ((b * Real.sin θ) ^ 2 + (a * Real.cos θ) ^ 2)
  (r * Real.cos θ, r * Real.sin θ)

/-! ### Wings -/

/-- Corners of the panels of a surface: `A` first side, `B` second side, `1` leading, `2` trailing. -/
structure Corners (P : Type) where
  A1 : ℕ → P
  A2 : ℕ → P
  B1 : ℕ → P
  B2 : ℕ → P

/-- Points of `write_wing_vtk` (`save_wing_vtk.py` 166-200): `k` turns left, turn `i`, laps so far. -/
def wingPoints {P : Type} (w : Corners P) (ncw nsw : ℕ) : ℕ → ℕ → ℕ → List P
  | 0, _, _ => []
  | k + 1, i, laps =>
    let n := (ncw + 1) * (nsw + 1)
    if i = n - 1 then w.B2 (i - laps - ncw - 1) :: wingPoints w ncw nsw k (i + 1) laps
    else if i > n - 1 - (ncw + 1) then w.B1 (i - laps - ncw) :: wingPoints w ncw nsw k (i + 1) laps
    else if i = 0 then w.A1 i :: wingPoints w ncw nsw k (i + 1) laps
    else if i / (ncw + laps * (ncw + 1)) = 1 then w.A2 (i - (laps + 1)) :: wingPoints w ncw nsw k (i + 1) (laps + 1)
    else w.A1 (i - laps) :: wingPoints w ncw nsw k (i + 1) laps

/-- Cells of `write_wing_vtk` (212-221) and of one blade of the wake (`save_prop_wake_vtk.py` 172-181), where the first node is `base`. -/
def gridLoop (n base : ℕ) : ℕ → ℕ → ℕ → List (List ℕ)
  | 0, _, _ => []
  | k + 1, i, node =>
    let node := if i = 0 then base else if i % n = 0 then node + 1 else node
    [node, node + 1, node + n + 2, node + n + 1] :: gridLoop n base k (i + 1) (node + 1)

/-- `write_wing_vtk` (144-303) with the lift of the strips and the pressure of the panels as scalars; the quotients by the totals and
the drag, written in the same way, are left out. -/
def wingFile {P S : Type} (w : Corners P) (ncw nsw : ℕ) (cl cp : ℕ → S) : File P S :=
  let n := ncw * nsw
  { nPoints := (ncw + 1) * (nsw + 1)
    points := wingPoints w ncw nsw ((ncw + 1) * (nsw + 1)) 0 0
    nCells := n
    size := n * (1 + 4)
    cells := gridLoop ncw 0 n 0 0
    nTypes := n
    types := List.replicate n 9
    nData := n
    index := List.range n
    data := [(List.range n).map fun i => cl (i / ncw), (List.range n).map fun i => cp i] }

/-- The vortex distribution of a vehicle, as far as used: chordwise and spanwise panels of every surface (half wings are surfaces of
their own), one flag for each wing, the corners of all panels. -/
structure Dist (P : Type) where
  ncw : List ℕ
  nsw : List ℕ
  sym : List Bool
  corners : Corners P

/-- `breaks` (`extract_wing_VD.py` 54). -/
def Dist.start {P : Type} (d : Dist P) (k : ℕ) : ℕ := ((List.zipWith (· * ·) d.ncw d.nsw).take k).sum

/-- `semispan_idx` (57). -/
def Dist.semispan {P : Type} (d : Dist P) (i : ℕ) : ℕ := i + ((d.sym.take i).map fun b => if b then 1 else 0).sum

/-- Panels from `k` on. -/
def Corners.shift {P : Type} (c : Corners P) (k : ℕ) : Corners P :=
  ⟨fun i => c.A1 (k + i), fun i => c.A2 (k + i), fun i => c.B1 (k + i), fun i => c.B2 (k + i)⟩

/-- `save_wing_vtk` (`save_wing_vtk.py` 41-138) for wing `i` of a vehicle with a vortex distribution: the files written. `cl` is the
lift of all strips and `cp` the pressure of all panels of the vehicle. -/
def saveWing {P S : Type} (d : Dist P) (cl cp : ℕ → S) (i : ℕ) : List (File P S) :=
  let k := d.semispan i
  let start := d.start k
  if d.sym.getD i false then
    let half := (d.start (k + 2) - start) / 2
    [wingFile (d.corners.shift (start + half)) (d.ncw.getD k 0) (d.nsw.getD k 0) cl fun j => cp (half + j),
     wingFile (d.corners.shift start) (d.ncw.getD (k + 1) 0) (d.nsw.getD (k + 1) 0) cl cp]
  else [wingFile (d.corners.shift start) (d.ncw.getD 0 0) (d.nsw.getD 0 0) cl cp]

/-! ### Wakes of rotors -/

/-- Corners of the rings of a wake by blade, ring and time step. -/
structure WakeCorners (P : Type) where
  A1 : ℕ → ℕ → ℕ → P
  A2 : ℕ → ℕ → ℕ → P
  B1 : ℕ → ℕ → ℕ → P
  B2 : ℕ → ℕ → ℕ → P

/-- `save_prop_wake_vtk.py` 92-119: for positive rotation the sides are exchanged. -/
def WakeCorners.oriented {P : Type} (w : WakeCorners P) (rot : ℤ) : WakeCorners P :=
  if rot = 1 then ⟨w.B1, w.B2, w.A1, w.A2⟩ else w

/-- One point (132-153). -/
def wakePoint {P : Type} (w : WakeCorners P) (nr b t r : ℕ) : P :=
  if r = nr ∧ t = 0 then w.B2 b (r - 1) t
  else if t = 0 then w.A2 b r t
  else if r = nr then w.B1 b (r - 1) (t - 1)
  else w.A1 b r (t - 1)

/-- `save_prop_wake_vtk` up to line 230, for one control point and start angle. -/
noncomputable def wakeFile {P : Type} (w : WakeCorners P) (nb nr nt : ℕ) (rot : ℤ) (gamma : ℕ → ℕ → ℕ → ℝ) (vt : ℕ → ℝ) : File P ℝ :=
  let w := w.oriented rot
  let nv := nb * (nr + 1) * (nt + 1)
  let n := nb * (nr * nt)
  { nPoints := nv
    points := (List.range nb).flatMap fun b => (List.range (nt + 1)).flatMap fun t => (List.range (nr + 1)).map fun r => wakePoint w nr b t r
    nCells := n
    size := n * (1 + 4)
    cells := (List.range nb).flatMap fun b => gridLoop nr (b * nv / nb) (nr * nt) 0 0
    nTypes := n
    types := List.replicate n 9
    nData := n
    index := List.range n
    data := [(List.range nb).flatMap fun b => (List.range nt).flatMap fun t => (List.range nr).map fun r => gamma b r t,
      (List.range nb).flatMap fun _ => (List.range (nr * nt)).map fun i => 0.5 * (vt (i % nr) + vt (i % nr + 1))] }

/-- A corner of a ring. -/
inductive Corner where
  | A1 | A2 | B1 | B2
deriving DecidableEq

/-- A vortex line of the second file: corners of the ring `(r, t)` it joins, strength. -/
structure Line where
  r : ℕ
  t : ℕ
  a : Corner
  b : Corner
  g : ℝ

open Classical in
/-- `np.gradient` with the sign of lines 241-244; `none` for a single ring. -/
noncomputable def slopeSign (nr : ℕ) (g : ℕ → ℝ) (r : ℕ) : ℝ :=
  let d := if r = 0 then g 1 - g 0 else if r = nr - 1 then g r - g (r - 1) else (g (r + 1) - g (r - 1)) / 2
  if d < 0 then -1 else 1

/-- Lines of one ring (248-411), branch by branch; `none` is an index out of range. -/
noncomputable def ringLines (nr nt : ℕ) (gamma : ℕ → ℕ → ℝ) (t r : ℕ) : Option (List Line) :=
  let at' (r t : ℕ) : Option ℝ := if r < nr ∧ t < nt then some (gamma r t) else none
  let g := gamma r t
  let s := slopeSign nr (fun r => gamma r t) r
  let first := Line.mk r t .A1 .B1 g
  let last (x : ℝ) := Line.mk r t .A2 .B2 x
  let root := Line.mk r t .A1 .A2 g
  let tip (x : ℝ) := Line.mk r t .B1 .B2 x
  if t = 0 ∧ r = 0 then (at' (r + 1) t).bind fun grp => (at' r (t + 1)).map fun gtp => [first, last (g - gtp), root, tip (-s * (g - grp))]
  else if t = 0 ∧ r = nr - 1 then (at' r (t + 1)).map fun gtp => [first, last (g - gtp), tip g]
  else if t = 0 then (at' (r + 1) t).bind fun grp => (at' r (t + 1)).map fun gtp => [first, last (g - gtp), tip (-s * (g - grp))]
  else if t = nt - 1 ∧ r = 0 then (at' (r + 1) t).map fun grp => [last g, root, tip (-s * (g - grp))]
  else if r = 0 then (at' (r + 1) t).bind fun grp => (at' r (t + 1)).map fun gtp => [last (g - gtp), root, tip (-s * (g - grp))]
  else if t = nt - 1 ∧ r = nr - 1 then some [last g, tip g]
  else if r = nr - 1 then (at' r (t + 1)).map fun gtp => [last (g - gtp), tip g]
  else if t = nt - 1 then (at' (r + 1) t).map fun grp => [last g, tip (-s * (g - grp))]
  else (at' (r + 1) t).bind fun grp => (at' r (t + 1)).map fun gtp => [last (g - gtp), tip (-s * (g - grp))]

/-- All lines of a blade (240-411), `np.gradient` wanting two rings (242). -/
noncomputable def bladeLines (nr nt : ℕ) (gamma : ℕ → ℕ → ℝ) : Option (List Line) :=
  if nr < 2 then none
  else ((List.range nt).mapM fun t => ((List.range nr).mapM fun r => ringLines nr nt gamma t r).map List.flatten).map List.flatten

/-- `n_edges` (437). -/
def nEdges (nr nt : ℕ) : ℕ := nr * (nt + 1) + nt * (nr + 1)

/-- Strengths written (494-507): some are set to zero by their position. -/
noncomputable def zeroFirst (nr : ℕ) (l : List ℝ) : List ℝ :=
  l.mapIdx fun i g => if i = 0 ∨ 4 ≤ i ∧ (i - 4) % 3 = 0 ∧ (i - 4) / 3 < nr - 1 then 0 else g

/-! ### Vortices of a wing -/

/-- Trailing vortex behind panel `c` of strip `s` (`save_vortex_distribution_vtk.py` 171-184). -/
noncomputable def trailing (ncw nsw : ℕ) (gamma : ℕ → ℝ) (s : ℕ) : ℕ → ℝ
  | 0 => 0
  | c + 1 => trailing ncw nsw gamma s c + (if s = nsw - 1 then gamma (c + s * ncw) else gamma (c + s * ncw) - gamma (c + s * ncw + ncw))

/-- What `process_VD` needs: corners of the bound vortices and the trailing edge of each panel, and the point behind it. -/
structure Horseshoes (P : Type) where
  AH : ℕ → P
  BH : ℕ → P
  TE : ℕ → P
  far : ℕ → P

/-- A straight vortex with its strength. -/
structure Segment (P : Type) where
  a : P
  b : P
  g : ℝ

/-- Bound and trailing vortices of all panels, in the order of the panels (171-217). -/
noncomputable def boundSeg {P : Type} (h : Horseshoes P) (gamma : ℕ → ℝ) (i : ℕ) : Segment P := ⟨h.AH i, h.BH i, gamma i⟩
noncomputable def trailSeg {P : Type} (h : Horseshoes P) (ncw nsw : ℕ) (gamma : ℕ → ℝ) (s c : ℕ) : Segment P :=
  ⟨h.BH (c + s * ncw), if c = ncw - 1 then h.TE (c + s * ncw) else h.BH (c + s * ncw + 1), trailing ncw nsw gamma s (c + 1)⟩

/-- Vortices behind the trailing edge, one for each strip (186-201). -/
noncomputable def wakeSeg {P : Type} (h : Horseshoes P) (ncw nsw : ℕ) (gamma : ℕ → ℝ) (s : ℕ) : Segment P :=
  ⟨h.TE (ncw - 1 + s * ncw), h.far (ncw - 1 + s * ncw), trailing ncw nsw gamma s ncw⟩

/-- `full_VD` (406-525); `wing_VD` and `wake_VD` write its two parts. -/
noncomputable def vortexFile {P : Type} (h : Horseshoes P) (ncw nsw : ℕ) (gamma : ℕ → ℝ) : File P ℝ :=
  let ncp := nsw * ncw
  let panels := (List.range nsw).flatMap fun s => (List.range ncw).map fun c => (boundSeg h gamma (c + s * ncw), trailSeg h ncw nsw gamma s c)
  let wakes := (List.range nsw).map fun s => wakeSeg h ncw nsw gamma s
  let n := 2 * ncp + nsw
  { nPoints := ncp * 4 + 2 * nsw
    points := (panels.flatMap fun p => [p.1.a, p.1.b, p.2.a, p.2.b]) ++ wakes.flatMap fun p => [p.a, p.b]
    nCells := n
    size := n * (1 + 2)
    cells := ((List.range ncp).flatMap fun i => [[i * 4, i * 4 + 1], [i * 4 + 2, i * 4 + 2 + 1]]) ++
      (List.range nsw).map fun i => [4 * ncp + i * 2, 4 * ncp + i * 2 + 1]
    nTypes := n
    types := ((List.range ncp).flatMap fun _ => [4, 4]) ++ (List.range nsw).map fun _ => 4
    nData := n
    index := ((List.range ncp).flatMap fun i => [i, i]) ++ List.range nsw
    data := [(panels.flatMap fun p => [p.1.g, p.2.g]) ++ wakes.map fun p => p.g] }

/-! ### Files of a vehicle -/

/-- Names of files, as far as they differ: kind, number or tag, side, time step. -/
inductive Name (T : Type) where
  | propeller (i time : ℕ)
  | wing (tag : T) (time : ℕ)
  | fuselage (i time : ℕ)
  | nacelle (i time : ℕ)
deriving DecidableEq

/-- A vehicle: propellers and number of lift rotors of each network, wings by tag, fuselages, nacelles. -/
structure Vehicle (T C : Type) where
  networks : List (List C × ℕ)
  wings : List (T × C)
  fuselages : List C
  nacelles : List C

/-- `save_vehicle_vtks` (`save_vehicle_vtk.py` 75-249): the writes in order. Lift rotors are saved with two values for one argument
(166), and with conditions the unknown name `VLM` is used for the first wing (217): exceptions. -/
def saveVehicle {T C : Type} (v : Vehicle T C) (conditions : Bool) (time : ℕ) : Option (List (Name T × C)) :=
  if v.networks.any fun n => decide (0 < n.2) then none
  else if conditions ∧ v.wings ≠ [] then none
  else some ((v.networks.flatMap fun n => n.1.zipIdx.map fun c => (.propeller c.2 time, c.1)) ++
    (v.wings.map fun w => (.wing w.1 time, w.2)) ++
    ((List.range v.fuselages.length).flatMap fun i => v.fuselages.map fun c => (.fuselage i time, c)) ++
    v.nacelles.zipIdx.map fun c => (.nacelle c.2 time, c.1))

/-- Contents of a name after the writes: the last one. -/
def content {T C : Type} [DecidableEq T] (w : List (Name T × C)) (n : Name T) : Option C := (w.reverse.find? fun x => decide (x.1 = n)).map Prod.snd

end Verif.IO.Vtk
