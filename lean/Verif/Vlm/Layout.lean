import Verif.Vlm.Forces
/-
The books kept on the lattice while surfaces are added: the ends of `generate_wing_vortex_distribution` (lines 312-320, 397-399,
697-726, 765-832) and of `generate_fuselage_and_nacelle_vortex_distribution` (1082-1093, 1106-1108, 1146-1213), the order in which
`generate_vortex_distribution` calls them (219-246), what `postprocess_VD` spreads over strips (generate_VD_helpers.py:42-103), and the
sums by strip and by surface in VLM.py (383-396, 414, 481-487);
trunk/SUAVE/Methods/Aerodynamics/Common/Fidelity_Zero/Lift.

Simplifications
* The points of a panel are one value of any type, in place of thirty arrays that all get the same indices.
* Integers do not overflow.
-/

namespace Verif.Vlm

/-- The books of the lattice `VD`. -/
structure Lay (P : Type) where
  nW : ℕ
  nCp : ℕ
  nSw : List ℕ
  nCw : List ℕ
  chordBreaks : List ℕ
  spanBreaks : List ℕ
  id : List ℤ
  le : List Bool
  te : List Bool
  perStrip : List ℕ
  number : List ℕ
  exposed : List Bool
  lift : List Bool
  areas : List ℝ
  cs : List ℝ
  sym : List Bool
  counter : ℕ
  pts : List P

/-- Before any surface (189-212). -/
def Lay.empty (P : Type) : Lay P := ⟨0, 0, [], [], [], [], [], [], [], [], [], [], [], [], [], [], 0, []⟩

/-- The flags of one strip (697-702, 1082-1088): of `n` panels the first, or the last. -/
def leFlags (n : ℕ) : List Bool := (List.range n).map fun i => decide (i = 0)
def teFlags (n : ℕ) : List Bool := (List.range n).map fun i => decide (i + 1 = n)

/-- `np.arange(n)[0::k]` for `n = m * k` (777, 1158). -/
def everyKth (m k : ℕ) : List ℕ := (List.range m).map fun j => j * k

/-- A wing with its numbers of panels, whether it has two halves, whether vortex lift is on, its area, and by strip the flag of
the exposed edge and the chord; the points for either sign. -/
structure WingIn (P : Type) where
  ncw : ℕ
  nsw : ℕ
  sym : Bool
  lift : Bool
  area : ℝ
  exposed : List Bool
  cs : List ℝ
  pts : ℤ → List P

/-- One pass of the loop over the halves (697-832) of the wing with number `v.counter`. -/
def addHalf {P : Type} (w : WingIn P) (v : Lay P) (sign : ℤ) : Lay P :=
  { v with
    le := v.le ++ (List.replicate w.nsw (leFlags w.ncw)).flatten
    te := v.te ++ (List.replicate w.nsw (teFlags w.ncw)).flatten
    perStrip := v.perStrip ++ (List.replicate w.nsw (List.replicate w.ncw w.ncw)).flatten
    number := v.number ++ (List.replicate w.nsw (List.range' 1 w.ncw)).flatten
    exposed := v.exposed ++ w.exposed
    nW := v.nW + 1
    nCp := v.nCp + (w.pts sign).length
    chordBreaks := v.chordBreaks ++ (everyKth w.nsw w.ncw).map (v.pts.length + ·)
    spanBreaks := v.spanBreaks ++ [v.chordBreaks.length]
    nSw := v.nSw ++ [w.nsw]
    nCw := v.nCw ++ [w.ncw]
    id := v.id ++ List.replicate (w.ncw * w.nsw) ((v.counter : ℤ) * sign)
    pts := v.pts ++ w.pts sign
    cs := v.cs ++ w.cs }

/-- `generate_wing_vortex_distribution`, as far as the books go. -/
def addWing {P : Type} (v : Lay P) (w : WingIn P) : Lay P :=
  let n := if w.sym then 2 else 1
  let v := { v with lift := v.lift ++ List.replicate n w.lift, counter := v.counter + 1, areas := v.areas ++ List.replicate n w.area }
  let v := addHalf w v 1
  let v := if w.sym then addHalf w v (-1) else v
  { v with sym := v.sym ++ [w.sym] }

/-- A fuselage or nacelle: the points of its first and its second half. -/
structure BodyIn (P : Type) where
  ncw : ℕ
  nsw : ℕ
  area : ℝ
  cs : List ℝ
  first : List P
  second : List P

/-- `generate_fuselage_and_nacelle_vortex_distribution` from line 1146 on. -/
def addBody {P : Type} (model : Bool) (v : Lay P) (b : BodyIn P) : Lay P :=
  if model then
    { v with
      nCp := v.nCp + (b.first ++ b.second).length
      nW := v.nW + 2
      counter := v.counter + 1
      chordBreaks := v.chordBreaks ++ (everyKth (2 * b.nsw) b.ncw).map (v.pts.length + ·)
      spanBreaks := v.spanBreaks ++ [v.chordBreaks.length, v.chordBreaks.length + b.nsw]
      nSw := v.nSw ++ [b.nsw, b.nsw]
      nCw := v.nCw ++ [b.ncw, b.ncw]
      id := v.id ++ List.replicate (b.first ++ b.second).length ((v.counter : ℤ) + 1)
      le := v.le ++ ((List.replicate b.nsw (leFlags b.ncw)).flatten ++ (List.replicate b.nsw (leFlags b.ncw)).flatten)
      te := v.te ++ ((List.replicate b.nsw (teFlags b.ncw)).flatten ++ (List.replicate b.nsw (teFlags b.ncw)).flatten)
      perStrip := v.perStrip ++ ((List.replicate b.nsw (List.replicate b.ncw b.ncw)).flatten ++
        (List.replicate b.nsw (List.replicate b.ncw b.ncw)).flatten)
      number := v.number ++ ((List.replicate b.nsw (List.range' 1 b.ncw)).flatten ++ (List.replicate b.nsw (List.range' 1 b.ncw)).flatten)
      exposed := v.exposed ++ (List.replicate b.nsw true ++ List.replicate b.nsw true)
      pts := v.pts ++ (b.first ++ b.second)
      cs := v.cs ++ (b.cs ++ b.cs)
      areas := v.areas ++ [b.area, b.area]
      lift := v.lift ++ [false, false] }
  else v

/-- The lattice of a vehicle (219-246): wings, then control surfaces, then nacelles, then fuselages. -/
def lattice {P : Type} (wings controls : List (WingIn P)) (nacelles fuselages : List (BodyIn P)) (modelNac modelFus : Bool) : Lay P :=
  fuselages.foldl (addBody modelFus) (nacelles.foldl (addBody modelNac) (controls.foldl addWing (wings.foldl addWing (Lay.empty P))))

/-- `np.add.reduceat(a, idx)`: from each index up to the next one, the last to the end; where the next index is not larger, the
entry itself. -/
noncomputable def reduceat (a : List ℝ) : List ℕ → List ℝ
  | [] => []
  | [i] => [(a.drop i).sum]
  | i :: j :: l => (if i < j then ((a.drop i).take (j - i)).sum else a.getD i 0) :: reduceat a (j :: l)

/-- `a[mask]` for a mask as long as `a`. -/
def select {α : Type} (mask : List Bool) (a : List α) : List α := ((mask.zip a).filter (·.1)).map (·.2)

/-- `np.repeat(a, counts)`. -/
def repeatEach {α : Type} (a : List α) (counts : List ℕ) : List α := (List.zipWith (fun x n => List.replicate n x) a counts).flatten

/-- The value of a quantity at the last panel of each strip, for all panels (generate_VD_helpers.py:44-45, 74-82). -/
def spreadLast {P α : Type} (v : Lay P) (a : List α) : List α := repeatEach (select v.te a) (select v.le v.perStrip)

/-- `is_VLM_wing` (47-48): by the number of the last wing. -/
def isWing {P : Type} (v : Lay P) (last : ℕ) : List Bool := v.id.map fun k => decide (|k| ≤ (last : ℤ))

/-- `Y_SW` (85). -/
def wingStations {P α : Type} (v : Lay P) (last : ℕ) (yc : List α) : List α := select (List.zipWith (· && ·) (isWing v last) v.te) yc

/-- The lift of every strip through `CL_wing` (481) and `CL` (486). -/
noncomputable def surfaceCoefficients {P : Type} (v : Lay P) (force : List ℝ) : List ℝ := List.zipWith (· / ·) (reduceat force v.spanBreaks) v.areas
noncomputable def totalCoefficient (sref : ℝ) (force : List ℝ) : ℝ := force.sum / sref

/-- The strips on which vortex lift is on (414). -/
def stripLift {P : Type} (v : Lay P) : List Bool := repeatEach v.lift v.nSw

end Verif.Vlm
