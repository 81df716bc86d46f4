import Mathlib.Data.Real.Basic
import Mathlib.Algebra.Order.Round
import Mathlib.Algebra.Order.Floor.Ring
import Mathlib.Data.Real.Archimedean
import Mathlib.Data.List.Perm.Basic

/-!
Meshes and flow solutions of SU2, wave drag and fuel tanks of OpenVSP, and trees for D3.

Sources: trunk/SUAVE/Input_Output/GMSH/write_geo_file.py, trunk/SUAVE/Analyses/Aerodynamics/SU2_inviscid.py,
trunk/SUAVE/Analyses/Aerodynamics/SU2_inviscid_Super.py, trunk/SUAVE/Analyses/Aerodynamics/SU2_Euler.py,
trunk/SUAVE/Input_Output/SU2/write_SU2_cfg.py, trunk/SUAVE/Input_Output/SU2/call_SU2_CFD.py,
trunk/SUAVE/Methods/Aerodynamics/OpenVSP_Wave_Drag/wave_drag_volume.py,
trunk/SUAVE/Methods/Aerodynamics/OpenVSP_Wave_Drag/compressibility_drag_total.py,
trunk/SUAVE/Input_Output/OpenVSP/get_fuel_tank_properties.py, trunk/SUAVE/Input_Output/D3JS/save_tree.py.

Simplifications: files are lists of their lines already split into words; the external programs are functions.
-/

namespace Verif.IO.External

/-! ### Surfaces of the mesh -/

/-- A line of the key file after the header: number and name of a surface. -/
structure Key where
  num : ℤ
  name : String

/-- Result of `read_keys`. -/
structure Keys where
  vehicle : List ℤ
  far : ℤ
  sym : ℤ

/-- Loop body of `read_keys` (119-124). -/
def Keys.add (k : Keys) (l : Key) : Keys :=
  if l.name = "FarField" then { k with far := l.num }
  else if l.name = "SymPlane" then { k with sym := l.num }
  else { k with vehicle := k.vehicle ++ [l.num] }

/-- `read_keys` (101-128). -/
def readKeys (ls : List Key) : Keys := ls.foldl Keys.add ⟨[], -1, -1⟩

/-- Statements of a geo file. -/
inductive Stmt where
  | physical (name : String) (ids : List ℤ)
  | loop (n : ℕ) (ids : List ℤ)
  | volume (n : ℕ) (loops : List ℕ)

/-- Loops of the surfaces of the vehicle (67-70), numbered from `n`. -/
def vehicleLoops : ℕ → List ℤ → List (ℕ × ℤ)
  | _, [] => []
  | n, v :: vs => (n, v) :: vehicleLoops (n + 1) vs

/-- `write_geo_file` (40-72) after the line that merges the surface file. -/
def writeGeo (k : Keys) : List Stmt :=
  let hasSym := k.sym ≠ -1
  let meshCount := k.vehicle.length + 1 + (if hasSym then 1 else 0)
  let first : List (ℕ × ℤ) := [(meshCount + 1, k.far)]
  let second : List (ℕ × ℤ) := if hasSym then [(meshCount + 2, k.sym)] else []
  let total := meshCount + 1 + second.length
  let loops := first ++ second ++ vehicleLoops (total + 1) k.vehicle
  [.physical "VEHICLE" k.vehicle] ++ (if hasSym then [.physical "SYMPLANE" [k.sym]] else []) ++ [.physical "FARFIELD" [k.far]]
    ++ loops.map (fun p => .loop p.1 [p.2]) ++ [.volume (total + k.vehicle.length) (loops.map Prod.fst)]

/-! ### Flow solutions -/

/-- Settings that `SU2_inviscid` reads (SU2_inviscid.py:65-69). -/
structure Su2Settings where
  half : Bool
  iterations : ℕ

/-- The settings of a new `SU2_inviscid` (66-69). -/
def Su2Settings.default : Su2Settings := ⟨true, 1500⟩

/-- Reference area in the configuration of the solver (`call_SU2`, 371-374). -/
noncomputable def refArea (s : Su2Settings) (S : ℝ) : ℝ := if s.half then S / 2 else S

/-- Configuration of the solver (`call_SU2`, 370-377, write_SU2_cfg.py:54-65): Mach number, angle in degrees, area. -/
structure Cfg where
  mach : ℝ
  aoaDeg : ℝ
  area : ℝ

/-- `call_SU2` (364-380), with `deg` the number of radians in a degree. -/
noncomputable def cfg (deg : ℝ) (s : Su2Settings) (S aoa mach : ℝ) : Cfg := ⟨mach, aoa / deg, refArea s S⟩

/-- The solver on a mesh of one half of the vehicle or of all of it: `force` is the force on the whole vehicle over the
dynamic pressure, by Mach number and angle in degrees, for symmetric flow. -/
noncomputable def solve (force : ℝ → ℝ → ℝ) (halfMesh : Bool) (c : Cfg) : ℝ :=
  (if halfMesh then force c.mach c.aoaDeg / 2 else force c.mach c.aoaDeg) / c.area

/-- The lift coefficient found by `SU2_Euler`: the mesh is written with the settings of the analysis (SU2_Euler.py:141), the
solver called with the settings of its own `SU2_inviscid` (85, 146), which nobody changes. -/
noncomputable def euler (force : ℝ → ℝ → ℝ) (deg : ℝ) (analysis inviscid : Su2Settings) (S aoa mach : ℝ) : ℝ :=
  solve force analysis.half (cfg deg inviscid S aoa mach)

/-- `sample_training` (204-219): rows of angle, Mach number and coefficients, Mach numbers varying fastest. -/
def samples (run : ℝ → ℝ → ℝ × ℝ) (aoas machs : List ℝ) : List ((ℝ × ℝ) × (ℝ × ℝ)) :=
  aoas.flatMap fun a => machs.map fun m => ((a, m), run a m)

/-- A number written with `%10.8f` and read again (231, 225). -/
noncomputable def text (x : ℝ) : ℝ := round (x * 10 ^ 8) / 10 ^ 8

/-- A row written and read again. -/
noncomputable def textRow (r : (ℝ × ℝ) × (ℝ × ℝ)) : (ℝ × ℝ) × (ℝ × ℝ) :=
  ((text r.1.1, text r.1.2), (text r.2.1, text r.2.2))

/-- Fitting a model to rows of a coefficient: raises without rows. -/
def fit (model : List ((ℝ × ℝ) × ℝ) → ℝ × ℝ → ℝ) (rows : List ((ℝ × ℝ) × ℝ)) : Option (ℝ × ℝ → ℝ) :=
  if rows.isEmpty then none else some (model rows)

open Classical in
/-- Lift of `SU2_inviscid_Super` (143-146, 269-270): rows below and above Mach one are fitted separately. -/
noncomputable def superLift (model : List ((ℝ × ℝ) × ℝ) → ℝ × ℝ → ℝ) (rows : List ((ℝ × ℝ) × ℝ)) : Option (ℝ × ℝ → ℝ) :=
  match fit model (rows.filter fun r => 1 ≤ r.1.2), fit model (rows.filter fun r => r.1.2 ≤ 1) with
  | some sup, some sub => some fun p => if p.2 ≤ 1 then sub p else sup p
  | _, _ => none

/-! ### Wave drag from OpenVSP -/

/-- The file of wave drag by Mach number; absent after `initialize` (Supersonic_OpenVSP_Wave_Drag.py:128-131). -/
abbrev File := Option (List (ℝ × ℝ))

open Classical in
/-- Value stored for a Mach number. -/
noncomputable def stored (f : List (ℝ × ℝ)) (m : ℝ) : Option ℝ := (f.find? fun p => p.1 = m).map Prod.snd

/-- Wave drag at Mach 1.05 and the file after it (compressibility_drag_total.py:102-118); `vsp` gives the drag by the numbers
of slices and rotations.  The numbers of the settings are not passed (112). -/
noncomputable def drag105 (vsp : ℕ → ℕ → ℝ → ℝ) (f : File) : ℝ × File :=
  let old := f.getD [(-1, -1)]
  let c := (stored old 1.05).getD (vsp 20 10 1.05)
  (c, match f with | some l => some l | none => some [(1.05, c)])

open Classical in
/-- Loop body of `wave_drag_volume` (69-81). -/
noncomputable def dragAt (vsp : ℕ → ℕ → ℝ → ℝ) (slices rots : ℕ) (f : List (ℝ × ℝ)) (m : ℝ) : ℝ × List (ℝ × ℝ) :=
  if 1.05 ≤ m then
    match stored f m with
    | some c => (c, f)
    | none => (vsp slices rots m, f ++ [(m, vsp slices rots m)])
  else (0, f)

/-- `wave_drag_volume` (68-83) over the control points. -/
noncomputable def dragAll (vsp : ℕ → ℕ → ℝ → ℝ) (slices rots : ℕ) : List (ℝ × ℝ) → List ℝ → List ℝ × List (ℝ × ℝ)
  | f, [] => ([], f)
  | f, m :: ms =>
    let r := dragAt vsp slices rots f m
    let t := dragAll vsp slices rots r.2 ms
    (r.1 :: t.1, t.2)

/-- The volume wave drag of one evaluation and the file after it. -/
noncomputable def volumeDrag (vsp : ℕ → ℕ → ℝ → ℝ) (slices rots : ℕ) (f : File) (ms : List ℝ) : List ℝ × File :=
  let r := drag105 vsp f
  let t := dragAll vsp slices rots (r.2.getD []) ms
  (t.1, some t.2)

/-- A call of `drag_div(Mc_ii, wing, cl, Sref_main)` (Supersonic_Zero/Drag/compressibility_drag_total.py:197) with so many
arguments. -/
def dragDivCall (args : ℕ) : Option Unit := if args = 4 then some () else none

/-- Control flow of `compressibility_drag_total` (78-158): the first loop over the wings (78-100), the drag at Mach 1.05
(102-118), the second loop (126-137), whose call has five arguments (128), and the totals, for which `cd_c` must have been
bound in a loop (140).  The drag is whatever `total` makes of the volume drag. -/
noncomputable def compressible (vsp : ℕ → ℕ → ℝ → ℝ) (slices rots wings : ℕ) (total : List ℝ → List ℝ) (f : File) (ms : List ℝ) :
    Option (List ℝ) × File :=
  let f1 := (drag105 vsp f).2
  if wings = 0 then (none, f1)
  else
    match dragDivCall 4, dragDivCall 5 with
    | some _, some _ => (some (total (volumeDrag vsp slices rots f ms).1), (volumeDrag vsp slices rots f ms).2)
    | none, _ => (none, f)
    | _, _ => (none, f1)

/-! ### Fuel tanks -/

/-- A line of the mass properties file (68-76). -/
structure Row where
  name : String
  mass : ℝ
  cg : ℝ × ℝ × ℝ
  vol : ℝ

/-- Properties of a tank. -/
structure Tank where
  cg : ℝ × ℝ × ℝ
  mass : ℝ
  vol : ℝ

/-- The mean of two points (83). -/
noncomputable def midpoint (p q : ℝ × ℝ × ℝ) : ℝ × ℝ × ℝ := ((p.1 + q.1) / 2, (p.2.1 + q.2.1) / 2, (p.2.2 + q.2.2) / 2)

/-- Loop body of `get_fuel_tank_properties` (70-85) for the tank of one tag. -/
noncomputable def Row.into (tag : String) (t : Option Tank) (r : Row) : Option Tank :=
  if r.name = tag then
    match t with
    | none => some ⟨r.cg, r.mass, r.vol⟩
    | some t => some ⟨midpoint t.cg r.cg, t.mass + r.mass, t.vol + r.vol⟩
  else t

/-- Properties of the tank with a tag (66-88, 97-142); `none` is the exception for a tank without a line. -/
noncomputable def tankOf (tag : String) (rows : List Row) : Option Tank := rows.foldl (Row.into tag) none

/-! ### Trees -/

mutual
/-- A value in a data structure: a leaf, as its text, or a dictionary. -/
inductive Val where
  | leaf (s : String)
  | dict (d : Dict)
/-- Items of a dictionary in order. -/
inductive Dict where
  | nil
  | cons (k : String) (v : Val) (rest : Dict)
end

mutual
/-- A `Tree_Element`: a name, with or without children. -/
inductive Tree where
  | bare (name : String)
  | node (name : String) (children : Forest)
/-- Children in order. -/
inductive Forest where
  | nil
  | cons (t : Tree) (rest : Forest)
end

mutual
/-- Element of a value (save_tree.py:90-99). -/
def element (k : String) : Val → Tree
  | .leaf s => .node k (.cons (.bare s) .nil)
  | .dict d => .node k (children d)
/-- Children of a dictionary (`to_d3`, 86-102). -/
def children : Dict → Forest
  | .nil => .cons (.bare "{}") .nil
  | .cons k v rest => .cons (element k v) (match rest with | .nil => .nil | .cons k' v' r => children (.cons k' v' r))
end

/-- Text of the entry `tag` of a dictionary. -/
def Dict.tag : Dict → Option String
  | .nil => none
  | .cons k v rest => if k = "tag" then (match v with | .leaf s => some s | .dict _ => none) else rest.tag

/-- `save_tree` (42-56) of a data structure: the tag, else the name given if any and not empty, else `output`. -/
def saveTree (root : Option String) (d : Dict) : Tree :=
  .node (match d.tag with
    | some t => t
    | none => match root with
      | some r => if r = "" then "output" else r
      | none => "output") (children d)

end Verif.IO.External
