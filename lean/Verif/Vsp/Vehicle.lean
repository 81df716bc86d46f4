import Mathlib.Analysis.SpecialFunctions.Trigonometric.Inverse

/-! Whole vehicles in OpenVSP: mesh sources (trunk/SUAVE/Input_Output/OpenVSP/write_vsp_mesh.py), measurements
(get_vsp_measurements.py), reading (vsp_read.py), writing (vsp_write.py) and Mach slices (mach_slices.py).  OpenVSP itself is
not modelled: calls that add something to its model append to a list, what it computes is an argument. -/

namespace Verif.Vsp.Vehicle

open Real

/-! ### Mesh sources -/

/-- `vsp_mesh` of a wing or segment (write_vsp_mesh.py:327-346); `te` is `matching_TE` if present. -/
structure Custom where
  innerLen : ℝ
  outerLen : ℝ
  innerRad : ℝ
  outerRad : ℝ
  te : Option Bool

/-- A segment: `percent_span_location`, `root_chord_percent` and `vsp_mesh` if present. -/
structure MSeg where
  pos : ℝ
  chord : ℝ
  custom : Option Custom

/-- A wing: its segments, `chords.root`, `chords.tip` and `vsp_mesh` if present. -/
structure MWing where
  segs : List MSeg
  root : ℝ
  tip : ℝ
  custom : Option Custom

/-- A line source: size and radius, `u` and `w` at both ends (the arguments of `AddCFDSource`). -/
@[ext] structure Source where
  len1 : ℝ
  rad1 : ℝ
  u1 : ℝ
  w1 : ℝ
  len2 : ℝ
  rad2 : ℝ
  u2 : ℝ
  w2 : ℝ

/-- The sources once the sizes are chosen (write_vsp_mesh.py:337-362); `m` is `TE_match`. -/
noncomputable def lines (cr ct : ℝ) (ii n : ℕ) (tip m : Bool) (l1 l2 r1 r2 : ℝ) : List Source :=
  let u1 : ℝ := ((ii + 1 : ℝ) + 0 - 1 + 1) / (n + 2)
  let u2 : ℝ := ((ii + 1 : ℝ) + 0 + 1) / (n + 2)
  [⟨l1, r1, u1, 1 / 2, l2, r2, u2, 1 / 2⟩,
   if m then ⟨l1, r1, u1, 0, l2, r2, u2, 0⟩ else ⟨0.01 * cr, 0.2 * cr, u1, 0, 0.01 * ct, 0.2 * ct, u2, 0⟩] ++
  if tip then [⟨if m then l2 else 0.01 * ct, if m then r2 else 0.2 * ct, u2, 0, l2, r2, u2, 1 / 2⟩] else []

/-- `add_segment_sources` (write_vsp_mesh.py:297-362); `none` when `custom_flag` is set for something without `vsp_mesh`
(AttributeError). -/
noncomputable def addSegment (cr ct : ℝ) (ii n : ℕ) (flag tip : Bool) (seg : Option Custom) : Option (List Source) :=
  if flag then
    match seg with
    | none => none
    | some c => some (lines cr ct ii n tip (c.te != some false) c.innerLen c.outerLen c.innerRad c.outerRad)
  else some (lines cr ct ii n tip true (0.01 * cr) (0.01 * ct) (0.2 * cr) (0.2 * ct))

/-- `use_base` (write_vsp_mesh.py:182-191): the first segment is not at the root. -/
def MWing.base (w : MWing) : Prop := ∀ s ∈ w.segs.head?, s.pos ≠ 0

open Classical in
/-- `num_secs` (write_vsp_mesh.py:182-191). -/
noncomputable def MWing.secs (w : MWing) : ℕ :=
  if w.segs = [] then 1 else if w.base then w.segs.length + 1 else w.segs.length

/-- What `set_sources` hands to `add_segment_sources`: chords, `custom_flag` (`none` if never assigned), `wingtip_flag`, the
settings of `seg`. -/
structure Sec where
  cr : ℝ
  ct : ℝ
  flag : Option Bool
  tip : Bool
  seg : Option Custom

open Classical in
/-- One pass of the loop over sections (write_vsp_mesh.py:196-260).  `flag` is the variable `custom_flag` as earlier
passes left it; it is not assigned in the first section of a wing whose first segment is off the root (199-201). -/
noncomputable def MWing.sec (w : MWing) (flag : Option Bool) (ii : ℕ) : Option Sec :=
  if ii = 0 ∧ w.base then
    match w.segs with
    | s :: _ => some ⟨w.root, w.root * s.chord, flag, false, s.custom⟩
    | [] => some ⟨w.root, w.tip, some w.custom.isSome, true, w.custom⟩
  else if ii = 0 then do
    let s ← w.segs[0]?
    let ct ← if 1 < w.secs then (w.segs[1]?).map fun t => w.root * t.chord else some w.tip
    some ⟨w.root * s.chord, ct, some s.custom.isSome, false, s.custom⟩
  else
    let jj := if w.base then 1 else 0
    if ii < w.secs - 1 then do
      let s ← w.segs[ii - jj]?
      let t ← w.segs[ii + 1 - jj]?
      some ⟨w.root * s.chord, w.root * t.chord, some s.custom.isSome, false, s.custom⟩
    else do
      let s ← w.segs[ii - jj]?
      some ⟨w.root * s.chord, w.tip, some s.custom.isSome, true, s.custom⟩

/-- The loop over sections of a wing (write_vsp_mesh.py:196-261) with the variable `custom_flag`; an unassigned variable
raises. -/
noncomputable def MWing.sources (w : MWing) (flag : Option Bool) : Option (Option Bool × List Source) :=
  (List.range w.secs).foldlM (fun st ii => do
    let s ← w.sec st.1 ii
    let f ← s.flag
    let src ← addSegment s.cr s.ct ii w.secs f s.tip s.seg
    some (some f, st.2 ++ src)) (flag, [])

/-! ### Measurements -/

/-- A line of the file of measurements after the first: blank, or the name and the value in the column asked for
(get_vsp_measurements.py:69-77). -/
abbrev Line := Option (String × ℝ)

/-- The loop over the lines for the entry of one name (get_vsp_measurements.py:69-80). -/
noncomputable def measure (tag : String) : List Line → Option ℝ → Option ℝ
  | [], m => m
  | none :: _, m => m
  | some (t, x) :: ls, m => measure tag ls (if t = tag then some (match m with | none => x | some y => y + x) else m)

/-- A geometry that becomes components of the vehicle: its name and the number of components read from it: two for a
fuselage with planar symmetry about the origin, otherwise one (vsp_read.py:200-233). -/
structure Geom where
  name : String
  copies : ℕ

/-- The wetted areas of the components read (vsp_read.py:170-177, 212, 213, 222, 223, 231, 232); a name that is not measured
raises. -/
noncomputable def wetted (units : ℝ) (file : List Line) (gs : List Geom) : Option (List ℝ) :=
  (gs.mapM fun g => (measure g.name file none).map fun a => List.replicate g.copies (a * units ^ 2)).map List.flatten

/-! ### Rotors read -/

/-- A propeller geometry: its name, rotation about the y axis in degrees, planar symmetry, place along y
(vsp_read.py:243-250). -/
structure RGeom where
  name : String
  rot : ℝ
  sym : Bool
  y : ℝ

/-- A rotor of a network: the geometry it is from and its place along y.  Names given by the containers are left out: that
a container keeps all of its elements is C06. -/
@[ext] structure Rotor where
  name : String
  y : ℝ

/-- The rotors from one geometry (vsp_read.py:247-254, 257-264). -/
def RGeom.rotors (g : RGeom) : List Rotor := ⟨g.name, g.y⟩ :: if g.sym then [⟨g.name, -g.y⟩] else []

/-- What the network of the vehicle gets; the counts are kept if the network has none of the known tags. -/
structure Net where
  tag : String
  lift : List Rotor
  prop : List Rotor
  liftCount : Option ℕ
  propCount : Option ℕ

/-- The degrees of an Euler angle compared with 70 (vsp_read.py:246). -/
def RGeom.isLift (g : RGeom) : Prop := 70 * (π / 180) ≤ g.rot * (π / 180)

open Classical in
/-- The network of `vsp_read` (vsp_read.py:239-297); `given` is the tag of `specified_network`, a network without rotors. -/
noncomputable def network (given : Option String) (gs : List RGeom) : Net :=
  let lift := (gs.filter fun g => g.isLift).flatMap RGeom.rotors
  let prop := (gs.filter fun g => ¬ g.isLift).flatMap RGeom.rotors
  let tag := given.getD (if 0 < lift.length ∧ 0 < prop.length then "Lift_Cruise" else "Battery_Propeller")
  if tag = "Lift_Cruise" then ⟨tag, lift, prop, some lift.length, some prop.length⟩
  else if tag = "Battery_Propeller" then ⟨tag, [], lift ++ prop, none, some (lift.length + prop.length)⟩
  else ⟨tag, [], [], none, none⟩

/-! ### Writing -/

/-- What is added to the OpenVSP model. -/
inductive Item
  | wing (tag : String)
  | nacelle (tag : String)
  | fuselage (tag : String)
deriving DecidableEq

/-- The loop over wings (vsp_write.py:126-131): the call that writes the wing is in the block of `verbose`; the identifier
`wing_id` is unbound if no wing has been written. -/
def writeWings (verbose : Bool) (bound : Bool) : List String → Option (List Item)
  | [] => some []
  | w :: ws =>
    let bound := bound || verbose
    if w = "main_wing" && !bound then none
    else (writeWings verbose bound ws).map fun r => (if verbose then [Item.wing w] else []) ++ r

/-- `write` (vsp_write.py:126-168): the items of the model; rotors go to files of their own. -/
def write (verbose : Bool) (wings nacelles fuselages : List String) : Option (List Item) :=
  (writeWings verbose false wings).map fun ws => ws ++ nacelles.map .nacelle ++ fuselages.map .fuselage

/-! ### Mach slices -/

/-- `mach_angle` (mach_slices.py:71). -/
noncomputable def machAngle (m : ℝ) : ℝ := arcsin (1 / m)

/-- `roty` (mach_slices.py:72). -/
noncomputable def rotY (m aoa : ℝ) : ℝ := (π / 2 - machAngle m) + aoa

/-- The normal of the slicing planes (mach_slices.py:75-79). -/
noncomputable def normal (m aoa : ℝ) : ℝ × ℝ := (cos (rotY m aoa), sin (rotY m aoa))

/-- Place and area of a slice with area `a` and centre `(x, z)` (mach_slices.py:83, 96). -/
noncomputable def sliceAt (m aoa a x z : ℝ) : ℝ × ℝ := (x + z * tan (machAngle m), a * cos (rotY m aoa))

open Classical in
/-- The slices returned: a last slice without area is left out (mach_slices.py:98-100); no slices raise (98). -/
noncomputable def slices (m aoa : ℝ) (found : List (ℝ × ℝ × ℝ)) : Option (List (ℝ × ℝ)) :=
  let l := found.map fun s => sliceAt m aoa s.1 s.2.1 s.2.2
  l.getLast?.map fun s => if s.2 = 0 then l.dropLast else l

end Verif.Vsp.Vehicle
