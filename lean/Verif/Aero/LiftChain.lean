import Mathlib.Data.Real.Basic
import Mathlib.Algebra.BigOperators.Group.List.Basic

/-!
Lift of the aerodynamic analyses: the entries written for every wing, the correction for the fuselage, and the entries that drag reads.

Source: trunk/SUAVE/Analyses/Aerodynamics/Vortex_Lattice.py: `evaluate_surrogate` 244-299, `evaluate_no_surrogate` 341-353,
`sample_training` 457-469, `calculate_VLM` 683-699; trunk/SUAVE/Analyses/Aerodynamics/AVL_Inviscid.py: `evaluate` 203-211;
trunk/SUAVE/Analyses/Aerodynamics/SU2_inviscid.py: `evaluate` 147-153; trunk/SUAVE/Analyses/Aerodynamics/SU2_inviscid_Super.py: `evaluate` 147;
trunk/SUAVE/Methods/Aerodynamics/Common/Fidelity_Zero/Lift/fuselage_correction.py: 38-46,
trunk/SUAVE/Methods/Aerodynamics/Common/Fidelity_Zero/Lift/aircraft_total.py: 33-35;
trunk/SUAVE/Methods/Aerodynamics/Common/Fidelity_Zero/Drag/induced_drag_aircraft.py: 92-97,
trunk/SUAVE/Methods/Aerodynamics/Common/Fidelity_Zero/Drag/compressibility_drag_wing.py: 55; trunk/SUAVE/Core/Data.py: `append` 24-26, 533-536.

Simplifications: one control point; the lift of the vehicle and of every wing at this point are given, and a surrogate returns what it was
trained with. Wings are listed with their tags; the key of a wing in the vehicle is its tag translated. `none` stands for a missing key or
attribute. Drag entries, written beside the lift entries under the same keys, are left out.
-/

namespace Verif.Aero.LiftChain

/-- A wing: its tag, its coefficient of lift by its own area, its area. -/
structure Wing where
  tag : String
  cl : ℝ
  area : ℝ

/-- `string.punctuation + string.whitespace` (`Data.py` 24). -/
def marks : List Char := "!\"#$%&'()*+,-./:;<=>?@[\\]^_`{|}~ \t\n\r\x0b\x0c".toList

/-- The table of characters (`Data.py` 24-26): marks become underscores, capitals small letters. -/
def trChar (c : Char) : Char :=
  if c ∈ marks then '_' else if c.isUpper then c.toLower else c

/-- The key under which a component is kept (`Data.py` 534). -/
def key (t : String) : String := String.ofList (t.toList.map trChar)

/-- A dictionary of coefficients. -/
abbrev Dict := String → Option ℝ

/-- `d[k] = v`. -/
def put (d : Dict) (k : String) (v : ℝ) : Dict := fun x => if x = k then some v else d x

/-- The conditions as far as lift is concerned. -/
structure Lift where
  coef : ℝ
  total : Option ℝ
  inviscid : Dict
  compressible : Dict

/-- Lifts of the wings, by tag (`calculate_VLM` 687-699). -/
def byTag (wings : List Wing) : Dict := wings.foldl (fun d w => put d w.tag w.cl) fun _ => none

/-- Training data of the wings (`sample_training` 457-469): for every key of the wings, the entry of this name. -/
def trained (wings : List Wing) : Option Dict :=
  wings.foldlM (fun d w => (byTag wings (key w.tag)).map (put d (key w.tag))) fun _ => none

/-- Vortex lattice with surrogate (`evaluate_surrogate` 244-299), trained before. -/
def vortexSurrogate (lift : ℝ) (wings : List Wing) (_s : Lift) : Option Lift :=
  (trained wings).map fun t =>
    let d := wings.foldl (fun (d : Dict) w => fun x => if x = key w.tag then t x else d x) fun _ => none
    { coef := lift, total := some lift, inviscid := d, compressible := d }

/-- Vortex lattice without surrogate (`evaluate_no_surrogate` 349-353). -/
def vortexDirect (lift : ℝ) (wings : List Wing) (_s : Lift) : Option Lift :=
  some { coef := lift, total := some lift, inviscid := byTag wings, compressible := byTag wings }

/-- `fuselage_correction` 38-46: the coefficient alone is multiplied. -/
def fuselageCorrection (correction : ℝ) (s : Lift) : Lift := { s with coef := s.coef * correction }

/-- `aircraft_total` 33-35. -/
def aircraftTotal (s : Lift) : ℝ := s.coef

/-- The lift process of `Fidelity_Zero` (84-89) and `Supersonic_Zero` (106-109): the conditions left behind and the value returned. -/
def vortexChain (surrogate : Bool) (correction lift : ℝ) (wings : List Wing) (s : Lift) : Option (Lift × ℝ) :=
  (if surrogate then vortexSurrogate lift wings s else vortexDirect lift wings s).map fun s =>
    let s := fuselageCorrection correction s
    (s, aircraftTotal s)

/-- The lift process of `AVL` (85-89) with `AVL_Inviscid` 203-211: the coefficient and, for every wing, the share by area. -/
noncomputable def avlChain (lift sref : ℝ) (wings : List Wing) (s : Lift) : Lift × ℝ :=
  let s : Lift := { s with
    coef := lift
    compressible := wings.foldl (fun d w => put d w.tag (lift * (w.area / sref))) fun _ => none }
  (s, aircraftTotal s)

/-- The lift process of `SU2_Euler` (82-86) with `SU2_inviscid` 147-153: entries of one wing, named in the code. -/
def su2Chain (lift : ℝ) (_s : Lift) : Lift × ℝ :=
  let s : Lift := {
    coef := lift
    total := some lift
    compressible := put (fun _ => none) "main_wing" lift
    inviscid := put (fun _ => none) "main_wing" lift }
  (s, aircraftTotal s)

/-- `lift_breakdown.inviscid_wings_lift.total = lift` (`SU2_inviscid_Super` 147); the branch must be there already. -/
def su2SuperStore (branch : Option (Option ℝ)) (lift : ℝ) : Option (Option ℝ) := branch.map fun _ => some lift

/-- What `induced_drag_aircraft` reads (92-97) with the span efficiency left to it. -/
def inducedReads (s : Lift) (wings : List Wing) : Option (List ℝ) := wings.mapM fun w => s.inviscid w.tag

/-- What `compressibility_drag_wing` reads (55), wing after wing. -/
def compressibilityReads (s : Lift) (wings : List Wing) : Option (List ℝ) := wings.mapM fun w => s.compressible w.tag

end Verif.Aero.LiftChain
