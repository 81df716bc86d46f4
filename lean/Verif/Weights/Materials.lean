import Verif.Weights.Buildup

/-!
Where the buildup of weights finds the materials of wings, rotor blades and fuselages.

Source: trunk/SUAVE/Methods/Weights/Buildups/Common/wing.py 137-187, prop.py 118-181, fuselage.py 81-119.

Simplifications: what the user has set is a list of attribute paths below the component with a material each; a path that is not in the
list raises `AttributeError`, and the default is taken. Materials have all properties. The library of solids is any function of the
name of a class. Containers of skins and canopies that are there but empty are left out.
-/

namespace Verif.Weights.Materials

/-- Properties of a material that are read. -/
structure Solid where
  density : ℝ
  uts : ℝ
  uss : ℝ
  ubs : ℝ
  mgt : ℝ
  width : ℝ

/-- What is set on a component: attribute paths below it. -/
abbrev Given := List (List String × Solid)

/-- `try: … except AttributeError: …`: the material at a path, or the default. -/
def pick (lib : String → Solid) (g : Given) (path : List String) (default : String) : Solid :=
  (g.lookup path).getD (lib default)

/-- Materials of a wing (wing.py 137-187). -/
def wingMats (lib : String → Solid) (g : Given) : Mats :=
  let tors := pick lib g ["materials", "skin_materials", "torsion_carrier"] "Bidirectional_Carbon_Fiber"
  let core := pick lib g ["materials", "skin_materials", "core"] "Carbon_Fiber_Honeycomb"
  let bend := pick lib g ["materials", "flap_materials", "bending_carrier"] "Unidirectional_Carbon_Fiber"
  let glue := pick lib g ["materials", "skin_materials", "adhesive"] "Epoxy"
  let cover := pick lib g ["materials", "skin_materials", "covering"] "Paint"
  let rib := pick lib g ["rib_materials", "structural"] "Aluminum_Rib"
  let shear := pick lib g ["spar_materials", "shear_carrier"] "Bidirectional_Carbon_Fiber"
  { torsUSS := tors.uss, torsDen := tors.density, torsMGT := tors.mgt, coreDen := core.density, coreMGT := core.mgt
    bendUTS := bend.uts, bendDen := bend.density, glueMGT := glue.mgt, glueDen := glue.density
    coverMGT := cover.mgt, coverDen := cover.density, ribWid := rib.width, ribMGT := rib.mgt, ribDen := rib.density
    shearMGT := shear.mgt, shearDen := shear.density, shearUSS := shear.uss }

/-- Materials of a rotor blade (prop.py 118-181). -/
structure BladeMats where
  torsion : Solid
  shear : Solid
  bending : Solid
  core : Solid
  rib : Solid
  root : Solid
  leadingEdge : Solid
  glue : Solid
  cover : Solid

/-- The materials a blade is weighed with (prop.py 118-181). -/
def bladeMats (lib : String → Solid) (g : Given) : BladeMats :=
  { torsion := pick lib g ["materials", "skin_materials", "torsion_carrier"] "Bidirectional_Carbon_Fiber"
    shear := pick lib g ["materials", "spar_materials", "shear_carrier"] "Bidirectional_Carbon_Fiber"
    bending := pick lib g ["materials", "flap_materials", "bending_carrier"] "Unidirectional_Carbon_Fiber"
    core := pick lib g ["materials", "skin_materials", "core"] "Carbon_Fiber_Honeycomb"
    rib := pick lib g ["materials", "rib_materials", "structural"] "Aluminum_Rib"
    root := pick lib g ["materials", "root_materials", "structural"] "Aluminum"
    leadingEdge := pick lib g ["materials", "skin_materials", "leading_edge"] "Nickel"
    glue := pick lib g ["materials", "skin_materials", "adhesive"] "Epoxy"
    cover := pick lib g ["materials", "skin_materials", "cover"] "Paint" }

/-- The materials in a container that is an attribute of the component itself. -/
def members (g : Given) (group : String) : List Solid :=
  (g.filter fun p => p.1.head? = some group ∧ p.1.length = 2).map Prod.snd

/-- Weight per area of a stack of materials, or the default (fuselage.py 111-119). -/
noncomputable def areal (g : Given) (group : String) (default : ℝ) : ℝ :=
  if members g group = [] then default else ((members g group).map fun s => s.mgt * s.density).sum

/-- Materials of a fuselage (fuselage.py 81-119). -/
noncomputable def fuseMats (lib : String → Solid) (g : Given) : FuseMats :=
  let rbm := pick lib g ["keel_materials", "root_bending_moment_carrier"] "Unidirectional_Carbon_Fiber"
  let shear := pick lib g ["keel_materials", "shear_carrier"] "Bidirectional_Carbon_Fiber"
  let bearing := pick lib g ["keel_materials", "bearing_carrier"] "Bidirectional_Carbon_Fiber"
  let bolt := pick lib g ["materials", "bolt_materials", "landing_pad_bolt"] "Steel"
  { rbmDen := rbm.density, rbmUTS := rbm.uts, shearDen := shear.density, shearUSS := shear.uss
    bearingDen := bearing.density, bearingUBS := bearing.ubs, boltUSS := bolt.uss
    skin := areal g "skin_materials" 1.2995, canopy := areal g "canopy_materials" 3.7465 }

end Verif.Weights.Materials
