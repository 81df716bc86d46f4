import Verif.Weights.Materials
import Mathlib.Tactic.NormNum

/-!
C467: materials given to components in the buildup of weights.
-/

namespace Verif.Weights.Materials

/-- What a user gives: a material for every group and role, stored below the attribute `materials` of the component. -/
def under (m : List ((String × String) × Solid)) : Given := m.map fun p => (["materials", p.1.1, p.1.2], p.2)

/-- The material that ought to be used. -/
def Used (lib : String → Solid) (m : List ((String × String) × Solid)) (group role default : String) (s : Solid) : Prop :=
  (∀ x, m.lookup (group, role) = some x → s = x) ∧ (m.lookup (group, role) = none → s = lib default)

theorem lookup_under (m : List ((String × String) × Solid)) (a b : String) :
    (under m).lookup ["materials", a, b] = m.lookup (a, b) := by
  induction m with
  | nil => rfl
  | cons p r ih =>
    obtain ⟨⟨c, d⟩, s⟩ := p
    by_cases h : (a, b) = (c, d)
    · obtain ⟨h1, h2⟩ := Prod.mk.inj h
      subst h1; subst h2
      simp [under, List.lookup]
    · have h1 : ((a, b) == (c, d)) = false := by rw [beq_eq_false_iff_ne]; exact h
      have h2 : (["materials", a, b] == ["materials", c, d]) = false := by
        rw [beq_eq_false_iff_ne]
        intro e
        simp only [List.cons.injEq, true_and, and_true] at e
        exact h (Prod.ext e.1 e.2)
      simp only [under, List.map_cons, List.lookup, h1, h2]
      exact ih

theorem lookup_direct (m : List ((String × String) × Solid)) (a b : String) : (under m).lookup [a, b] = none := by
  induction m with
  | nil => rfl
  | cons p r ih =>
    have h : ([a, b] == ["materials", p.1.1, p.1.2]) = false := by
      rw [beq_eq_false_iff_ne]
      intro e
      have := congrArg List.length e
      simp at this
    simp only [under, List.map_cons, List.lookup, h]
    exact ih

theorem members_under (m : List ((String × String) × Solid)) (g : String) : members (under m) g = [] := by
  simp only [members, List.map_eq_nil_iff, List.filter_eq_nil_iff, under, List.mem_map]
  rintro p ⟨q, -, rfl⟩
  simp

theorem pick_used (lib : String → Solid) (m : List ((String × String) × Solid)) (a b d : String) :
    Used lib m a b d (pick lib (under m) ["materials", a, b] d) := by
  unfold Used pick
  rw [lookup_under]
  constructor
  · intro x h; rw [h]; rfl
  · intro h; rw [h]; rfl

/-- **C467 for rotor blades.** All nine materials are the ones given, each with its own default. -/
theorem C467_blades (lib : String → Solid) (m : List ((String × String) × Solid)) :
    Used lib m "skin_materials" "torsion_carrier" "Bidirectional_Carbon_Fiber" (bladeMats lib (under m)).torsion ∧
    Used lib m "spar_materials" "shear_carrier" "Bidirectional_Carbon_Fiber" (bladeMats lib (under m)).shear ∧
    Used lib m "flap_materials" "bending_carrier" "Unidirectional_Carbon_Fiber" (bladeMats lib (under m)).bending ∧
    Used lib m "skin_materials" "core" "Carbon_Fiber_Honeycomb" (bladeMats lib (under m)).core ∧
    Used lib m "rib_materials" "structural" "Aluminum_Rib" (bladeMats lib (under m)).rib ∧
    Used lib m "root_materials" "structural" "Aluminum" (bladeMats lib (under m)).root ∧
    Used lib m "skin_materials" "leading_edge" "Nickel" (bladeMats lib (under m)).leadingEdge ∧
    Used lib m "skin_materials" "adhesive" "Epoxy" (bladeMats lib (under m)).glue ∧
    Used lib m "skin_materials" "cover" "Paint" (bladeMats lib (under m)).cover :=
  ⟨pick_used _ _ _ _ _, pick_used _ _ _ _ _, pick_used _ _ _ _ _, pick_used _ _ _ _ _, pick_used _ _ _ _ _, pick_used _ _ _ _ _,
    pick_used _ _ _ _ _, pick_used _ _ _ _ _, pick_used _ _ _ _ _⟩

/-- **C467 for wings, what holds.** The materials of the skin and of the caps are the ones given; the cover has another name than that of
a blade. -/
theorem C467_wing_partial (lib : String → Solid) (m : List ((String × String) × Solid)) :
    ∃ tors core bend glue cover : Solid,
      Used lib m "skin_materials" "torsion_carrier" "Bidirectional_Carbon_Fiber" tors ∧
      Used lib m "skin_materials" "core" "Carbon_Fiber_Honeycomb" core ∧
      Used lib m "flap_materials" "bending_carrier" "Unidirectional_Carbon_Fiber" bend ∧
      Used lib m "skin_materials" "adhesive" "Epoxy" glue ∧
      Used lib m "skin_materials" "covering" "Paint" cover ∧
      (wingMats lib (under m)).torsUSS = tors.uss ∧ (wingMats lib (under m)).torsDen = tors.density ∧
      (wingMats lib (under m)).torsMGT = tors.mgt ∧ (wingMats lib (under m)).coreDen = core.density ∧
      (wingMats lib (under m)).coreMGT = core.mgt ∧ (wingMats lib (under m)).bendUTS = bend.uts ∧
      (wingMats lib (under m)).bendDen = bend.density ∧ (wingMats lib (under m)).glueMGT = glue.mgt ∧
      (wingMats lib (under m)).glueDen = glue.density ∧ (wingMats lib (under m)).coverMGT = cover.mgt ∧
      (wingMats lib (under m)).coverDen = cover.density :=
  ⟨_, _, _, _, _, pick_used _ _ _ _ _, pick_used _ _ _ _ _, pick_used _ _ _ _ _, pick_used _ _ _ _ _, pick_used _ _ _ _ _,
    rfl, rfl, rfl, rfl, rfl, rfl, rfl, rfl, rfl, rfl, rfl⟩

/-- Ribs and webs of a wing are weighed with the defaults, whatever is given below `materials`. -/
theorem C467_ribs_counterexample (lib : String → Solid) (m : List ((String × String) × Solid)) (s : Sect) :
    ribMass (wingMats lib (under m)) s =
      (s.area + s.skinLength * (lib "Aluminum_Rib").width) * (lib "Aluminum_Rib").mgt * (lib "Aluminum_Rib").density ∧
    (wingMats lib (under m)).shearDen = (lib "Bidirectional_Carbon_Fiber").density ∧
    (wingMats lib (under m)).shearMGT = (lib "Bidirectional_Carbon_Fiber").mgt ∧
    (wingMats lib (under m)).shearUSS = (lib "Bidirectional_Carbon_Fiber").uss := by
  simp [ribMass, wingMats, pick, lookup_direct]

/-- They count as attributes of the wing itself. -/
theorem C467_ribs_direct_partial (lib : String → Solid) (g : Given) (rib shear : Solid)
    (h1 : g.lookup ["rib_materials", "structural"] = some rib) (h2 : g.lookup ["spar_materials", "shear_carrier"] = some shear) (s : Sect) :
    ribMass (wingMats lib g) s = (s.area + s.skinLength * rib.width) * rib.mgt * rib.density ∧
    (wingMats lib g).shearDen = shear.density ∧ (wingMats lib g).shearMGT = shear.mgt ∧ (wingMats lib g).shearUSS = shear.uss := by
  simp [ribMass, wingMats, pick, h1, h2]

/-- A cover given under the name that holds for blades is not used for a wing. -/
theorem C467_cover_counterexample (lib : String → Solid) (s : Solid) (hs : s ≠ lib "Paint") :
    (wingMats lib (under [(("skin_materials", "cover"), s)])) = wingMats lib [] ∧
    (bladeMats lib (under [(("skin_materials", "cover"), s)])).cover = s ∧
    (bladeMats lib (under [(("skin_materials", "cover"), s)])).cover ≠ (bladeMats lib []).cover := by
  have h : (bladeMats lib (under [(("skin_materials", "cover"), s)])).cover = s := by
    simp [bladeMats, pick, under]
  refine ⟨?_, h, ?_⟩
  · simp [wingMats, pick, under, List.lookup]
  · rw [h]; exact hs

/-- Of the materials of a fuselage given below `materials` only the one of the bolts is used; keel, skin and canopy are the defaults. -/
theorem C467_fuselage_partial (lib : String → Solid) (m : List ((String × String) × Solid)) :
    (∃ bolt, Used lib m "bolt_materials" "landing_pad_bolt" "Steel" bolt ∧ (fuseMats lib (under m)).boltUSS = bolt.uss) ∧
    (fuseMats lib (under m)) =
      { rbmDen := (lib "Unidirectional_Carbon_Fiber").density, rbmUTS := (lib "Unidirectional_Carbon_Fiber").uts
        shearDen := (lib "Bidirectional_Carbon_Fiber").density, shearUSS := (lib "Bidirectional_Carbon_Fiber").uss
        bearingDen := (lib "Bidirectional_Carbon_Fiber").density, bearingUBS := (lib "Bidirectional_Carbon_Fiber").ubs
        boltUSS := (fuseMats lib (under m)).boltUSS, skin := 1.2995, canopy := 3.7465 } := by
  refine ⟨⟨_, pick_used _ _ _ _ _, rfl⟩, ?_⟩
  simp [fuseMats, pick, lookup_direct, areal, members_under]

/-- Below the fuselage itself they are the ones given, and a stack of skins has the sum of its weights. -/
theorem C467_fuselage_direct_partial (lib : String → Solid) (a b c s₁ s₂ k : Solid) :
    let f := fuseMats lib [(["keel_materials", "root_bending_moment_carrier"], a), (["keel_materials", "shear_carrier"], b),
      (["keel_materials", "bearing_carrier"], c), (["skin_materials", "inner"], s₁), (["skin_materials", "outer"], s₂),
      (["canopy_materials", "pane"], k)]
    f.rbmDen = a.density ∧ f.rbmUTS = a.uts ∧ f.shearDen = b.density ∧ f.shearUSS = b.uss ∧ f.bearingDen = c.density ∧
    f.bearingUBS = c.ubs ∧ f.skin = s₁.mgt * s₁.density + s₂.mgt * s₂.density ∧ f.canopy = k.mgt * k.density ∧
    f.boltUSS = (lib "Steel").uss := by
  simp [fuseMats, pick, areal, members, List.lookup]

/-- Steel ribs given below `materials` leave the weight of a wing as it is; on the wing itself they make it heavier. -/
example : let lib : String → Solid := fun _ => ⟨1, 1, 1, 1, 1, 1⟩
    let steel : Solid := ⟨8, 1, 1, 1, 1, 1⟩
    let s : Sect := ⟨1, 1, 1, 1, 1, 1, 1, 1, 1, 1, 1⟩
    ribMass (wingMats lib (under [(("rib_materials", "structural"), steel)])) s = 2 ∧
    ribMass (wingMats lib [(["rib_materials", "structural"], steel)]) s = 16 := by
  constructor <;> norm_num [ribMass, wingMats, pick, under, List.lookup]

/-- Both hypotheses of `C467_ribs_direct_partial` can hold. -/
example (a b : Solid) :
    let g : Given := [(["rib_materials", "structural"], a), (["spar_materials", "shear_carrier"], b)]
    g.lookup ["rib_materials", "structural"] = some a ∧ g.lookup ["spar_materials", "shear_carrier"] = some b := by
  simp [List.lookup]

/-- A cover that differs from paint. -/
example : (⟨2, 0, 0, 0, 0, 0⟩ : Solid) ≠ (fun _ : String => (⟨1, 0, 0, 0, 0, 0⟩ : Solid)) "Paint" := by
  intro h; norm_num at h

end Verif.Weights.Materials
