import Verif.Stability.Planform
/-
Wings without segments in the vortex lattice: `convert_to_segmented_wing` (486-551) and the offsets of `make_VLM_wings` (93-113) of
trunk/SUAVE/Methods/Aerodynamics/Common/Fidelity_Zero/Lift/make_VLM_wings.py.

Simplifications
* Twist, thickness and airfoils, which are passed on as they are, are left out.
* Exact real arithmetic.
-/

namespace Verif.Vlm

open Real Verif.Stability

/-- What is read of a wing without segments. A sweep of the leading edge that is not given is `None`. -/
structure PlainWing where
  root : ℝ
  tip : ℝ
  taper : ℝ
  quarter : ℝ
  leading : Option ℝ
  dihedral : ℝ
  span : ℝ
  symmetric : Bool

open Classical in
/-- Lines 530-533: taper and chord at the tip, where 0 stands for one that is not given. -/
noncomputable def PlainWing.complete (w : PlainWing) : PlainWing :=
  if w.taper = 0 then { w with taper := w.tip / w.root }
  else if w.tip = 0 then { w with tip := w.root * w.taper }
  else w

/-- Half the span, or the whole of a wing on one side only (line 93). -/
noncomputable def PlainWing.semi (w : PlainWing) : ℝ := if w.symmetric then w.span * 0.5 else w.span

/-- A section as it goes into the lattice. -/
structure LatSeg where
  at_ : ℝ
  chord : ℝ
  leading : ℝ
  x : ℝ
  z : ℝ

/-- Root and tip of the wing (514-549) with the sweep and the offsets they get (94-113). The chord of line 98 takes the place of the one of 543. -/
noncomputable def PlainWing.segments (w : PlainWing) : LatSeg × LatSeg :=
  let v := w.complete
  let le := match v.leading with
    | some s => s
    | none => convertSweepSegments v.quarter ⟨1, 0⟩ ⟨v.taper, 1⟩ v.root v.span v.symmetric 0.25 0
  (⟨0, 1 * v.root, le, 0, 0⟩,
   ⟨1, v.taper * v.root, 1e-8, 0 + (1 - 0) * v.semi * tan le, 0 + (1 - 0) * v.semi * tan v.dihedral⟩)

end Verif.Vlm
