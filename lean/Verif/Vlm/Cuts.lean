import Mathlib.Data.Real.Basic
import Mathlib.Tactic.Linarith
import Mathlib.Tactic.NormNum
/-
Cuts that control surfaces leave in a wing, carried over the breaks between their ends: `make_VLM_wings`, step 3
(lines 192-212), and the ids and cuts of breaks (603-741), of
trunk/SUAVE/Methods/Aerodynamics/Common/Fidelity_Zero/Lift/make_VLM_wings.py.

Simplifications
* One edge at a time; both are treated alike (194).  The breaks are merged and in order (C209).
* Exact real arithmetic.  `none` is the `ValueError` of line 212.
-/

namespace Verif.Vlm

/-- A break as far as one edge goes: the control surfaces inboard and outboard of it, -1 for none, and the cuts. -/
structure EdgeBreak where
  frac : ℝ
  ibId : ℤ
  obId : ℤ
  ibCut : ℝ
  obCut : ℝ

/-- Lines 201-212: up to the end of the surface. -/
def carryCut (k : ℤ) (cut : ℝ) : List EdgeBreak → Option (List EdgeBreak)
  | [] => some []
  | b :: l =>
    if b.ibId = k then some (b :: l)
    else if b.ibId = -1 then (carryCut k cut l).map ({ b with ibId := k, obId := k, ibCut := cut, obCut := cut } :: ·)
    else none

/-- Lines 195-212, for the first `n` breaks. -/
def carryCuts : ℕ → List EdgeBreak → Option (List EdgeBreak)
  | 0, l => some l
  | _, [] => some []
  | n + 1, b :: l =>
    if b.obId = -1 then (carryCuts n l).map (b :: ·)
    else (carryCut b.obId b.obCut l).bind fun l' => (carryCuts n l').map (b :: ·)

/-- A control surface on the edge: its id, its ends in span and its cut (652-667, 672-678). -/
structure CutSurface where
  id : ℤ
  s : ℝ
  e : ℝ
  cut : ℝ

open Classical in
/-- The first surface with a property. -/
noncomputable def pick (S : List CutSurface) (p : CutSurface → Prop) : Option CutSurface := S.find? fun c => decide (p c)

/-- The break at `f` after the merge: ids and cuts where a surface begins or ends, otherwise those of the wing as it is. -/
noncomputable def mergedBreak (S : List CutSurface) (nominal f : ℝ) : EdgeBreak where
  frac := f
  ibId := ((pick S fun c => c.e = f).map (·.id)).getD (-1)
  obId := ((pick S fun c => c.s = f).map (·.id)).getD (-1)
  ibCut := ((pick S fun c => c.e = f).map (·.cut)).getD nominal
  obCut := ((pick S fun c => c.s = f).map (·.cut)).getD nominal

end Verif.Vlm
