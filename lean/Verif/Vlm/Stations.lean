import Mathlib.Data.Real.Basic
import Mathlib.Analysis.SpecialFunctions.Trigonometric.Basic
import Mathlib.Data.List.Sort

/-!
# Discretization of a wing into strips

Model of parts of `Fidelity_Zero/Lift/generate_vortex_distribution.py` and of the merging of span
breaks in `make_VLM_wings.py`.
-/

namespace Verif.Vlm

/-- The settings for the numbers of vortices; `none` or `some 0` is what `bool(…)` regards as not
defined. -/
structure Counts where
  swGlobal : Option ℕ
  cwGlobal : Option ℕ
  swWing : Option ℕ
  cwWing : Option ℕ
  swFuse : Option ℕ
  cwFuse : Option ℕ

/-- Python's `bool` of such a setting. -/
def truthy : Option ℕ → Bool
  | none => false
  | some n => n != 0

/-- Validation of the settings (lines 109-132): spanwise and chordwise numbers for wings and for
fuselages, or the exception. -/
def resolveCounts (c : Counts) : Option (Option ℕ × Option ℕ × Option ℕ × Option ℕ) :=
  if truthy c.swGlobal != truthy c.cwGlobal then none
  else if truthy c.swWing != truthy c.cwWing || truthy c.swFuse != truthy c.cwFuse then none
  else if truthy c.swWing != truthy c.swFuse then none
  else if truthy c.swGlobal == truthy c.swWing then none
  else if truthy c.swGlobal then some (c.swGlobal, c.cwGlobal, c.swGlobal, c.cwGlobal)
  else some (c.swWing, c.cwWing, c.swFuse, c.cwFuse)

/-- Station `i` of the linear spacing (line 335). -/
noncomputable def linearStation (span : ℝ) (n i : ℕ) : ℝ := span * i / n

/-- Station `i` of the cosine spacing (lines 331-333): entry `i` of `linspace(n+1, 0, n+1)`, scaled
to an angle. -/
noncomputable def cosineStation (span : ℝ) (n i : ℕ) : ℝ :=
  span * Real.cos (((n + 1 : ℝ) - (n + 1) * i / n) * (Real.pi / 2) / (n + 1))

open Classical in
/-- Index and distance of the first nearest station which has not been moved yet: the `argmin` of
line 408, where stations moved before carry an infinite penalty. -/
noncomputable def nearest : List (ℝ × Bool) → ℝ → Option (ℕ × ℝ)
  | [], _ => none
  | (v, moved) :: t, y =>
    match nearest t y with
    | none => if moved then none else some (0, |v - y|)
    | some (i, d) => if moved = false ∧ |v - y| ≤ d then some (0, |v - y|) else some (i + 1, d)

/-- One pass of the loop of lines 407-410.  When every station carries the penalty `argmin` is 0. -/
noncomputable def snapStep (st : List (ℝ × Bool)) (y : ℝ) : List (ℝ × Bool) :=
  match nearest st y with
  | none => st.set 0 (y, true)
  | some (i, _) => st.set i (y, true)

open Classical in
/-- Lines 405-416: move stations onto the required coordinates, sort, and raise if one is missing. -/
noncomputable def snap (stations required : List ℝ) : Option (List ℝ) :=
  let st := required.foldl snapStep (stations.map fun v => (v, false))
  let ys := (st.map Prod.fst).insertionSort (· ≤ ·)
  if ∀ y ∈ required, y ∈ ys then some ys else none

/-- A span break as the strip loop sees it: station and chord (lines 358-360). -/
structure Break where
  y : ℝ
  chord : ℝ

/-- Sum of `section_area` (lines 376-380 and 397). -/
noncomputable def sectionAreas : List Break → ℝ
  | b0 :: b1 :: rest => (1 / 2) * (b0.chord + b1.chord) * (b1.y - b0.y) + sectionAreas (b1 :: rest)
  | _ => 0

/-- A strip: its two edges, the chords there, and the breaks between which it was built. -/
structure StripGeom where
  ya : ℝ
  yb : ℝ
  ca : ℝ
  cb : ℝ
  inner : Break
  outer : Break

/-- `wing_chord_section_a` and `_b` (lines 494-508). -/
noncomputable def chordAt (b0 b1 : Break) (y : ℝ) : ℝ :=
  b0.chord + (y - b0.y) * ((b1.chord - b0.chord) / (b1.y - b0.y))

open Classical in
/-- The loop over the strips with the running index `i_break` (lines 489-508 and the increment at the
end of the loop body); the list of breaks starts at `i_break`.  `none` is the index error. -/
noncomputable def stripLoop (ya : ℝ) : List ℝ → List Break → Option (List StripGeom)
  | [], _ => some []
  | yb :: ys, b0 :: b1 :: rest =>
    (stripLoop yb ys (if yb = b1.y then b1 :: rest else b0 :: b1 :: rest)).map
      (⟨ya, yb, chordAt b0 b1 ya, chordAt b0 b1 yb, b0, b1⟩ :: ·)
  | _ :: _, _ => none

/-- Twist of a point about the leading edge (lines 594-616): `(px, pz)` is the pivot, `zx` is the height used in
the formula for `x`, `z` the height used in the formula for `z`. -/
noncomputable def twistPoint (tw px pz x zx z : ℝ) : ℝ × ℝ :=
  (px + Real.cos tw * (x - px) + Real.sin tw * (zx - pz),
   pz - Real.sin tw * (x - px) + Real.cos tw * (z - pz))

/-- The twisted points on the inner edge of one panel: corner `a1`, vortex `ah`, control line `ac`, corner `a2`
(lines 596-599 and 607-610).  Each argument is an untwisted point `(ξ, ζ)`. -/
noncomputable def twistEdgeA (tw px pz : ℝ) (a1 ah ac a2 : ℝ × ℝ) :
    (ℝ × ℝ) × (ℝ × ℝ) × (ℝ × ℝ) × (ℝ × ℝ) :=
  (twistPoint tw px pz a1.1 a1.2 a1.2, twistPoint tw px pz ah.1 ah.2 ah.2,
   twistPoint tw px pz ac.1 a2.2 ac.2, twistPoint tw px pz a2.1 a2.2 a2.2)

/-- The same for the outer edge (lines 600-603 and 611-614). -/
noncomputable def twistEdgeB (tw px pz : ℝ) (b1 bh bc b2 : ℝ × ℝ) :
    (ℝ × ℝ) × (ℝ × ℝ) × (ℝ × ℝ) × (ℝ × ℝ) :=
  (twistPoint tw px pz b1.1 b1.2 b1.2, twistPoint tw px pz bh.1 bh.2 bh.2,
   twistPoint tw px pz bc.1 b1.2 bc.2, twistPoint tw px pz b2.1 b2.2 b2.2)

/-- A span break during merging (`make_VLM_wings.py`): span fraction and, for each of the four slots (edge ×
inboard/outboard), the control surface identifier (`-1` for none) and the cut. -/
structure SpanBreak where
  frac : ℝ
  ids : Fin 4 → ℤ
  cuts : Fin 4 → ℝ

/-- Superposition of a coincident break (`add_span_break`, lines 578-581). -/
noncomputable def superimpose (a b : SpanBreak) : SpanBreak where
  frac := a.frac
  ids := fun k => if a.ids k = -1 then b.ids k else a.ids k
  cuts := fun k => if a.ids k = -1 then b.cuts k else a.cuts k

open Classical in
/-- `add_span_break` (lines 553-583).  The list holds the breaks in reverse, so its head is
`span_breaks[-1]`. -/
noncomputable def addBreak (acc : List SpanBreak) (b : SpanBreak) : List SpanBreak :=
  match acc with
  | [] => [b]
  | a :: t => if a.frac < b.frac then b :: a :: t else superimpose a b :: t

/-- Head of a list of breaks, `inf` (`none`) when exhausted (lines 174-176). -/
def headFrac (l : List SpanBreak) : WithTop ℝ :=
  match l with
  | [] => ⊤
  | b :: _ => (b.frac : WithTop ℝ)

open Classical in
/-- The three-way merge (lines 166-192): leading-edge breaks first, then trailing-edge breaks, then segments; `fuel`
bounds the number of passes of the `while True` loop, `none` is running out of it or the `ValueError`. -/
noncomputable def merge3 : ℕ → List SpanBreak → List SpanBreak → List SpanBreak → List SpanBreak →
    Option (List SpanBreak)
  | 0, _, _, _, _ => none
  | fuel + 1, L, T, S, acc =>
    if headFrac L = ⊤ ∧ headFrac T = ⊤ ∧ headFrac S = ⊤ then some acc.reverse
    else if headFrac L ≤ headFrac T ∧ headFrac L ≤ headFrac S then
      match L with
      | [] => none
      | b :: L' => merge3 fuel L' T S (addBreak acc b)
    else if headFrac T ≤ headFrac L ∧ headFrac T ≤ headFrac S then
      match T with
      | [] => none
      | b :: T' => merge3 fuel L T' S (addBreak acc b)
    else if headFrac S ≤ headFrac L ∧ headFrac S ≤ headFrac T then
      match S with
      | [] => none
      | b :: S' => merge3 fuel L T S' (addBreak acc b)
    else none

end Verif.Vlm
