import Verif.Vlm.CopyWings
import Mathlib.Tactic.NormNum
import Mathlib.Data.List.Forall2
/-
C404, C405: copies of wings for the lattice, and refusal of what it cannot do.
-/

namespace Verif.Vlm

theorem getField_set_same (f : List (String × Tree)) (k : String) (v : Tree) : getField (setField f k v) k = some v := by
  induction f with
  | nil => simp [setField, getField]
  | cons a l ih =>
    obtain ⟨j, u⟩ := a
    by_cases h : j = k
    · simp [setField, getField, h]
    · simp [setField, getField, h, ih]

theorem getField_set_ne (f : List (String × Tree)) (k i : String) (v : Tree) (hi : i ≠ k) : getField (setField f k v) i = getField f i := by
  induction f with
  | nil => simp [setField, getField, Ne.symm hi]
  | cons a l ih =>
    obtain ⟨j, u⟩ := a
    by_cases h : j = k
    · subst h; simp [setField, getField, Ne.symm hi]
    · simp only [setField, h, if_false, getField, ih]

/-- Neither path leads through the other. -/
def Apart (p q : List String) : Prop := ¬ p <+: q ∧ ¬ q <+: p

instance (p q : List String) : Decidable (Apart p q) := inferInstanceAs (Decidable (_ ∧ _))

theorem apart_tail {k : String} {p q : List String} (h : Apart (k :: p) (k :: q)) : Apart p q := by
  constructor
  · intro hp; exact h.1 (by simpa using hp)
  · intro hp; exact h.2 (by simpa using hp)

theorem set_get_same (p : List String) : ∀ (t t' v : Tree), recursiveSet t p v = some t' → deepGet t' p = some v := by
  induction p with
  | nil => intro t t' v h; simp [recursiveSet] at h
  | cons k ks ih =>
    intro t t' v h
    cases t with
    | leaf z => simp [recursiveSet] at h
    | node f =>
      cases ks with
      | nil =>
        simp only [recursiveSet, Option.some.injEq] at h
        subst h
        simp [deepGet, getField_set_same]
      | cons j ks =>
        simp only [recursiveSet, Option.map_eq_some_iff] at h
        obtain ⟨s, hs, rfl⟩ := h
        simp [deepGet, getField_set_same, ih _ _ _ hs]

theorem set_get_apart (p : List String) : ∀ (q : List String) (t t' v : Tree), recursiveSet t p v = some t' → Apart p q → deepGet t' q = deepGet t q := by
  induction p with
  | nil => intro q t t' v h; simp [recursiveSet] at h
  | cons k ks ih =>
    intro q t t' v h hq
    cases q with
    | nil => exact absurd List.nil_prefix hq.2
    | cons i qs =>
      cases t with
      | leaf z => simp [recursiveSet] at h
      | node f =>
        cases ks with
        | nil =>
          simp only [recursiveSet, Option.some.injEq] at h
          subst h
          have hi : i ≠ k := by
            rintro rfl
            exact hq.1 (by simp)
          simp only [deepGet, getField_set_ne f k i v hi]
        | cons j ks =>
          simp only [recursiveSet, Option.map_eq_some_iff] at h
          obtain ⟨s, hs, rfl⟩ := h
          by_cases hi : i = k
          · subst hi
            have h2 := apart_tail hq
            have h3 := ih qs _ _ _ hs h2
            simp only [deepGet, getField_set_same, Option.bind_some, h3]
            cases hf : getField f i with
            | some u => simp
            | none =>
              cases qs with
              | nil => exact absurd List.nil_prefix h2.2
              | cons a b => simp [deepGet, getField]
          · simp only [deepGet, getField_set_ne f k i s hi]

/-- Whether a path can be set does not depend on the value. -/
theorem set_ok_val (p : List String) : ∀ (t v w : Tree), (recursiveSet t p v).isSome → (recursiveSet t p w).isSome := by
  induction p with
  | nil => intro t v w h; simp [recursiveSet] at h
  | cons k ks ih =>
    intro t v w h
    cases t with
    | leaf z => simp [recursiveSet] at h
    | node f =>
      cases ks with
      | nil => simp [recursiveSet]
      | cons j ks =>
        simp only [recursiveSet, Option.isSome_map] at h ⊢
        exact ih _ v w h

theorem set_ok_apart (p : List String) : ∀ (q : List String) (t t' v w : Tree), recursiveSet t p v = some t' → Apart p q →
    (recursiveSet t q w).isSome → (recursiveSet t' q w).isSome := by
  induction p with
  | nil => intro q t t' v w h; simp [recursiveSet] at h
  | cons k ks ih =>
    intro q t t' v w h hq hw
    cases q with
    | nil => exact absurd List.nil_prefix hq.2
    | cons i qs =>
      cases t with
      | leaf z => simp [recursiveSet] at h
      | node f =>
        cases ks with
        | nil =>
          simp only [recursiveSet, Option.some.injEq] at h
          subst h
          have hi : i ≠ k := by
            rintro rfl
            exact hq.1 (by simp)
          cases qs with
          | nil => simp [recursiveSet]
          | cons a b =>
            simp only [recursiveSet, Option.isSome_map, getField_set_ne f k i v hi] at hw ⊢
            exact hw
        | cons j ks =>
          simp only [recursiveSet, Option.map_eq_some_iff] at h
          obtain ⟨s, hs, rfl⟩ := h
          cases qs with
          | nil => simp [recursiveSet]
          | cons a b =>
            simp only [recursiveSet, Option.isSome_map] at hw ⊢
            by_cases hi : i = k
            · subst hi
              simp only [getField_set_same, Option.getD_some]
              exact ih _ _ _ _ w hs (apart_tail hq) hw
            · rw [getField_set_ne f k i s hi]
              exact hw

/-- What a copy holds. -/
theorem copy_holds (g : List String → Tree → Option Tree) (obj : Tree) (ps : List (List String)) : ∀ (acc r : Tree), ps.Pairwise Apart →
    copyFrom g obj ps acc = some r →
    (∀ p ∈ ps, deepGet r p = (deepGet obj p).bind (g p)) ∧ ∀ q, (∀ p ∈ ps, Apart p q) → deepGet r q = deepGet acc q := by
  induction ps with
  | nil => intro acc r _ h; simp only [copyFrom, Option.some.injEq] at h; subst h; simp
  | cons p ps ih =>
    intro acc r hp h
    simp only [copyFrom, Option.bind_eq_some_iff] at h
    obtain ⟨v, ⟨o, ho, hv⟩, acc', hs, hr⟩ := h
    obtain ⟨h1, h2⟩ := ih acc' r (List.pairwise_cons.1 hp).2 hr
    have hpp := (List.pairwise_cons.1 hp).1
    refine ⟨fun q hq => ?_, fun q hq => ?_⟩
    · rcases List.mem_cons.1 hq with rfl | hq
      · rw [h2 q fun p' hp' => ⟨(hpp p' hp').2, (hpp p' hp').1⟩, set_get_same _ _ _ _ hs, ho, Option.bind_some, hv]
      · exact h1 q hq
    · rw [h2 q fun p' hp' => hq p' (List.mem_cons_of_mem _ hp'), set_get_apart p q _ _ _ hs (hq p List.mem_cons_self)]

/-- There is a copy if everything can be read. -/
theorem copy_exists (g : List String → Tree → Option Tree) (obj : Tree) (ps : List (List String)) : ∀ acc : Tree, ps.Pairwise Apart →
    (∀ p ∈ ps, (recursiveSet acc p (.leaf 0)).isSome) → (∀ p ∈ ps, ((deepGet obj p).bind (g p)).isSome) → (copyFrom g obj ps acc).isSome := by
  induction ps with
  | nil => intro acc _ _ _; simp [copyFrom]
  | cons p ps ih =>
    intro acc hp hs hg
    obtain ⟨v, hv⟩ := Option.isSome_iff_exists.1 (hg p List.mem_cons_self)
    obtain ⟨acc', ha⟩ := Option.isSome_iff_exists.1 (set_ok_val p acc (.leaf 0) v (hs p List.mem_cons_self))
    simp only [copyFrom, hv, Option.bind_some, ha]
    exact ih acc' (List.pairwise_cons.1 hp).2
      (fun q hq => set_ok_apart p q acc acc' v _ ha ((List.pairwise_cons.1 hp).1 q hq) (hs q (List.mem_cons_of_mem _ hq)))
      fun q hq => hg q (List.mem_cons_of_mem _ hq)

theorem special_segments : special ["Segments"] = copyContainer copySegment := by
  funext t; unfold special; rw [if_pos rfl]

theorem special_surfaces : special ["control_surfaces"] = copyContainer copySurface := by
  funext t; unfold special; rw [if_neg (by decide), if_pos rfl]

theorem set_empty (p : List String) (v : Tree) (h : p ≠ []) : (recursiveSet (.node []) p v).isSome := by
  induction p with
  | nil => exact absurd rfl h
  | cons a b ih =>
    cases b with
    | nil => simp [recursiveSet]
    | cons c d =>
      simp only [recursiveSet, getField, Option.getD_none, Option.isSome_map]
      exact ih (by simp)

theorem forall2_right {α β : Type} {R : α → β → Prop} {l : List α} {l' : List β} (h : List.Forall₂ R l l') {b : β} (hb : b ∈ l') : ∃ a ∈ l, R a b := by
  induction h with
  | nil => simp at hb
  | cons h1 h2 ih =>
    rcases List.mem_cons.1 hb with rfl | hb
    · exact ⟨_, List.mem_cons_self, h1⟩
    · obtain ⟨a, ha, hab⟩ := ih hb
      exact ⟨a, List.mem_cons_of_mem _ ha, hab⟩

theorem copyFields_exists (c : Tree → Option Tree) (l : List (String × Tree)) (h : ∀ a ∈ l, (c a.2).isSome) : (copyFields c l).isSome := by
  induction l with
  | nil => simp [copyFields]
  | cons a l ih =>
    obtain ⟨k, t⟩ := a
    obtain ⟨u, hu⟩ := Option.isSome_iff_exists.1 (h (k, t) List.mem_cons_self)
    simp only [copyFields]
    simp only at hu
    rw [hu]
    simp only [Option.bind_some, Option.isSome_map]
    exact ih fun b hb => h b (List.mem_cons_of_mem _ hb)

theorem copyFields_holds (c : Tree → Option Tree) (l : List (String × Tree)) : ∀ l', copyFields c l = some l' →
    List.Forall₂ (fun a b => a.1 = b.1 ∧ c a.2 = some b.2) l l' := by
  induction l with
  | nil => intro l' h; simp only [copyFields, Option.some.injEq] at h; subst h; exact .nil
  | cons a l ih =>
    intro l' h
    obtain ⟨k, t⟩ := a
    simp only [copyFields, Option.bind_eq_some_iff, Option.map_eq_some_iff] at h
    obtain ⟨u, hu, r, hr, rfl⟩ := h
    exact .cons ⟨rfl, hu⟩ (ih r hr)

theorem wingPaths_apart : wingPaths.Pairwise Apart := by decide

theorem segmentPaths_apart : segmentPaths.Pairwise Apart := by decide

theorem surfacePaths_apart : surfacePaths.Pairwise Apart := by decide

/-- The same fields, as far as they are listed, and no others. -/
def SameOn (ps : List (List String)) (a b : Tree) : Prop :=
  (∀ p ∈ ps, deepGet b p = deepGet a p) ∧ ∀ q, q ≠ [] → (∀ p ∈ ps, Apart p q) → deepGet b q = none

/-- Two containers with the same keys in the same order and objects that agree one by one. -/
def SameContents (ps : List (List String)) : Option Tree → Option Tree → Prop
  | some (.node f), some (.node f') => List.Forall₂ (fun a b => a.1 = b.1 ∧ SameOn ps a.2 b.2) f f'
  | _, _ => False

theorem copyPlain_holds (ps : List (List String)) (hp : ps.Pairwise Apart) (t u : Tree) (h : copyFrom plain t ps (.node []) = some u) : SameOn ps t u := by
  obtain ⟨h1, h2⟩ := copy_holds plain t ps _ _ hp h
  refine ⟨fun p hpm => ?_, fun q hq hqa => ?_⟩
  · rw [h1 p hpm]; unfold plain; cases deepGet t p <;> rfl
  · rw [h2 q hqa]
    cases q with
    | nil => exact absurd rfl hq
    | cons a b => simp [deepGet, getField]

theorem copyContainer_holds (ps : List (List String)) (hp : ps.Pairwise Apart) (c : Tree → Option Tree)
    (hc : ∀ t, c t = copyFrom plain t ps (.node [])) (o : Option Tree) (u : Tree) (h : o.bind (copyContainer c) = some u) :
    SameContents ps o (some u) := by
  obtain ⟨t, rfl, ht⟩ := Option.bind_eq_some_iff.1 h
  cases t with
  | leaf z => simp [copyContainer] at ht
  | node f =>
    simp only [copyContainer, Option.map_eq_some_iff] at ht
    obtain ⟨l, hl, rfl⟩ := ht
    unfold SameContents
    exact (copyFields_holds c f l hl).imp fun a b hab => ⟨hab.1, copyPlain_holds ps hp _ _ (by rw [← hc]; exact hab.2)⟩

/-- **C404.** The copy of a wing agrees with the wing in all that the lattice reads; its segments and its control surfaces are those of the wing, in order,
each agreeing with the original. -/
theorem C404_copy (t u : Tree) (h : copyWing t = some u) :
    (∀ p ∈ wingPaths, p ≠ ["Segments"] → p ≠ ["control_surfaces"] → deepGet u p = deepGet t p)
      ∧ SameContents segmentPaths (deepGet t ["Segments"]) (deepGet u ["Segments"])
      ∧ SameContents surfacePaths (deepGet t ["control_surfaces"]) (deepGet u ["control_surfaces"]) := by
  obtain ⟨h1, -⟩ := copy_holds special t wingPaths _ _ wingPaths_apart h
  have key : ∀ p ∈ wingPaths, ∃ x, (deepGet t p).bind (special p) = some x := by
    clear h1
    intro p hp
    unfold copyWing at h
    generalize hacc : Tree.node [] = acc at h
    clear hacc
    revert acc
    generalize wingPaths = ps at hp
    induction ps with
    | nil => simp at hp
    | cons p' ps ih =>
      intro acc h
      simp only [copyFrom, Option.bind_eq_some_iff] at h
      obtain ⟨v, ⟨o, ho, hv⟩, acc', hs, hr⟩ := h
      rcases List.mem_cons.1 hp with rfl | hp
      · exact ⟨v, by rw [ho]; exact hv⟩
      · exact ih hp acc' hr
  refine ⟨fun p hp hs hc => ?_, ?_, ?_⟩
  · rw [h1 p hp]
    unfold special
    simp only [hs, hc, if_false]
    cases deepGet t p <;> rfl
  · have hm : ["Segments"] ∈ wingPaths := by decide
    obtain ⟨x, hx⟩ := key _ hm
    rw [h1 _ hm, hx]
    exact copyContainer_holds segmentPaths segmentPaths_apart copySegment (fun _ => rfl) _ _ (by rw [show copyContainer _ = _ from special_segments.symm]; exact hx)
  · have hm : ["control_surfaces"] ∈ wingPaths := by decide
    obtain ⟨x, hx⟩ := key _ hm
    rw [h1 _ hm, hx]
    exact copyContainer_holds surfacePaths surfacePaths_apart copySurface (fun _ => rfl) _ _ (by rw [show copyContainer _ = _ from special_surfaces.symm]; exact hx)

/-- All paths can be read. -/
def Readable (ps : List (List String)) (t : Tree) : Prop := ∀ p ∈ ps, (deepGet t p).isSome

theorem copyPlain_exists (ps : List (List String)) (hp : ps.Pairwise Apart) (h0 : [] ∉ ps) (t : Tree) (h : Readable ps t) :
    (copyFrom plain t ps (.node [])).isSome := by
  refine copy_exists plain t ps _ hp (fun p hpm => set_empty p _ fun e => h0 (e ▸ hpm)) fun p hpm => ?_
  obtain ⟨x, hx⟩ := Option.isSome_iff_exists.1 (h p hpm)
  rw [hx]
  rfl

/-- **C404.** A wing with all that is read has a copy. -/
theorem C404_exists (t : Tree) (h : Readable wingPaths t) (f g : List (String × Tree)) (hf : deepGet t ["Segments"] = some (.node f))
    (hg : deepGet t ["control_surfaces"] = some (.node g)) (hs : ∀ a ∈ f, Readable segmentPaths a.2) (hc : ∀ a ∈ g, Readable surfacePaths a.2) :
    (copyWing t).isSome := by
  refine copy_exists special t wingPaths _ wingPaths_apart (fun p hpm => set_empty p _ ?_) fun p hpm => ?_
  · rintro rfl; exact absurd hpm (by decide)
  · by_cases h1 : p = ["Segments"]
    · subst h1
      rw [hf, special_segments]
      simp only [Option.bind_some, copyContainer, Option.isSome_map]
      exact copyFields_exists _ _ fun a ha => copyPlain_exists segmentPaths segmentPaths_apart (by decide) a.2 (hs a ha)
    · by_cases h2 : p = ["control_surfaces"]
      · subst h2
        rw [hg, special_surfaces]
        simp only [Option.bind_some, copyContainer, Option.isSome_map]
        exact copyFields_exists _ _ fun a ha => copyPlain_exists surfacePaths surfacePaths_apart (by decide) a.2 (hc a ha)
      · obtain ⟨x, hx⟩ := Option.isSome_iff_exists.1 (h p hpm)
        rw [hx]
        unfold special
        simp [h1, h2]

/-- What the lattice reads of a wing, beside its segments and control surfaces: place, planform, twist, camber and vortex lift. -/
def readOfWing : List (List String) :=
  [["origin"], ["symmetric"], ["vertical"], ["vortex_lift"], ["Airfoil"], ["spans", "projected"], ["chords", "root"], ["chords", "tip"], ["taper"],
   ["sweeps", "quarter_chord"], ["sweeps", "leading_edge"], ["dihedral"], ["twists", "root"], ["twists", "tip"]]

/-- What it reads of a segment. -/
def readOfSegment : List (List String) :=
  [["percent_span_location"], ["root_chord_percent"], ["sweeps", "quarter_chord"], ["sweeps", "leading_edge"], ["dihedral_outboard"], ["twist"], ["Airfoil"]]

/-- What it reads of a control surface. -/
def readOfSurface : List (List String) :=
  [["span_fraction_start"], ["span_fraction_end"], ["hinge_fraction"], ["chord_fraction"], ["deflection"], ["sign_duplicate"]]

/-- Nothing that the lattice reads is left out of the copies. -/
theorem C404_read (t u : Tree) (h : copyWing t = some u) :
    (∀ p ∈ readOfWing, deepGet u p = deepGet t p) ∧ (∀ p ∈ readOfSegment, p ∈ segmentPaths) ∧ ∀ p ∈ readOfSurface, p ∈ surfacePaths := by
  refine ⟨fun p hp => ?_, by decide, by decide⟩
  have h1 : ∀ p ∈ readOfWing, p ∈ wingPaths ∧ p ≠ ["Segments"] ∧ p ≠ ["control_surfaces"] := by decide
  obtain ⟨a, b, c⟩ := h1 p hp
  exact (C404_copy t u h).1 p a b c

/-- No copy of a segment has control surfaces. -/
theorem copied_entries (t u : Tree) (h : copyWing t = some u) : ∀ s ∈ segmentEntries u, s = none := by
  have h2 := (C404_copy t u h).2.1
  intro s hs
  unfold segmentEntries at hs
  cases hu : deepGet u ["Segments"] with
  | none => rw [hu] at hs; simp at hs
  | some x =>
    cases x with
    | leaf z => rw [hu] at hs; simp at hs
    | node f =>
      rw [hu] at hs h2
      simp only [List.mem_map] at hs
      obtain ⟨kt, hk, rfl⟩ := hs
      cases ht : deepGet t ["Segments"] with
      | none => rw [ht] at h2; exact absurd h2 (by simp [SameContents])
      | some y =>
        cases y with
        | leaf z => rw [ht] at h2; exact absurd h2 (by simp [SameContents])
        | node g =>
          rw [ht] at h2
          unfold SameContents at h2
          obtain ⟨a, -, -, hab⟩ := forall2_right h2 hk
          unfold segmentEntry
          rw [hab.2 ["control_surfaces"] (by simp) (by decide)]
          rfl

/-- **C405, partial.** An all-moving surface with segments whose data contradict each other is refused. -/
theorem C405_contradiction_partial (w : Checked) (ha : w.allMoving = true) (hs : w.segments ≠ [])
    (h : (w.hinge ≠ (0, 0, 0) ∧ w.constantHinge = true) ∨ 0 < w.surfaces) : accepted w = false := by
  unfold accepted
  rw [if_neg (by simpa using hs), if_pos ⟨ha, h⟩]

/-- **C405, false of the code.** Without segments, nothing is refused. -/
theorem C405_plain_counterexample (a c : Bool) (v : ℝ × ℝ × ℝ) (n : ℕ) : accepted ⟨a, v, c, n, []⟩ = true := by
  simp [accepted]

/-- **C405, false of the code.** Control surfaces appended to segments are to be refused, but they are never seen: whatever the segments of a wing hold, it gets
through unless it is all-moving. -/
theorem C405_segments_counterexample (v : ℝ × ℝ × ℝ) (c : Bool) (t u : Tree) (h : copyWing t = some u) : takenIn false v c t = some true := by
  unfold takenIn
  rw [h, Option.map_some]
  congr 1
  unfold accepted
  simp only
  split_ifs with h1 h2
  · rfl
  · simp at h2
  · rw [Bool.not_eq_true', List.any_eq_false]
    intro s hs
    rw [copied_entries t u h s hs]
    simp

/-- A wing with one segment that has an aileron appended to it. -/
def aileronOnSegment : Tree :=
  .node [("tag", .leaf 1), ("origin", .leaf 0), ("symmetric", .leaf 1), ("vertical", .leaf 0), ("taper", .leaf 1), ("dihedral", .leaf 0),
    ("thickness_to_chord", .leaf 0), ("spans", .node [("projected", .leaf 10)]), ("chords", .node [("root", .leaf 1), ("tip", .leaf 1)]),
    ("sweeps", .node [("quarter_chord", .leaf 0), ("leading_edge", .leaf 0)]), ("twists", .node [("root", .leaf 0), ("tip", .leaf 0)]),
    ("vortex_lift", .leaf 0), ("Airfoil", .node []), ("Segments", .node [("outer", .node [("tag", .leaf 2), ("percent_span_location", .leaf 0),
      ("twist", .leaf 0), ("root_chord_percent", .leaf 1), ("dihedral_outboard", .leaf 0), ("thickness_to_chord", .leaf 0),
      ("sweeps", .node [("quarter_chord", .leaf 0), ("leading_edge", .leaf 0)]), ("Airfoil", .node []),
      ("control_surfaces", .node [("aileron", .leaf 5)])])]), ("control_surfaces", .node [])]

example : segmentEntries aileronOnSegment = [some 1] ∧ (copyWing aileronOnSegment).isSome = true := by
  constructor
  · simp [segmentEntries, aileronOnSegment, deepGet, getField, segmentEntry, sizeOfTree]
  · rfl

example : takenIn false (0, 0, 0) false aileronOnSegment = some true := by
  obtain ⟨u, hu⟩ := Option.isSome_iff_exists.1 (show (copyWing aileronOnSegment).isSome = true by rfl)
  exact C405_segments_counterexample _ _ _ u hu

/-- A stabilator with a section, a hinge vector and a constant hinge fraction is refused. -/
example : accepted ⟨true, (0, 1, 0), true, 0, [none, none]⟩ = false :=
  C405_contradiction_partial _ rfl (by simp) (Or.inl ⟨by simp, rfl⟩)

end Verif.Vlm
