import Verif.Avl.File
import Mathlib.Tactic.Linarith
import Mathlib.Tactic.NormNum
import Mathlib.Algebra.Order.Field.Rat

/-!
# Reading the geometry file back

The specification is a reader: what a keyword belongs to is the last section or surface before it, as in the manual of
AVL.  The reader works from the end of the file and collects what has not found its owner.
-/

namespace Verif.Avl.File

/-- A section as AVL reads it. -/
structure ReadSection where
  place : ℚ × ℚ × ℚ
  chord : ℚ
  twist : ℚ
  afile : Option String
  naca : Option String
  controls : List (String × ℚ × ℚ × String × String)
  deriving DecidableEq

/-- A surface as AVL reads it. -/
structure ReadSurface where
  name : String
  twin : Bool
  sections : List ReadSection
  deriving DecidableEq

/-- What is read so far: entries without owner, and the surfaces that are complete. -/
structure Reading where
  afile : Option String
  naca : Option String
  controls : List (String × ℚ × ℚ × String × String)
  twin : Bool
  sections : List ReadSection
  surfaces : List ReadSurface
  deriving DecidableEq

/-- Nothing waits for a section. -/
def Reading.free (r : Reading) : Prop := r.afile = none ∧ r.naca = none ∧ r.controls = []

instance (r : Reading) : Decidable r.free := by unfold Reading.free; infer_instance

/-- One entry more, from the end.  `none`: an entry without owner, two airfoils of a kind, or a twin inside a surface. -/
def readEntry : Entry → Reading → Option Reading
  | .control t g h v s, r => some { r with controls := (t, g, h, v, s) :: r.controls }
  | .afile n, r => if r.afile = none then some { r with afile := some n } else none
  | .naca n, r => if r.naca = none then some { r with naca := some n } else none
  | .sec x y z c t, r =>
    if r.twin then none
    else some ⟨none, none, [], false, ⟨(x, y, z), c, t, r.afile, r.naca, r.controls⟩ :: r.sections, r.surfaces⟩
  | .twin, r => if r.free ∧ r.twin = false then some { r with twin := true } else none
  | .surface n, r =>
    if r.free then some ⟨none, none, [], false, [], ⟨n, r.twin, r.sections⟩ :: r.surfaces⟩ else none

/-- All entries. -/
def readOn : List Entry → Reading → Option Reading
  | [], r => some r
  | e :: l, r => (readOn l r).bind (readEntry e)

/-- The surfaces of the file; nothing may be left without owner. -/
def readFile (l : List Entry) : Option (List ReadSurface) :=
  (readOn l ⟨none, none, [], false, [], []⟩).bind fun r =>
    if r.free ∧ r.twin = false ∧ r.sections = [] then some r.surfaces else none

theorem readOn_append (l m : List Entry) (r : Reading) : readOn (l ++ m) r = (readOn m r).bind (readOn l) := by
  induction l with
  | nil => simp [readOn]
  | cons e l ih =>
    simp only [List.cons_append, readOn, ih]
    cases readOn m r <;> rfl

/-- What the reader should find for a section of a wing. -/
def asRead (s : Section) (controls : List Control) (naca : Option String) : ReadSection :=
  ⟨(round4 s.x, round4 s.y, round4 s.z), round4 s.chord, round4 s.twist, given s.afile, naca,
    controls.map fun c => (c.tag, c.gain, c.hinge, c.vector, c.sign)⟩

theorem read_controls (cs : List Control) (r : Reading) :
    readOn (cs.map controlEntry) r =
      some { r with controls := cs.map (fun c => (c.tag, c.gain, c.hinge, c.vector, c.sign)) ++ r.controls } := by
  induction cs with
  | nil => simp [readOn]
  | cons c cs ih => simp [readOn, ih, controlEntry, readEntry]

theorem read_wing_section (s : Section) (secs : List ReadSection) (sf : List ReadSurface) :
    readOn (wingSectionEntries s) ⟨none, none, [], false, secs, sf⟩ =
      some ⟨none, none, [], false, asRead s (sortedBy Control.order s.controls) (given s.naca) :: secs, sf⟩ := by
  unfold wingSectionEntries
  rw [readOn, readOn_append, read_controls]
  simp only [Option.bind_some, List.append_nil]
  cases ha : given s.afile <;> cases hn : given s.naca <;>
    simp [readOn, readEntry, asRead, ha]

theorem read_body_section (s : Section) (secs : List ReadSection) (sf : List ReadSurface) :
    readOn (bodySectionEntries s) ⟨none, none, [], false, secs, sf⟩ =
      some ⟨none, none, [], false, asRead s [] none :: secs, sf⟩ := by
  unfold bodySectionEntries
  cases ha : given s.afile <;> simp [readOn, readEntry, asRead, ha]

theorem read_sections (f : Section → List Entry) (g : Section → ReadSection)
    (h : ∀ s secs sf, readOn (f s) ⟨none, none, [], false, secs, sf⟩ = some ⟨none, none, [], false, g s :: secs, sf⟩)
    (l : List Section) (secs : List ReadSection) (sf : List ReadSurface) :
    readOn (l.map f).flatten ⟨none, none, [], false, secs, sf⟩ =
      some ⟨none, none, [], false, l.map g ++ secs, sf⟩ := by
  induction l with
  | nil => simp [readOn]
  | cons s l ih =>
    rw [List.map_cons, List.flatten_cons, readOn_append, ih]
    simp [h]

/-- The surface that AVL should see for a wing. -/
def wingAsRead (w : Lifting) : ReadSurface :=
  ⟨w.tag, w.symmetric,
    (if w.vertical then sortedBy Section.z w.sections else sortedBy Section.y w.sections).map
      fun s => asRead s (sortedBy Control.order s.controls) (given s.naca)⟩

/-- The two surfaces that AVL should see for a body. -/
def bodyAsRead (b : Cross) : List ReadSurface :=
  [⟨b.tag ++ "_horizontal", false, (sortedBy Section.y b.horizontal).map fun s => asRead s [] none⟩,
    ⟨b.tag ++ "_vertical", false, (sortedBy Section.z b.vertical).map fun s => asRead s [] none⟩]

theorem read_surface (w : Lifting) (sf : List ReadSurface) :
    readOn (surfaceEntries w) ⟨none, none, [], false, [], sf⟩ =
      some ⟨none, none, [], false, [], wingAsRead w :: sf⟩ := by
  unfold surfaceEntries
  rw [readOn, readOn_append, read_sections _ _ read_wing_section]
  cases hs : w.symmetric <;> simp [readOn, readEntry, Reading.free, wingAsRead, hs]

theorem read_body (b : Cross) (sf : List ReadSurface) :
    readOn (bodyEntries b) ⟨none, none, [], false, [], sf⟩ =
      some ⟨none, none, [], false, [], bodyAsRead b ++ sf⟩ := by
  unfold bodyEntries
  rw [readOn_append, readOn, read_sections _ _ read_body_section]
  simp only [Option.bind_some, readEntry, Reading.free, and_self, if_true]
  rw [readOn, read_sections _ _ read_body_section]
  simp [readEntry, Reading.free, bodyAsRead]

/-- C430: AVL reads one surface per wing and two per body, in the order of the vehicle, each with its sections, each
section with its own airfoil and control surfaces, and mirrors exactly the symmetric wings. -/
theorem C430_read (name : String) (refs : List Ref) (cg : ℚ × ℚ × ℚ) (wings : List Lifting) (bodies : List Cross)
    (h : Head) (l : List Entry) (hw : (writeGeometry name refs cg wings bodies).1 = some (h, l)) :
    readFile l = some (wings.map wingAsRead ++ (bodies.map bodyAsRead).flatten) := by
  have hb : ∀ bs : List Cross, readOn (bs.map bodyEntries).flatten ⟨none, none, [], false, [], []⟩ =
      some ⟨none, none, [], false, [], (bs.map bodyAsRead).flatten⟩ := by
    intro bs
    induction bs with
    | nil => simp [readOn]
    | cons b bs ih =>
      rw [List.map_cons, List.flatten_cons, readOn_append, ih]
      simp [read_body]
  have hs : ∀ (ws : List Lifting) sf, readOn (ws.map surfaceEntries).flatten ⟨none, none, [], false, [], sf⟩ =
      some ⟨none, none, [], false, [], ws.map wingAsRead ++ sf⟩ := by
    intro ws sf
    induction ws with
    | nil => simp [readOn]
    | cons w ws ih =>
      rw [List.map_cons, List.flatten_cons, readOn_append, ih]
      simp [read_surface]
  unfold writeGeometry at hw
  cases hh : headOf name refs cg with
  | none => rw [hh] at hw; simp at hw
  | some h' =>
    rw [hh] at hw
    simp only [Option.some.injEq, Prod.mk.injEq] at hw
    rw [← hw.2, readFile, readOn_append, hb]
    simp [hs, Reading.free]

/-- C430: every section is written once, those of vertical wings from bottom to top and those of the others from left to
right; sections at one station keep their order. -/
theorem C430_order (w : Lifting) (s t : Section) :
    ∃ l : List Section, l.Perm w.sections ∧
      (wingAsRead w).sections = l.map (fun s => asRead s (sortedBy Control.order s.controls) (given s.naca)) ∧
      (l.Pairwise fun a b => if w.vertical then a.z ≤ b.z else a.y ≤ b.y) ∧
      ((if w.vertical then s.z = t.z else s.y = t.y) → [s, t].Sublist w.sections → [s, t].Sublist l) := by
  cases hv : w.vertical
  · refine ⟨sortedBy Section.y w.sections, List.perm_insertionSort _ _, by simp [wingAsRead, hv], ?_, ?_⟩
    · have : Std.Total (fun a b : Section => a.y ≤ b.y) := ⟨fun a b => le_total _ _⟩
      have : IsTrans Section (fun a b => a.y ≤ b.y) := ⟨fun a b c => le_trans⟩
      simpa [sortedBy] using List.pairwise_insertionSort (fun a b : Section => a.y ≤ b.y) w.sections
    · intro he hsub
      have : Std.Total (fun a b : Section => a.y ≤ b.y) := ⟨fun a b => le_total _ _⟩
      have : IsTrans Section (fun a b => a.y ≤ b.y) := ⟨fun a b c => le_trans⟩
      exact List.pair_sublist_insertionSort (r := fun a b : Section => a.y ≤ b.y) (by simpa using (by simpa using he : s.y = t.y).le) hsub
  · refine ⟨sortedBy Section.z w.sections, List.perm_insertionSort _ _, by simp [wingAsRead, hv], ?_, ?_⟩
    · have : Std.Total (fun a b : Section => a.z ≤ b.z) := ⟨fun a b => le_total _ _⟩
      have : IsTrans Section (fun a b => a.z ≤ b.z) := ⟨fun a b c => le_trans⟩
      simpa [sortedBy] using List.pairwise_insertionSort (fun a b : Section => a.z ≤ b.z) w.sections
    · intro he hsub
      have : Std.Total (fun a b : Section => a.z ≤ b.z) := ⟨fun a b => le_total _ _⟩
      have : IsTrans Section (fun a b => a.z ≤ b.z) := ⟨fun a b c => le_trans⟩
      exact List.pair_sublist_insertionSort (r := fun a b : Section => a.z ≤ b.z) (by simpa using (by simpa using he : s.z = t.z).le) hsub

theorem sortedBy_spec {α β : Type} [LinearOrder β] (key : α → β) (l : List α) :
    (sortedBy key l).Perm l ∧ (sortedBy key l).Pairwise (fun a b => key a ≤ key b) := by
  have : Std.Total (fun a b : α => key a ≤ key b) := ⟨fun a b => le_total _ _⟩
  have : IsTrans α (fun a b => key a ≤ key b) := ⟨fun a b c => le_trans⟩
  exact ⟨List.perm_insertionSort _ _, List.pairwise_insertionSort (fun a b : α => key a ≤ key b) l⟩

/-- C430: the control surfaces of a section are written once each and in ascending order, with the airfoil if one is
given. -/
theorem C430_controls (s : Section) (w : Lifting) (hs : s ∈ w.sections) :
    ∃ r ∈ (wingAsRead w).sections, ∃ cs : List Control, cs.Perm s.controls ∧
      cs.Pairwise (fun a b => a.order ≤ b.order) ∧
      r.controls = cs.map (fun c => (c.tag, c.gain, c.hinge, c.vector, c.sign)) ∧
      r.place = (round4 s.x, round4 s.y, round4 s.z) ∧ r.chord = round4 s.chord ∧ r.twist = round4 s.twist ∧
      (∀ n : String, r.afile = some n ↔ s.afile = some n ∧ n ≠ "") ∧
      (∀ n : String, r.naca = some n ↔ s.naca = some n ∧ n ≠ "") := by
  refine ⟨asRead s (sortedBy Control.order s.controls) (given s.naca), ?_, sortedBy Control.order s.controls,
    (sortedBy_spec _ _).1, (sortedBy_spec _ _).2, rfl, rfl, rfl, rfl, ?_, ?_⟩
  · unfold wingAsRead
    cases w.vertical
    · exact List.mem_map_of_mem ((sortedBy_spec Section.y _).1.mem_iff.2 hs)
    · exact List.mem_map_of_mem ((sortedBy_spec Section.z _).1.mem_iff.2 hs)
  · intro n
    simp [asRead, given, Option.filter_eq_some_iff]
  · intro n
    simp [asRead, given, Option.filter_eq_some_iff]

/-- C430: a body gives a horizontal surface from left to right and a vertical one from bottom to top, neither mirrored
nor with control surfaces. -/
theorem C430_body (b : Cross) :
    ∃ h v : List Section, h.Perm b.horizontal ∧ v.Perm b.vertical ∧ h.Pairwise (fun a c => a.y ≤ c.y) ∧
      v.Pairwise (fun a c => a.z ≤ c.z) ∧
      bodyAsRead b = [⟨b.tag ++ "_horizontal", false, h.map fun s => asRead s [] none⟩,
        ⟨b.tag ++ "_vertical", false, v.map fun s => asRead s [] none⟩] :=
  ⟨_, _, (sortedBy_spec Section.y _).1, (sortedBy_spec Section.z _).1, (sortedBy_spec Section.y _).2,
    (sortedBy_spec Section.z _).2, rfl⟩

/-- C430: no number moves by more than half of the last digit, and rounding does not swap two stations. -/
theorem C430_digits (x y : ℚ) : |round4 x - x| ≤ 0.00005 ∧ (x ≤ y → round4 x ≤ round4 y) := by
  constructor
  · have h := abs_sub_round (x * 10000)
    have e : round4 x - x = -((x * 10000 - (round (x * 10000) : ℤ)) / 10000) := by unfold round4; ring
    rw [e, abs_neg, abs_div, abs_of_pos (by norm_num : (0 : ℚ) < 10000)]
    rw [div_le_iff₀ (by norm_num)]
    linarith
  · intro hxy
    have hr : round (x * 10000) ≤ round (y * 10000) := by
      rw [round_eq, round_eq]
      exact Int.floor_mono (by linarith)
    have : ((round (x * 10000) : ℤ) : ℚ) ≤ ((round (y * 10000) : ℤ) : ℚ) := by exact_mod_cast hr
    unfold round4
    linarith

/-- C430: the coefficients refer to the wing called `main_wing` whatever the order of the wings, and the moments to the
centre of gravity; without such a wing the call fails and the former file is lost. -/
theorem C430_reference (name : String) (refs : List Ref) (cg : ℚ × ℚ × ℚ) (wings : List Lifting)
    (bodies : List Cross) :
    (∀ r ∈ refs, r.tag = "main_wing" → refs.Pairwise (fun a b => a.tag ≠ b.tag) →
      ∃ l, writeGeometry name refs cg wings bodies = (some (⟨name, 0, r.area, r.chord, r.span, cg⟩, l), true)) ∧
    ((∀ r ∈ refs, r.tag ≠ "main_wing") → writeGeometry name refs cg wings bodies = (none, false)) := by
  constructor
  · intro r hr ht hp
    have hf : refs.find? (fun r => r.tag = "main_wing") = some r := by
      induction refs with
      | nil => simp at hr
      | cons a l ih =>
        rw [List.pairwise_cons] at hp
        rcases List.mem_cons.1 hr with e | e
        · subst e; simp [ht]
        · have hne : a.tag ≠ "main_wing" := fun h => hp.1 r e (h.trans ht.symm)
          simp [hne, ih e hp.2]
    exact ⟨_, by unfold writeGeometry headOf; rw [hf]; rfl⟩
  · intro h
    have hf : refs.find? (fun r => r.tag = "main_wing") = none := by
      rw [List.find?_eq_none]
      intro r hr
      simpa using h r hr
    unfold writeGeometry headOf
    rw [hf]; rfl

/-- A section at a station. -/
def sampleSection (y : ℚ) (naca : Option String) (controls : List Control) : Section :=
  ⟨0, y, 0, 2, 0, none, naca, controls⟩

/-- A wing whose sections come in the wrong order, with two control surfaces at the root. -/
def sampleLifting : Lifting :=
  ⟨"main_wing", true, false,
    [sampleSection 5 none [],
      sampleSection 0 (some "2412") [⟨"flap", 1, 0.7, "0 0 0", "+1", 2⟩, ⟨"slat", 1, 0.1, "0 0 0", "+1", 1⟩]]⟩

example : (wingAsRead sampleLifting).sections.map (fun s => (s.place.2.1, s.controls.length)) = [(0, 2), (5, 0)] := by
  norm_num [wingAsRead, sampleLifting, sampleSection, asRead, sortedBy, List.insertionSort, List.orderedInsert, round4,
    round_eq]

example : ((writeGeometry "a" [⟨"tail", 1, 1, 1⟩, ⟨"main_wing", 30, 3, 11⟩] (1, 0, 0) [sampleLifting] []).1.map
    (fun p => p.1.area)) = some 30 := by
  simp [writeGeometry, headOf]

example : round4 1.23456 = 1.2346 := by norm_num [round4, round_eq]

end Verif.Avl.File
