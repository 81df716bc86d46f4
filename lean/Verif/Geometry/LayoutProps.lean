import Verif.Geometry.Layout
import Mathlib.Tactic.Linarith
import Mathlib.Tactic.FieldSimp
import Mathlib.Tactic.Ring
import Mathlib.Tactic.NormNum
import Mathlib.Tactic.Positivity

/-!
# Properties of control-surface sections, origins and fuselage lengths (C39, C77, C78)
-/

namespace Verif.Geometry

/-! ### C39 -/

/-- The pairs of neighbouring stations. -/
def neighbours : List ℝ → List (ℝ × ℝ)
  | a :: b :: rest => (a, b) :: neighbours (b :: rest)
  | _ => []

/-- No panel starts exactly where the surface starts while the surface ends beyond it. -/
def NoFlushStart (cs : Surface) (stations : List ℝ) : Prop :=
  ∀ p ∈ neighbours stations, ¬ (cs.start = p.1 ∧ p.2 < cs.stop)

/-- A piece, if produced, is the intersection of surface and panel and has positive width, and it
is produced whenever they overlap, the flush-start case excepted. -/
theorem piece_eq {s0 s1 a b : ℝ} (hs : s0 < s1) (hab : a < b) (hn : ¬ (s0 = a ∧ b < s1)) :
    piece s0 s1 a b = if max a s0 < min b s1 then some (max a s0, min b s1) else none := by
  rcases lt_trichotomy s0 a with h0 | h0 | h0
  · rw [max_eq_left h0.le]
    rcases lt_trichotomy s1 b with h1 | h1 | h1
    · rw [min_eq_right h1.le]
      by_cases h2 : a < s1
      · simp [piece, h0, h1, h2]
      · have : ¬ s1 = b := h1.ne
        have h3 : ¬ b < s1 := not_lt.2 h1.le
        simp [piece, h0, h2, this, h3, h0.ne, not_lt.2 h0.le]
    · subst h1; simp [piece, h0, hab]
    · rw [min_eq_left h1.le]
      simp [piece, h0, hab, h1, not_lt.2 h1.le]
  · subst h0
    have hb : s1 ≤ b := not_lt.1 fun h => hn ⟨rfl, h⟩
    rw [max_self, min_eq_right hb]
    rcases hb.lt_or_eq with h1 | h1
    · simp [piece, h1, hs]
    · subst h1; simp [piece, hs]
  · rw [max_eq_right h0.le]
    rcases lt_trichotomy s1 b with h1 | h1 | h1
    · rw [min_eq_right h1.le]
      simp [piece, not_lt.2 h0.le, h0.ne', h0, h1, hs]
    · subst h1
      simp [piece, not_lt.2 h0.le, h0.ne', h0, hs]
    · rw [min_eq_left h1.le]
      by_cases h2 : s0 < b
      · simp [piece, not_lt.2 h0.le, h0.ne', h0, h1, h1.ne', not_lt.2 h1.le, h2]
      · simp [piece, not_lt.2 h0.le, h0.ne', h0, h1, h1.ne', not_lt.2 h1.le, h2]

/-- **C39, panel by panel.** Segment `i + 1` gets a section of the surface exactly when surface and
panel overlap; the section covers exactly the overlap, has the corresponding share of the span and
is otherwise a copy.  Missing: surfaces starting flush with a station and ending beyond the next
one, see `C39_counterexample`. -/
theorem C39_panel_partial (cs : Surface) (stations : List ℝ) (hs : cs.start < cs.stop) (hinc : stations.Pairwise (· < ·))
    (hn : NoFlushStart cs stations) :
    (sections cs stations).length = (neighbours stations).length ∧
    ∀ (i : ℕ) (a b : ℝ), (neighbours stations)[i]? = some (a, b) →
      (max a cs.start < min b cs.stop →
        ∃ s : Surface, (sections cs stations)[i]? = some (some s) ∧ s.start = max a cs.start ∧ s.stop = min b cs.stop ∧
          s.span * (cs.stop - cs.start) = cs.span * (s.stop - s.start) ∧
          s.kind = cs.kind ∧ s.tag = cs.tag ∧ s.hinge = cs.hinge ∧ s.chord = cs.chord ∧ s.sign = cs.sign ∧
          s.deflection = cs.deflection ∧ s.configuration = cs.configuration ∧ s.gain = cs.gain) ∧
      (min b cs.stop ≤ max a cs.start → (sections cs stations)[i]? = some none) := by
  have hd : cs.stop - cs.start ≠ 0 := by linarith
  induction stations with
  | nil => simp [sections, neighbours]
  | cons a0 t ih =>
    cases t with
    | nil => simp [sections, neighbours]
    | cons b0 rest =>
      have hinc' := (List.pairwise_cons.1 hinc)
      have ihh := ih hinc'.2 (fun p hp => hn p (by simp [neighbours, hp]))
      refine ⟨by simpa [sections, neighbours] using ihh.1, ?_⟩
      intro i a b hi
      cases i with
      | succ i =>
        simp only [neighbours, List.getElem?_cons_succ] at hi
        simpa [sections] using ihh.2 i a b hi
      | zero =>
        simp only [neighbours, List.getElem?_cons_zero, Option.some.injEq, Prod.mk.injEq] at hi
        obtain ⟨rfl, rfl⟩ := hi
        have hp := piece_eq hs (hinc'.1 b0 (by simp)) (hn (a0, b0) (by simp [neighbours]))
        constructor
        · intro h
          refine ⟨section_ cs (max a0 cs.start, min b0 cs.stop), by simp only [sections, List.getElem?_cons_zero, hp, if_pos h]; rfl, rfl, rfl, ?_, rfl, rfl, rfl, rfl, rfl, rfl, rfl, rfl⟩
          simp only [section_]; field_simp
        · intro h
          simp only [sections, List.getElem?_cons_zero, hp, if_neg (not_lt.2 h)]; rfl

/-- **C39, nothing lost.** If the stations reach over the whole surface, the widths and the spans
of the sections add up to those of the surface, and every location of the surface lies in one of
them. -/
theorem C39_total_partial (cs : Surface) (first : ℝ) (rest : List ℝ) (hs : cs.start < cs.stop)
    (hinc : (first :: rest).Pairwise (· < ·)) (hf : first ≤ cs.start) (hl : cs.stop ≤ (first :: rest).getLast (by simp))
    (hn : NoFlushStart cs (first :: rest)) :
    let ss := (sections cs (first :: rest)).filterMap id
    (ss.map fun s => s.stop - s.start).sum = cs.stop - cs.start ∧ (ss.map Surface.span).sum = cs.span ∧
    (∀ x, cs.start ≤ x → x < cs.stop → ∃ s ∈ ss, s.start ≤ x ∧ x < s.stop) ∧
    ∀ s ∈ ss, cs.start ≤ s.start ∧ s.start < s.stop ∧ s.stop ≤ cs.stop := by
  have hd : cs.stop - cs.start ≠ 0 := by linarith
  set clamp : ℝ → ℝ := fun x => max cs.start (min x cs.stop) with hclamp
  have key : ∀ (l : List ℝ) (a : ℝ), (a :: l).Pairwise (· < ·) → NoFlushStart cs (a :: l) →
      (((sections cs (a :: l)).filterMap id).map fun s => s.stop - s.start).sum = clamp ((a :: l).getLast (by simp)) - clamp a ∧
      (((sections cs (a :: l)).filterMap id).map Surface.span).sum =
        cs.span / (cs.stop - cs.start) * (clamp ((a :: l).getLast (by simp)) - clamp a) ∧
      (∀ x, cs.start ≤ x → x < cs.stop → a ≤ x → x < (a :: l).getLast (by simp) →
        ∃ s ∈ (sections cs (a :: l)).filterMap id, s.start ≤ x ∧ x < s.stop) ∧
      ∀ s ∈ (sections cs (a :: l)).filterMap id, cs.start ≤ s.start ∧ s.start < s.stop ∧ s.stop ≤ cs.stop := by
    intro l
    induction l with
    | nil =>
      intro a _ _
      refine ⟨by simp [sections], by simp [sections], fun x _ _ h1 h2 => ?_, by simp [sections]⟩
      simp at h2; linarith
    | cons b t ih =>
      intro a hinc hn
      have hinc' := List.pairwise_cons.1 hinc
      have hab : a < b := hinc'.1 b (by simp)
      obtain ⟨i1, i2, i3, i4⟩ := ih b hinc'.2 (fun p hp => hn p (by simp [neighbours, hp]))
      have hp := piece_eq hs hab (hn (a, b) (by simp [neighbours]))
      have hlast : (a :: b :: t).getLast (by simp) = (b :: t).getLast (by simp) := by simp
      rw [hlast]
      simp only [sections, hp]
      by_cases h : max a cs.start < min b cs.stop
      · simp only [if_pos h, Option.map_some]
        have hc : min b cs.stop - max a cs.start = clamp b - clamp a := by
          have h1 : a < cs.stop := lt_of_le_of_lt (le_max_left _ _) (lt_of_lt_of_le h (min_le_right _ _))
          have h2 : cs.start < b := lt_of_le_of_lt (le_max_right _ _) (lt_of_lt_of_le h (min_le_left _ _))
          simp only [hclamp]
          rw [min_eq_left h1.le, max_comm cs.start a, max_eq_right (le_min h2.le hs.le)]
        refine ⟨?_, ?_, ?_, ?_⟩
        · simp only [List.filterMap_cons, id, List.map_cons, List.sum_cons, section_] at *
          rw [i1, hc]; ring
        · simp only [List.filterMap_cons, id, List.map_cons, List.sum_cons, section_] at *
          rw [i2, hc]; field_simp; ring
        · intro x h1 h2 h3 h4
          by_cases hb : x < b
          · exact ⟨_, by simp only [List.filterMap_cons, id]; exact List.mem_cons_self, max_le h3 h1, lt_min hb h2⟩
          · obtain ⟨s, hs1, hs2⟩ := i3 x h1 h2 (not_lt.1 hb) h4
            exact ⟨s, by simp only [List.filterMap_cons, id]; exact List.mem_cons_of_mem _ hs1, hs2⟩
        · intro s hs1
          simp only [List.filterMap_cons, id, List.mem_cons] at hs1
          rcases hs1 with rfl | hs1
          · exact ⟨le_max_right _ _, h, min_le_right _ _⟩
          · exact i4 s hs1
      · simp only [if_neg h, Option.map_none]
        have hc : clamp b = clamp a := by
          simp only [hclamp]
          rcases le_or_gt cs.stop a with h1 | h1
          · rw [min_eq_right h1, min_eq_right (h1.trans hab.le)]
          · rcases le_or_gt b cs.start with h2 | h2
            · rw [max_eq_left (min_le_of_left_le h2), max_eq_left (min_le_of_left_le (hab.le.trans h2))]
            · exact absurd (max_lt (lt_min hab h1) (lt_min h2 hs)) h
        refine ⟨?_, ?_, ?_, ?_⟩
        · simp only [List.filterMap_cons, id] at *
          rw [i1, hc]
        · simp only [List.filterMap_cons, id] at *
          rw [i2, hc]
        · intro x h1 h2 h3 h4
          by_cases hb : x < b
          · exact absurd (max_lt (lt_min hab (lt_of_le_of_lt h3 h2)) (lt_min (lt_of_le_of_lt h1 hb) hs)) h
          · obtain ⟨s, hs1, hs2⟩ := i3 x h1 h2 (not_lt.1 hb) h4
            exact ⟨s, by simp only [List.filterMap_cons, id]; exact hs1, hs2⟩
        · intro s hs1
          simp only [List.filterMap_cons, id] at hs1
          exact i4 s hs1
  obtain ⟨k1, k2, k3, k4⟩ := key rest first hinc hn
  have e1 : clamp ((first :: rest).getLast (by simp)) = cs.stop := by
    simp only [hclamp]; rw [min_eq_right hl, max_eq_right hs.le]
  have e2 : clamp first = cs.start := by
    simp only [hclamp]; exact max_eq_left (min_le_of_left_le hf)
  intro ss
  refine ⟨by rw [k1, e1, e2], by rw [k2, e1, e2]; field_simp, fun x h1 h2 => k3 x h1 h2 (hf.trans h1) (h2.trans_le hl), k4⟩

/-- The surface of the examples: a flap from 10 % to 60 % span. -/
noncomputable def flap0 (s0 s1 : ℝ) : Surface :=
  ⟨"Flap", "flap", 5, s0, s1, 0, 3 / 10, 1, 0, "single_slotted", 1⟩

example : NoFlushStart (flap0 (1 / 10) (6 / 10)) [0, 3 / 10, 1] ∧ [0, 3 / 10, (1 : ℝ)].Pairwise (· < ·) ∧
    (flap0 (1 / 10) (6 / 10)).start < (flap0 (1 / 10) (6 / 10)).stop := by
  refine ⟨?_, by norm_num, by norm_num [flap0]⟩
  intro p hp
  simp only [neighbours, List.mem_cons, List.not_mem_nil, or_false] at hp
  rcases hp with rfl | rfl <;> norm_num [flap0]

/-- C39 is false: a surface that starts exactly at a station and ends beyond the next station loses
the panel between the two. -/
theorem C39_counterexample (cs : Surface) (a b : ℝ) (hab : a < b) (h : cs.start = a ∧ b < cs.stop) :
    piece cs.start cs.stop a b = none := by
  obtain ⟨rfl, h2⟩ := h
  have h3 : ¬ cs.stop < b := not_lt.2 h2.le
  simp [piece, h3, h2.ne']

/-- A flap from the root to 60 % span on a wing with a station at 30 %: half of it is lost. -/
theorem C39_root_flap_counterexample :
    let cs := flap0 0 (6 / 10)
    let ss := (sections cs [0, 3 / 10, 1]).filterMap id
    ss.length = 1 ∧ (ss.map fun s => s.stop - s.start).sum = (cs.stop - cs.start) / 2 := by
  intro cs ss
  have h1 : piece (0 : ℝ) (6 / 10) 0 (3 / 10) = none := by norm_num [piece]
  have h2 : piece (0 : ℝ) (6 / 10) (3 / 10) 1 = some (3 / 10, 6 / 10) := by norm_num [piece]
  have : ss = [section_ cs (3 / 10, 6 / 10)] := by
    simp only [ss, sections]
    have e1 : cs.start = 0 := rfl
    have e2 : cs.stop = 6 / 10 := rfl
    rw [e1, e2, h1, h2]; rfl
  rw [this]
  refine ⟨rfl, ?_⟩
  simp [section_, cs, flap0]; norm_num

/-- Each segment lists the sections of all surfaces, in the surfaces' order: a section of a surface
appears on a segment exactly when that surface has one there. -/
theorem C39_all_surfaces (css : List Surface) (stations : List ℝ) (i : ℕ) (hi : i < stations.length - 1) :
    ∃ l, (populate css stations)[i]? = some l ∧ ∀ s, s ∈ l ↔ ∃ cs ∈ css, (sections cs stations)[i]? = some (some s) := by
  refine ⟨_, by simp [populate, hi]; rfl, fun s => ?_⟩
  simp only [List.mem_filterMap]
  constructor
  · rintro ⟨cs, hcs, h⟩
    refine ⟨cs, hcs, ?_⟩
    rcases hq : (sections cs stations)[i]? with _ | q
    · rw [hq] at h; cases h
    · rw [hq] at h; simp at h; rw [h]
  · rintro ⟨cs, hcs, h⟩
    exact ⟨cs, hcs, by rw [h]; rfl⟩

/-! ### C77 -/

theorem P3.smul_smul (a b : ℝ) (p : P3) : P3.smul a (P3.smul b p) = P3.smul (a * b) p := by
  simp [P3.smul, mul_assoc]

theorem P3.one_smul (p : P3) : P3.smul 1 p = p := by simp [P3.smul]

/-- **C77, wings and fuselages.** Non-dimensional and back with reference lengths `L` and `L'`
scales every origin by `L' / L`; with equal lengths the origins are unchanged. -/
theorem C77_body_partial (L L' : ℝ) (hL : L ≠ 0) (b : Body) :
    ((b.toNon L).toDim L').origin = b.origin.map (P3.smul (L' / L)) ∧ ((b.toNon L).toDim L).origin = b.origin := by
  have h : ∀ L', ((b.toNon L).toDim L').origin = b.origin.map (P3.smul (L' / L)) := by
    intro L'
    simp [Body.toNon, Body.toDim, Function.comp_def, P3.smul_smul, div_eq_mul_inv]
  refine ⟨h L', ?_⟩
  rw [h L, div_self hL]
  rw [show P3.smul 1 = id from funext P3.one_smul, List.map_id]

/-- The mirrored engine layout: all engines at the same station and height as the first one, at
alternating sides, an unpaired last one in the middle. -/
def Mirrored (o : List P3) : Prop :=
  ∀ (p : P3) (k : ℕ) (q : P3), o[0]? = some p → o[k]? = some q →
    q.1 = p.1 ∧ q.2.2 = p.2.2 ∧
      q.2.1 = if k % 2 = 1 then -p.2.1 else if k + 1 = o.length then 0 else p.2.1

/-- **C77, networks.** The round trip succeeds and returns the engine origins exactly when they
form the mirrored layout. -/
theorem C77_network_iff (L : ℝ) (hL : L ≠ 0) (b : Net) (hb : b.n = b.origin.length) :
    ∃ b1 b2, b.toNon L = some b1 ∧ b1.toDim L = some b2 ∧ (b2.origin = b.origin ↔ Mirrored b.origin) := by
  obtain ⟨n, o, nd⟩ := b
  dsimp only at hb
  subst hb
  cases o with
  | nil =>
    refine ⟨⟨0, [], []⟩, ⟨0, [], []⟩, by simp [Net.toNon], by simp [Net.toDim], ?_⟩
    simp [Mirrored]
  | cons p t =>
    refine ⟨_, _, by simp only [Net.toNon, le_refl, if_true]; rfl, by simp only [Net.toDim, List.take_length, List.map_cons]; rfl, ?_⟩
    simp only [P3.smul_smul, mul_inv_cancel₀ hL, P3.one_smul]
    constructor
    · intro h p' k q h0 hk
      simp only [List.getElem?_cons_zero, Option.some.injEq] at h0
      subst h0
      rw [← h] at hk
      rw [List.getElem?_map] at hk
      have hk2 : k < (p :: t).length := by
        by_contra hc
        rw [List.getElem?_eq_none (by simpa using not_lt.1 hc)] at hk
        cases hk
      rw [List.getElem?_range hk2] at hk
      simp only [Option.map_some, Option.some.injEq] at hk
      subst hk
      unfold engineAt
      rcases Nat.mod_two_eq_zero_or_one k with hm | hm
      · simp only [hm, ne_eq, not_true_eq_false, if_false]
        by_cases hl : k = (p :: t).length - 1
        · have hl' : k + 1 = (p :: t).length := by simp at hl ⊢; omega
          rw [if_pos hl]; simp [hl']
        · have hl' : ¬ k + 1 = (p :: t).length := by simp at hl ⊢; omega
          rw [if_neg hl, if_neg hl']; simp
      · simp [hm]
    · intro h
      apply List.ext_getElem?
      intro k
      rw [List.getElem?_map]
      by_cases hk : k < (p :: t).length
      · rw [List.getElem?_range hk, List.getElem?_eq_getElem hk]
        obtain ⟨h1, h2, h3⟩ := h p k _ rfl (List.getElem?_eq_getElem hk)
        simp only [Option.map_some, Option.some.injEq]
        generalize (p :: t)[k] = q at h1 h2 h3
        unfold engineAt
        rcases Nat.mod_two_eq_zero_or_one k with hm | hm
        · simp only [hm, ne_eq, not_true_eq_false, if_false]
          by_cases hl : k = (p :: t).length - 1
          · have hl' : k + 1 = (p :: t).length := by simp at hl ⊢; omega
            rw [if_pos hl]; simp only [hm, hl'] at h3
            ext <;> simp_all
          · have hl' : ¬ k + 1 = (p :: t).length := by simp at hl ⊢; omega
            rw [if_neg hl]; simp only [hm, hl', if_false] at h3
            ext <;> simp_all
        · simp only [hm] at h3 ⊢
          ext <;> simp_all
      · rw [List.getElem?_eq_none (by simpa using hk), List.getElem?_eq_none (by simpa using hk)]; rfl

/-- Two engines, symmetric about the centre plane: the mirrored layout. -/
example : Mirrored [(10, 5, -1), (10, -5, -1)] := by
  intro p k q h0 hk
  simp only [List.getElem?_cons_zero, Option.some.injEq] at h0
  subst h0
  match k, hk with
  | 0, hk => simp at hk; subst hk; simp
  | 1, hk => simp at hk; subst hk; simp
  | k + 2, hk => simp at hk

/-- C77 is false for engines: with four engines the outer pair is moved onto the inner pair. -/
theorem C77_counterexample :
    ∃ b b1 b2 : Net, b.n = b.origin.length ∧ b.toNon 1 = some b1 ∧ b1.toDim 1 = some b2 ∧
      b.origin = [(10, 5, 0), (10, -5, 0), (14, 9, 0), (14, -9, 0)] ∧
      b2.origin = [(10, 5, 0), (10, -5, 0), (10, 5, 0), (10, -5, 0)] := by
  refine ⟨⟨4, [(10, 5, 0), (10, -5, 0), (14, 9, 0), (14, -9, 0)], []⟩, _, _, rfl, by simp only [Net.toNon]; rfl, by simp only [Net.toDim]; rfl, rfl, ?_⟩
  simp [List.range_succ, engineAt, P3.smul]

/-- The whole vehicle: every wing and every fuselage gets its origin back; only engines can move. -/
theorem C77_vehicle_partial (v v1 v2 : Veh) (hL : v.scale ≠ 0) (h1 : setNonDim v = some v1) (h2 : setDim v1 = some v2) :
    v2.wings.map Body.origin = v.wings.map Body.origin ∧ v2.fuselages.map Body.origin = v.fuselages.map Body.origin := by
  simp only [setNonDim, Option.bind_eq_bind, Option.bind_eq_some_iff, Option.pure_def, Option.some.injEq] at h1
  obtain ⟨n1, _, rfl⟩ := h1
  simp only [setDim, Option.bind_eq_bind, Option.bind_eq_some_iff, Option.pure_def, Option.some.injEq] at h2
  obtain ⟨n2, _, rfl⟩ := h2
  have hs : ∀ n, ({ v with wings := v.wings.map (Body.toNon v.scale), fuselages := v.fuselages.map (Body.toNon v.scale), networks := n } : Veh).scale = v.scale := fun _ => rfl
  simp only [hs, List.map_map]
  constructor <;> exact List.map_congr_left fun b _ => (C77_body_partial v.scale v.scale hL b).2

/-- The reference length is the total length of the fuselage if it can be read, else that of the
main wing, else one. -/
theorem C77_reference (v : Veh) :
    (∀ L, v.fuselageLength = some L → v.scale = L) ∧
    (∀ L, v.fuselageLength = none → v.wingLength = some L → v.scale = L) ∧
    (v.fuselageLength = none → v.wingLength = none → v.scale = 1) := by
  refine ⟨fun L h => by simp [Veh.scale, h], fun L h h' => by simp [Veh.scale, h, h'], fun h h' => by simp [Veh.scale, h, h']⟩

example : (Veh.mk (some 20) none [⟨[(5, 0, 1)], []⟩] [] []).scale ≠ 0 := by simp [Veh.scale]

/-! ### C78 -/

/-- **C78, sum.** With positive nose and tail and more than one unit of length left for the cabin
(or with no total length given), the three lengths add up to the total, which is the given one if
any. -/
theorem C78_sum_partial (round : ℝ → ℝ) (f : Fuselage)
    (h : f.total = 0 ∨ (0 < f.noseFineness * f.width ∧ 0 < f.tailFineness * f.width ∧ 1 < f.total - f.noseFineness * f.width - f.tailFineness * f.width)) :
    let g := fuselagePlanform round f
    g.nose + g.cabin + g.tail = g.total ∧ (f.total ≠ 0 → g.total = f.total) := by
  intro g
  rcases h with h | ⟨h1, h2, h3⟩
  · refine ⟨?_, fun h' => absurd h h'⟩
    simp only [g, fuselagePlanform, if_pos h]; ring
  · have ht : f.total ≠ 0 := by linarith
    have ht' : ¬ f.total ≤ 0 := by linarith
    simp only [g, fuselagePlanform, if_neg ht, if_neg (not_le.2 h1), if_neg (not_le.2 h2), if_neg (not_le.2 h3), if_neg ht']
    exact ⟨by ring, fun _ => trivial⟩

/-- C78 fails when the cabin length is clamped: the parts add up to more than the total. -/
theorem C78_sum_counterexample (round : ℝ → ℝ) (f : Fuselage) (ht : 0 < f.total) (h1 : 0 < f.noseFineness * f.width)
    (h2 : 0 < f.tailFineness * f.width) (h3 : f.total - f.noseFineness * f.width - f.tailFineness * f.width < 1) :
    let g := fuselagePlanform round f
    g.total < g.nose + g.cabin + g.tail := by
  intro g
  simp only [g, fuselagePlanform, if_neg ht.ne', if_neg (not_le.2 h1), if_neg (not_le.2 h2), if_pos h3.le, if_neg (not_le.2 ht)]
  linarith

/-- **C78, stability.** With a positive total length given, computing again changes nothing. -/
theorem C78_stable_partial (round : ℝ → ℝ) (f : Fuselage) (ht : 0 < f.total) :
    fuselagePlanform round (fuselagePlanform round f) = fuselagePlanform round f := by
  have h1 : ¬ f.total ≤ 0 := not_le.2 ht
  simp only [fuselagePlanform, if_neg ht.ne', if_neg h1]

/-- C78 fails when the length is computed from the seats: the second call counts the space before
and behind the cabin as seats. -/
theorem C78_seats_counterexample (round : ℝ → ℝ) (hr : ∀ n : ℕ, round n = n) :
    ∃ f, (fuselagePlanform round f).seats = 100 ∧ (fuselagePlanform round (fuselagePlanform round f)).seats = 116 := by
  have h116 : round 116 = 116 := by exact_mod_cast hr 116
  refine ⟨⟨100, 1, 4, 1, 1, 2, 2, 4, 4, 0, 0, 0, 0, 0, 0, 0⟩, by norm_num [fuselagePlanform], ?_⟩
  norm_num [fuselagePlanform, h116]

/-- A round fuselage has its width as effective diameter, a circle as cross-section and a cylinder
as cabin wall. -/
theorem C78_round (round : ℝ → ℝ) (f : Fuselage) (_hw : 0 < f.width) (hh : f.height = f.width) :
    let g := fuselagePlanform round f
    g.diameter = f.width ∧ g.front = Real.pi * (f.width / 2) ^ 2 ∧
    g.wetted = Real.pi * f.width * g.cabin + 3 / 4 * (Real.pi * f.width * (g.nose + g.tail)) := by
  intro g
  refine ⟨?_, ?_, ?_⟩
  · simp only [g, fuselagePlanform, hh, sub_self, zero_div]; ring
  · simp only [g, fuselagePlanform, hh]; ring
  · simp only [g, fuselagePlanform, hh, sub_self, zero_div]; ring

end Verif.Geometry
