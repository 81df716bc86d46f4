import Mathlib.Analysis.SpecialFunctions.Trigonometric.Bounds
import Mathlib.Tactic.NormNum
import Verif.Avl.Geometry

/-!
What the geometry handed to AVL describes.
-/

namespace Verif.Avl

open Real
open scoped Classical

/-! ### C306: the sections of a wing -/

theorem inverted_dihedral {d : ℝ} (h : 0 ≤ d) : inverted false d = 1 := by
  unfold inverted npSign
  rcases h.lt_or_eq with h | h
  · simp [h]
  · simp [← h]

theorem inverted_vertical {d : ℝ} (h : |d| < π / 2) : inverted true d = 1 := by
  unfold inverted npSign
  have h1 : ¬ 0 < |d| - π / 2 := by linarith
  have h2 : |d| - π / 2 < 0 := by linarith
  simp only [if_true, h1, h2, if_false]
  norm_num

/-- The sections of a wing without control surfaces, for the proofs. -/
noncomputable def trace (w : Wing) : Pt → List Seg → List Sec
  | _, [] => []
  | o, [s] => [segSection w s o]
  | o, s :: s' :: rest => segSection w s o :: trace w (nextOrigin w s s' o) (s' :: rest)

theorem segLoop_trace (w : Wing) (hs : w.surfaces = []) (segs : List Seg) (acc : List Sec) (o : Pt) :
    segLoop w acc o segs = some (acc ++ trace w o segs) := by
  induction segs generalizing acc o with
  | nil => simp [segLoop, trace]
  | cons s l ih =>
    cases l with
    | nil => simp [segLoop, trace]
    | cons s' l =>
      simp only [segLoop, trace, hs, if_true, Option.bind_some]
      rw [ih]
      simp

theorem trace_length (w : Wing) (segs : List Seg) (o : Pt) : (trace w o segs).length = segs.length := by
  induction segs generalizing o with
  | nil => simp [trace]
  | cons s l ih =>
    cases l with
    | nil => simp [trace]
    | cons s' l => simp only [trace, List.length_cons, ih]

theorem trace_head (w : Wing) (s : Seg) (l : List Seg) (o : Pt) :
    (trace w o (s :: l))[0]? = some (segSection w s o) := by
  cases l <;> simp [trace]

theorem trace_section (w : Wing) (segs : List Seg) (o : Pt) (i : ℕ) (s : Seg) (a : Sec)
    (h1 : segs[i]? = some s) (h2 : (trace w o segs)[i]? = some a) :
    a = segSection w s a.origin := by
  induction segs generalizing o i with
  | nil => simp at h1
  | cons t l ih =>
    cases i with
    | zero =>
      rw [trace_head] at h2
      simp at h1 h2
      subst h1 h2
      rfl
    | succ i =>
      cases l with
      | nil => simp at h1
      | cons t' l =>
        simp only [trace, List.getElem?_cons_succ] at h1 h2
        exact ih _ _ h1 h2

theorem trace_step (w : Wing) (segs : List Seg) (o : Pt) (i : ℕ) (s s' : Seg) (a b : Sec)
    (h1 : segs[i]? = some s) (h1' : segs[i + 1]? = some s') (h2 : (trace w o segs)[i]? = some a)
    (h2' : (trace w o segs)[i + 1]? = some b) : b.origin = nextOrigin w s s' a.origin := by
  induction segs generalizing o i with
  | nil => simp at h1
  | cons t l ih =>
    cases l with
    | nil => simp at h1'
    | cons t' l =>
      cases i with
      | zero =>
        simp only [trace, List.getElem?_cons_succ] at h1' h2 h2'
        rw [trace_head] at h2'
        simp at h1 h1' h2 h2'
        subst h1 h1' h2 h2'
        rfl
      | succ i =>
        simp only [trace, List.getElem?_cons_succ] at h1 h1' h2 h2'
        exact ih _ _ h1 (by simpa using h1') h2 (by simpa using h2')

/-- The distance across the span between two segments: half the projected span of a symmetric wing, the
whole span of another, times the difference of the locations. -/
noncomputable def reach (w : Wing) (s s' : Seg) : ℝ :=
  (if w.symmetric then w.span / 2 else w.span) * (s'.loc - s.loc)

/-- The distance from the root of an unsegmented wing to its tip. -/
noncomputable def halfSpan (w : Wing) : ℝ := if w.symmetric then w.span / 2 else w.span

theorem semispan_eq (w : Wing) : semispan w = halfSpan w := by
  unfold semispan halfSpan
  cases w.symmetric
  · simp only [Bool.false_eq_true, if_false]; norm_num; ring
  · simp only [if_true]; norm_num; ring

theorem reach_eq (w : Wing) (s s' : Seg) : semispan w * (s'.loc - s.loc) = reach w s s' := by
  rw [semispan_eq]; rfl

/-- **C306 (part).**  A wing given by segments, without control surfaces and with no panel that falls
outboard, is handed over with one section for each segment, of the chord and twist of the segment; each
section lies outboard of the one before by the span of the panel between them, and higher by that span
times the tangent of the dihedral.  What is missing: panels with anhedral
(`C306_anhedral_counterexample`), and the sweep of panels with dihedral (`C306_sweep_counterexample`). -/
theorem C306_sections_partial (w : Wing) (segs : List Seg) (hne : segs ≠ []) (hs : w.surfaces = [])
    (hv : w.vertical = false) (hd : ∀ s ∈ segs, 0 ≤ s.dihedral) :
    ∃ out, wingSections w segs = some out ∧ out.length = segs.length ∧
      (∀ a : Sec, out[0]? = some a → a.origin = w.origin) ∧
      (∀ (i : ℕ) (s : Seg) (a : Sec), segs[i]? = some s → out[i]? = some a →
        a.chord = w.rootChord * s.chordPct ∧ a.twist * (π / 180) = s.twist ∧ a.controls = []) ∧
      (∀ (i : ℕ) (s s' : Seg) (a b : Sec), segs[i]? = some s → segs[i + 1]? = some s' → out[i]? = some a →
        out[i + 1]? = some b →
        b.origin.y = a.origin.y + reach w s s' ∧
        b.origin.z = a.origin.z + reach w s s' * tan s.dihedral ∧
        (∀ le, s.sweepLe = some le →
          b.origin.x = a.origin.x + reach w s s' / cos s.dihedral * tan le) ∧
        (s.sweepLe = none → reach w s s' ≠ 0 → s.dihedral = 0 →
          b.origin.x + b.chord / 4 = a.origin.x + a.chord / 4 + reach w s s' * tan s.sweepQc)) := by
  refine ⟨trace w w.origin segs, ?_, trace_length _ _ _, ?_, ?_, ?_⟩
  · simp only [wingSections, if_neg hne, segLoop_trace w hs, List.nil_append]
  · intro a ha
    cases segs with
    | nil => exact absurd rfl hne
    | cons s l =>
      rw [trace_head] at ha
      simp at ha
      subst ha
      rfl
  · intro i s a h1 h2
    have h := trace_section w segs _ i s a h1 h2
    rw [h]
    refine ⟨rfl, ?_, rfl⟩
    simp only [segSection, deg]
    exact div_mul_cancel₀ _ (by positivity)
  · intro i s s' a b h1 h1' h2 h2'
    have hb := trace_step w segs _ i s s' a b h1 h1' h2 h2'
    have ha := trace_section w segs _ i s a h1 h2
    have hb' := trace_section w segs _ (i + 1) s' b h1' h2'
    have hd' := hd s (List.mem_of_getElem? h1)
    have hc : a.chord = w.rootChord * s.chordPct := by rw [ha]; rfl
    have hc' : b.chord = w.rootChord * s'.chordPct := by rw [hb']; rfl
    simp only [nextOrigin, Pt.add, along, hv, inverted_dihedral hd', one_mul, reach_eq] at hb
    rw [hb, hc, hc']
    refine ⟨rfl, rfl, ?_, ?_⟩
    · intro le hle
      simp [segSweep, leSweep, hle]
    · intro hn hr h0
      simp only [segSweep, leSweep, hn, reach_eq, tan_arctan, h0, cos_zero, div_one]
      simp only [Bool.false_eq_true, if_false]
      generalize reach w s s' = r at *
      field_simp
      ring

example : ∃ segs : List Seg, segs ≠ [] ∧ ∀ s ∈ segs, 0 ≤ s.dihedral :=
  ⟨[⟨0, 1, 0, 0.1, 0.3, none⟩, ⟨1, 0.4, 0, 0, 0, none⟩], by simp, by simp; norm_num⟩

/-- **C306 (part): vertical tails.**  The same for a vertical surface: the sections rise by the span of
the panel and lean by the tangent of the dihedral, for any dihedral below a right angle. -/
theorem C306_vertical_partial (w : Wing) (segs : List Seg) (hne : segs ≠ []) (hs : w.surfaces = [])
    (hv : w.vertical = true) (hd : ∀ s ∈ segs, |s.dihedral| < π / 2) :
    ∃ out, wingSections w segs = some out ∧ out.length = segs.length ∧
      (∀ (i : ℕ) (s s' : Seg) (a b : Sec), segs[i]? = some s → segs[i + 1]? = some s' → out[i]? = some a →
        out[i + 1]? = some b →
        b.origin.z = a.origin.z + reach w s s' ∧
        b.origin.y = a.origin.y + reach w s s' * tan s.dihedral ∧
        (∀ le, s.sweepLe = some le →
          b.origin.x = a.origin.x + reach w s s' / cos s.dihedral * tan le) ∧
        (s.sweepLe = none → reach w s s' ≠ 0 → s.dihedral = 0 →
          b.origin.x + b.chord / 4 = a.origin.x + a.chord / 4 + reach w s s' * tan s.sweepQc)) := by
  refine ⟨trace w w.origin segs, ?_, trace_length _ _ _, ?_⟩
  · simp only [wingSections, if_neg hne, segLoop_trace w hs, List.nil_append]
  · intro i s s' a b h1 h1' h2 h2'
    have hb := trace_step w segs _ i s s' a b h1 h1' h2 h2'
    have ha := trace_section w segs _ i s a h1 h2
    have hb' := trace_section w segs _ (i + 1) s' b h1' h2'
    have hd' := hd s (List.mem_of_getElem? h1)
    have hc : a.chord = w.rootChord * s.chordPct := by rw [ha]; rfl
    have hc' : b.chord = w.rootChord * s'.chordPct := by rw [hb']; rfl
    simp only [nextOrigin, Pt.add, along, hv, inverted_vertical hd', one_mul, reach_eq] at hb
    rw [hb, hc, hc']
    refine ⟨rfl, rfl, ?_, ?_⟩
    · intro le hle
      simp [segSweep, leSweep, hle]
    · intro hn hr h0
      simp only [segSweep, leSweep, hn, reach_eq, tan_arctan, h0, cos_zero, div_one]
      simp only [if_true]
      generalize reach w s s' = r at *
      field_simp
      ring

/-- **C306: wings without segments.**  A wing without segments and control surfaces is handed over as its
root and its tip; the tip lies half a span outboard, higher by the tangent of the dihedral (of either
sign) and behind by the tangent of the leading edge sweep. -/
theorem C306_plain (w : Wing) (hs : w.surfaces = []) (hv : w.vertical = false) :
    ∃ root tip, wingSections w [] = some [root, tip] ∧ root.origin = w.origin ∧
      root.chord = w.rootChord ∧ tip.chord = w.tipChord ∧
      root.twist * (π / 180) = w.rootTwist ∧ tip.twist * (π / 180) = w.tipTwist ∧
      tip.origin.y = w.origin.y + halfSpan w ∧
      tip.origin.z = w.origin.z + halfSpan w * tan w.dihedral ∧
      (∀ le, w.sweepLe = some le → tip.origin.x = w.origin.x + halfSpan w * tan le) ∧
      (w.sweepLe = none → halfSpan w ≠ 0 →
        tip.origin.x + tip.chord / 4 = root.origin.x + root.chord / 4 + halfSpan w * tan w.sweepQc) := by
  have hst : ∀ p, stations w (semispan w) p = ∅ := by intro p; simp [stations, hs]
  refine ⟨⟨w.origin, w.rootChord, deg w.rootTwist, []⟩,
    ⟨⟨w.origin.x + halfSpan w * tan (leSweep w.sweepLe w.sweepQc w.rootChord w.tipChord (halfSpan w)),
      w.origin.y + halfSpan w, w.origin.z + halfSpan w * tan w.dihedral⟩, w.tipChord, deg w.tipTwist, []⟩,
    ?_, ?_⟩
  · simp only [wingSections, if_true, plainSections, appendSurfaces, hst, Finset.sort_empty,
      List.map_nil, List.append_nil, Finset.notMem_empty, if_false, Option.map_some, List.nil_append]
    simp only [hv, semispan_eq, Bool.false_eq_true, if_false]
  have hπ : π / 180 ≠ 0 := by positivity
  refine ⟨rfl, rfl, rfl, div_mul_cancel₀ _ hπ, div_mul_cancel₀ _ hπ, rfl, rfl, ?_, ?_⟩
  · intro le hle
    simp [leSweep, hle]
  · intro hn hr
    simp only [leSweep, hn, tan_arctan]
    generalize halfSpan w = r at *
    field_simp
    ring

/-- A wing with a leading edge sweep of 45 degrees and the given dihedral, half span 1. -/
noncomputable def swept (d : ℝ) : Wing :=
  ⟨2, true, false, 1, 1, 1, 0, 0, d, 0, some (π / 4), ⟨0, 0, 0⟩, []⟩

/-- The same wing as two segments. -/
noncomputable def sweptSegs (d : ℝ) : List Seg :=
  [⟨0, 1, 0, d, 0, some (π / 4)⟩, ⟨1, 1, 0, 0, 0, none⟩]

theorem swept_tip (d : ℝ) : ∃ root tip, wingSections (swept d) (sweptSegs d) = some [root, tip] ∧
    root.origin = ⟨0, 0, 0⟩ ∧
    tip.origin = ⟨inverted false d / cos d, inverted false d, inverted false d * tan d⟩ := by
  refine ⟨segSection (swept d) ⟨0, 1, 0, d, 0, some (π / 4)⟩ ⟨0, 0, 0⟩,
    segSection (swept d) ⟨1, 1, 0, 0, 0, none⟩ (nextOrigin (swept d) ⟨0, 1, 0, d, 0, some (π / 4)⟩
      ⟨1, 1, 0, 0, 0, none⟩ ⟨0, 0, 0⟩), ?_, rfl, ?_⟩
  · simp only [wingSections, sweptSegs]
    rw [segLoop_trace _ rfl]
    simp [trace, swept]
  · simp only [segSection, nextOrigin, Pt.add, along, segSweep, leSweep, swept, semispan, tan_pi_div_four]
    norm_num

/-- **C306: the leading edge of a wing with dihedral depends on how it is given.**  A wing with 45 degrees
of leading edge sweep, a half span of 1 and 60 degrees of dihedral has its tip 1 behind its root when
given without segments and 2 behind when given as two segments. -/
theorem C306_sweep_counterexample :
    ∃ (w : Wing) (segs : List Seg) (r t r' t' : Sec), wingSections w [] = some [r, t] ∧
      wingSections w segs = some [r', t'] ∧ r.origin = r'.origin ∧ r.chord = r'.chord ∧
      t.origin.y = t'.origin.y ∧ t.origin.x = 1 ∧ t'.origin.x = 2 := by
  obtain ⟨r, t, h1, h2, h3, -, -, -, h4, -, h5, -⟩ := C306_plain (swept (π / 3)) rfl rfl
  obtain ⟨r', t', h1', h2', h3'⟩ := swept_tip (π / 3)
  have hinv : inverted false (π / 3) = 1 := inverted_dihedral (by positivity)
  have hr' : r' = segSection (swept (π / 3)) ⟨0, 1, 0, π / 3, 0, some (π / 4)⟩ ⟨0, 0, 0⟩ := by
    have h := h1'
    simp only [wingSections, sweptSegs] at h
    rw [segLoop_trace _ rfl] at h
    simp [trace] at h
    exact h.1.symm
  refine ⟨_, _, r, t, r', t', h1, h1', ?_, ?_, ?_, ?_, ?_⟩
  · rw [h2, h2']; rfl
  · rw [h3, hr']; simp [segSection, swept]
  · rw [h4, h3', hinv]; simp [swept, halfSpan]
  · rw [h5 (π / 4) rfl]; simp [swept, halfSpan]
  · rw [h3', hinv]; simp [cos_pi_div_three]

/-- **C306: a panel with anhedral is handed over with dihedral and swept forward.**  For any anhedral
below a right angle the tip of a wing swept back by 45 degrees lies on the left, above the root and ahead
of it. -/
theorem C306_anhedral_counterexample (d : ℝ) (h1 : -(π / 2) < d) (h2 : d < 0) :
    ∃ root tip, wingSections (swept d) (sweptSegs d) = some [root, tip] ∧
      tip.origin.y = root.origin.y - 1 ∧ root.origin.z < tip.origin.z ∧
      tip.origin.x < root.origin.x := by
  obtain ⟨r, t, h, hr, ht⟩ := swept_tip d
  have hinv : inverted false d = -1 := by
    unfold inverted npSign
    simp [h2, not_lt.2 h2.le]
  have hc : 0 < cos d := cos_pos_of_mem_Ioo ⟨by linarith, by linarith⟩
  have htan : tan d < 0 := tan_neg_of_neg_of_pi_div_two_lt h2 (by linarith)
  refine ⟨r, t, h, ?_, ?_, ?_⟩
  · rw [hr, ht, hinv]; norm_num
  · rw [hr, ht, hinv]; simp only; linarith
  · rw [hr, ht, hinv]
    have : 0 < 1 / cos d := by positivity
    simp only [neg_div]
    linarith

example : -(π / 2) < -(π / 36) ∧ -(π / 36) < (0 : ℝ) := by
  constructor <;> linarith [pi_pos]

/-! ### C307: the sections of control surfaces -/

theorem mem_stations (w : Wing) (semi : ℝ) (p : Panel) (y : ℝ) :
    y ∈ stations w semi p ↔ (∃ s ∈ w.surfaces, y = semi * s.start ∨ y = semi * s.stop) ∧
      semi * p.rootLoc ≤ y ∧ y < semi * p.tipLoc := by
  simp only [stations, List.mem_toFinset, List.mem_filter, List.mem_flatMap, List.mem_cons,
    List.not_mem_nil, or_false, decide_eq_true_eq]
  exact and_congr_right fun _ => and_comm

theorem interp01_eq {f : ℝ} (h0 : 0 ≤ f) (h1 : f ≤ 1) (a b : ℝ) :
    interp01 f a b = a + (b - a) * f := by
  simp only [interp01, Num.npInterp]
  split_ifs with h2 h3
  · have : f = 0 := le_antisymm h2 h0
    simp [this]
  · simp
  · have : f = 1 := le_antisymm h1 (not_lt.1 h3)
    simp [this]

/-- **C307 (part).**  Between two segments of a wing the sections are cut, in order, exactly at the edges
of control surfaces that lie on the panel, its outer end excluded; each has the chord of the panel there
and, for a panel that does not fall outboard, lies on the line between the ends of the panel.  What is
missing: the twist (`C307_twist_counterexample`). -/
theorem C307_stations_partial (w : Wing) (s s' : Seg) (o : Pt) (acc : List Sec) (hacc : acc ≠ [])
    (hv : w.vertical = false) (hd : 0 ≤ s.dihedral) (hspan : 0 < semispan w) (hloc : s.loc < s'.loc) :
    ∃ kept new ys, appendSurfaces w (semispan w) (segPanel w s s' o) acc = some (kept ++ new) ∧
      (kept = acc ∨ kept = acc.dropLast) ∧
      (kept = acc.dropLast ↔ semispan w * s.loc ∈ ys) ∧
      ys.Pairwise (· < ·) ∧
      (∀ y, y ∈ ys ↔ (∃ c ∈ w.surfaces, y = semispan w * c.start ∨ y = semispan w * c.stop) ∧
        semispan w * s.loc ≤ y ∧ y < semispan w * s'.loc) ∧
      List.Forall₂ (fun y (a : Sec) => ∃ f, 0 ≤ f ∧ f < 1 ∧
        y = semispan w * ((1 - f) * s.loc + f * s'.loc) ∧
        a.chord = (1 - f) * (w.rootChord * s.chordPct) + f * (w.rootChord * s'.chordPct) ∧
        a.origin.x = (1 - f) * o.x + f * (nextOrigin w s s' o).x ∧
        a.origin.y = (1 - f) * o.y + f * (nextOrigin w s s' o).y ∧
        a.origin.z = (1 - f) * o.z + f * (nextOrigin w s s' o).z) ys new := by
  have hdl : acc.dropLast ≠ acc := by
    intro h
    have := congrArg List.length h
    rw [List.length_dropLast] at this
    have : 0 < acc.length := List.length_pos_iff.2 hacc
    omega
  refine ⟨if semispan w * s.loc ∈ stations w (semispan w) (segPanel w s s' o) then acc.dropLast else acc,
    ((stations w (semispan w) (segPanel w s s' o)).sort (· ≤ ·)).map
      (surfaceSection w (semispan w) (segPanel w s s' o)),
    (stations w (semispan w) (segPanel w s s' o)).sort (· ≤ ·), ?_, ?_, ?_, ?_, ?_, ?_⟩
  · by_cases h : semispan w * s.loc ∈ stations w (semispan w) (segPanel w s s' o)
    · have h' : semispan w * (segPanel w s s' o).rootLoc ∈
        stations w (semispan w) (segPanel w s s' o) := h
      simp only [appendSurfaces, if_pos h, if_pos h', if_neg hacc]
    · have h' : semispan w * (segPanel w s s' o).rootLoc ∉
        stations w (semispan w) (segPanel w s s' o) := h
      simp only [appendSurfaces, if_neg h, if_neg h']
  · split_ifs <;> simp
  · rw [Finset.mem_sort]
    split_ifs with h
    · simp [h]
    · simp [h, hdl.symm]
  · exact (Finset.sortedLT_sort _).pairwise
  · intro y
    rw [Finset.mem_sort, mem_stations]
    rfl
  · rw [List.forall₂_map_right_iff, List.forall₂_same]
    intro y hy
    rw [Finset.mem_sort, mem_stations] at hy
    obtain ⟨-, h1, h2⟩ := hy
    simp only [segPanel] at h1 h2
    have hden : 0 < semispan w * (s'.loc - s.loc) := mul_pos hspan (by linarith)
    set f := (y - semispan w * s.loc) / (semispan w * (s'.loc - s.loc)) with hf
    have hf0 : 0 ≤ f := div_nonneg (by linarith) hden.le
    have hf1 : f < 1 := by rw [hf, div_lt_one hden]; nlinarith
    have hfy : f * (semispan w * (s'.loc - s.loc)) = y - semispan w * s.loc := by
      rw [hf]; exact div_mul_cancel₀ _ hden.ne'
    refine ⟨f, hf0, hf1, by linarith, ?_, ?_, ?_, ?_⟩
    · simp only [surfaceSection, segPanel, ← hf, interp01_eq hf0 hf1.le]
      ring
    all_goals
      simp only [surfaceSection, segPanel, nextOrigin, Pt.add, along, hv, inverted_dihedral hd, one_mul,
        ← hfy]
      simp only [Bool.false_eq_true, if_false]
      ring

example : ∃ (w : Wing) (s s' : Seg), w.vertical = false ∧ 0 ≤ s.dihedral ∧ 0 < semispan w ∧
    s.loc < s'.loc :=
  ⟨swept 0, ⟨0, 1, 0, 0, 0, none⟩, ⟨1, 1, 0, 0, 0, none⟩, rfl, le_rfl, by norm_num [semispan, swept],
    by norm_num⟩

theorem controlsAt_mem (semi y : ℝ) (surfaces : List Surf) (c : Ctrl) :
    c ∈ controlsAt semi y surfaces ↔ ∃ s i, surfaces[i]? = some s ∧
      (semi * s.start = y ∨ y = semi * s.stop ∨ semi * s.start < y ∧ y < semi * s.stop) ∧
      c = ctrl s i := by
  simp only [controlsAt, List.mem_filterMap, Prod.exists, List.mk_mem_zipIdx_iff_getElem?]
  constructor
  · rintro ⟨s, i, h1, h2⟩
    refine ⟨s, i, h1, ?_⟩
    split_ifs at h2 with h3 h4
    · simp at h2; exact ⟨by tauto, h2.symm⟩
    · simp at h2; exact ⟨by tauto, h2.symm⟩
  · rintro ⟨s, i, h1, h2, h3⟩
    refine ⟨s, i, h1, ?_⟩
    split_ifs with h4 h5
    · simp [h3]
    · simp [h3]
    · tauto

/-- **C307: which control surfaces a section carries.**  The section cut at a station carries the `i`-th
control surface exactly when the station lies on that surface, its edges included; ailerons are mirrored
with the opposite sign and slats hinge at the nose. -/
theorem C307_controls (w : Wing) (semi : ℝ) (p : Panel) (y : ℝ)
    (hs : ∀ s ∈ w.surfaces, semi * s.start ≤ semi * s.stop) (c : Ctrl) :
    c ∈ (surfaceSection w semi p y).controls ↔ ∃ s, w.surfaces[c.order]? = some s ∧
      semi * s.start ≤ y ∧ y ≤ semi * s.stop ∧ c.deflection * (π / 180) = s.deflection ∧
      (c.dup = -1 ∧ s.kind = .aileron ∨ c.dup = 1 ∧ s.kind ≠ .aileron) ∧
      (c.hinge = -s.chordFraction ∧ s.kind = .slat ∨ c.hinge = 1 - s.chordFraction ∧ s.kind ≠ .slat) ∧
      (c.gain = -1 ∧ (s.kind = .aileron ∨ s.kind = .slat) ∨
        c.gain = 1 ∧ s.kind ≠ .aileron ∧ s.kind ≠ .slat) := by
  simp only [surfaceSection, controlsAt_mem]
  constructor
  · rintro ⟨s, i, h1, h2, rfl⟩
    have hle := hs s (List.mem_of_getElem? h1)
    refine ⟨s, h1, ?_, ?_, div_mul_cancel₀ _ (by positivity), ?_, ?_, ?_⟩
    · rcases h2 with h2 | h2 | h2
      · exact h2.le
      · exact hle.trans h2.ge
      · exact h2.1.le
    · rcases h2 with h2 | h2 | h2
      · exact h2.ge.trans hle
      · exact h2.le
      · exact h2.2.le
    all_goals simp only [ctrl]; rcases s.kind <;> simp
  · rintro ⟨s, h1, h2, h3, h4, h5, h6, h7⟩
    refine ⟨s, c.order, h1, ?_, ?_⟩
    · rcases h2.lt_or_eq with h | h
      · rcases h3.lt_or_eq with h' | h'
        · exact Or.inr (Or.inr ⟨h, h'⟩)
        · exact Or.inr (Or.inl h')
      · exact Or.inl h
    · cases c
      simp only [ctrl, Ctrl.mk.injEq, and_true] at *
      refine ⟨?_, ?_, ?_, ?_⟩
      · split_ifs with h <;> simp_all
      · split_ifs with h <;> simp_all
      · rw [← h4, deg]; field_simp
      · rcases h7 with ⟨h7, h⟩ | ⟨h7, h, h'⟩
        · rw [if_pos h, h7]
        · rw [if_neg (by tauto), h7]

/-- **C307: the twist at a control surface is wrong.**  On an untapered flat wing of chord 2 with one
radian of twist at both ends, the section cut half way carries one and a half. -/
theorem C307_twist_counterexample :
    ∃ (w : Wing) (p : Panel) (semi y : ℝ), w.rootChord = 2 ∧ p.rootTwist = 1 ∧ p.tipTwist = 1 ∧
      y ∈ stations w semi p ∧ (surfaceSection w semi p y).twist * (π / 180) = 1.5 := by
  refine ⟨⟨2, true, false, 2, 2, 1, 1, 1, 0, 0, some 0, ⟨0, 0, 0⟩, [⟨.flap, 1 / 2, 1, 0.25, 0⟩]⟩,
    ⟨1, 1, 0, 1, 1, 1, 0, 0, ⟨0, 0, 0⟩⟩, 1, 1 / 2, rfl, rfl, rfl, ?_, ?_⟩
  · rw [mem_stations]
    norm_num
  · simp only [surfaceSection]
    rw [interp01_eq (by norm_num) (by norm_num)]
    unfold deg
    field_simp
    norm_num

theorem segLoop_last (w : Wing) (segs : List Seg) (hne : segs ≠ []) (acc : List Sec) (o : Pt)
    (out : List Sec) (h : segLoop w acc o segs = some out) : ∃ a, out.getLast? = some a ∧
      a.controls = [] := by
  induction segs generalizing acc o with
  | nil => exact absurd rfl hne
  | cons s l ih =>
    cases l with
    | nil =>
      simp only [segLoop, Option.some.injEq] at h
      subst h
      exact ⟨segSection w s o, by simp, rfl⟩
    | cons s' l =>
      simp only [segLoop, Option.bind_eq_some_iff] at h
      obtain ⟨a, -, h⟩ := h
      exact ih (by simp) _ _ h

/-- **C307: no control surface reaches the tip.**  Whatever the control surfaces of a wing given by
segments, the last section carries none; AVL deflects a surface only between two sections that both carry
it, so a surface that ends at the tip ends at the last cut before it. -/
theorem C307_tip_counterexample (w : Wing) (segs : List Seg) (hne : segs ≠ []) (out : List Sec)
    (h : wingSections w segs = some out) : ∃ a, out.getLast? = some a ∧ a.controls = [] := by
  simp only [wingSections, if_neg hne] at h
  exact segLoop_last w segs hne _ _ _ h

/-- **C307: a control surface across a break of the wing disappears.**  A flap from 20% to 80% of a wing
with a break half way: the five sections are the root, the inner edge, the break, the outer edge and the
tip, and the break carries no control surface, so no two neighbours carry the flap. -/
theorem C307_break_counterexample :
    ∃ (w : Wing) (segs : List Seg) (a b c d e : Sec),
      w.surfaces = [⟨.flap, 0.2, 0.8, 0.25, 0⟩] ∧
      wingSections w segs = some [a, b, c, d, e] ∧ a.origin.y = 0 ∧ b.origin.y = 0.2 ∧
      c.origin.y = 0.5 ∧ d.origin.y = 0.8 ∧ e.origin.y = 1 ∧
      a.controls = [] ∧ b.controls.length = 1 ∧ c.controls = [] ∧ d.controls.length = 1 ∧
      e.controls = [] := by
  let w : Wing := ⟨2, true, false, 1, 1, 1, 0, 0, 0, 0, some 0, ⟨0, 0, 0⟩, [⟨.flap, 0.2, 0.8, 0.25, 0⟩]⟩
  let s0 : Seg := ⟨0, 1, 0, 0, 0, some 0⟩
  let s1 : Seg := ⟨0.5, 1, 0, 0, 0, some 0⟩
  let s2 : Seg := ⟨1, 1, 0, 0, 0, some 0⟩
  have hsemi : semispan w = 1 := by norm_num [semispan, w]
  have hst0 : ∀ o, stations w 1 (segPanel w s0 s1 o) = {0.2} := by
    intro o
    ext y
    rw [mem_stations]
    simp only [w, segPanel, s0, s1, List.mem_singleton, exists_eq_left, Finset.mem_singleton]
    constructor
    · rintro ⟨h | h, h1, h2⟩
      · rw [h]; norm_num
      · rw [h] at h2; norm_num at h2
    · rintro rfl
      norm_num
  have hst1 : ∀ o, stations w 1 (segPanel w s1 s2 o) = {0.8} := by
    intro o
    ext y
    rw [mem_stations]
    simp only [w, segPanel, s1, s2, List.mem_singleton, exists_eq_left, Finset.mem_singleton]
    constructor
    · rintro ⟨h | h, h1, h2⟩
      · rw [h] at h1; norm_num at h1
      · rw [h]; norm_num
    · rintro rfl
      norm_num
  have hne : w.surfaces ≠ [] := by simp [w]
  have hc2 : (controlsAt 1 0.2 w.surfaces).length = 1 := by
    simp [controlsAt, w]
  have hc8 : (controlsAt 1 0.8 w.surfaces).length = 1 := by
    simp [controlsAt, w]
  have hn0 : ∀ o, nextOrigin w s0 s1 o = ⟨o.x, o.y + 0.5, o.z⟩ := by
    intro o
    simp [nextOrigin, Pt.add, along, w, s0, s1, inverted, npSign, segSweep, leSweep, semispan]
    norm_num
  have hn1 : ∀ o, nextOrigin w s1 s2 o = ⟨o.x, o.y + 0.5, o.z⟩ := by
    intro o
    simp [nextOrigin, Pt.add, along, w, s1, s2, inverted, npSign, segSweep, leSweep, semispan]
    norm_num
  refine ⟨w, [s0, s1, s2], segSection w s0 ⟨0, 0, 0⟩,
    surfaceSection w 1 (segPanel w s0 s1 ⟨0, 0, 0⟩) 0.2, segSection w s1 ⟨0, 0 + 0.5, 0⟩,
    surfaceSection w 1 (segPanel w s1 s2 ⟨0, 0 + 0.5, 0⟩) 0.8, segSection w s2 ⟨0, 0 + 0.5 + 0.5, 0⟩,
    rfl, ?_, rfl, ?_, ?_, ?_, ?_, rfl, hc2, rfl, hc8, rfl⟩
  · have h0 : (1 : ℝ) * (segPanel w s0 s1 ⟨0, 0, 0⟩).rootLoc ∉ ({0.2} : Finset ℝ) := by
      simp [segPanel, s0]
      norm_num
    have h1 : (1 : ℝ) * (segPanel w s1 s2 ⟨0, 0 + 0.5, 0⟩).rootLoc ∉ ({0.8} : Finset ℝ) := by
      simp [segPanel, s1]
      norm_num
    have ho : w.origin = ⟨0, 0, 0⟩ := rfl
    simp only [wingSections, segLoop, if_neg hne, hsemi, appendSurfaces, hst0, hst1, ho, hn0, hn1,
      Finset.sort_singleton, List.map_cons, List.map_nil, if_neg h0, if_neg h1, Option.bind_some]
    simp
  · simp [surfaceSection, Pt.add, along, segPanel, w, s0, inverted, npSign]
  · norm_num [segSection]
  · simp [surfaceSection, Pt.add, along, segPanel, w, s1, inverted, npSign]
  · norm_num [segSection]

/-! ### C308: exporting does not fail -/

theorem segLoop_some (w : Wing) (segs : List Seg) (acc : List Sec) (o : Pt) :
    (segLoop w acc o segs).isSome := by
  induction segs generalizing acc o with
  | nil => simp [segLoop]
  | cons s l ih =>
    cases l with
    | nil => simp [segLoop]
    | cons s' l =>
      simp only [segLoop, appendSurfaces]
      split_ifs with h1 h2 h3
      · simp [ih]
      · simp at h3
      · simp [ih]
      · simp [ih]

/-- **C308 (part).**  A wing given by segments is always exported. -/
theorem C308_segments_partial (w : Wing) (segs : List Seg) (hne : segs ≠ []) :
    (wingSections w segs).isSome := by
  simp only [wingSections, if_neg hne]
  exact segLoop_some w segs _ _

/-- **C308: which wings cannot be exported.**  A wing without segments fails to export exactly when one of
its control surfaces starts or ends at the root. -/
theorem C308_plain_counterexample (w : Wing) (hspan : 0 < w.span) :
    wingSections w [] = none ↔ ∃ s ∈ w.surfaces, s.start = 0 ∨ s.stop = 0 := by
  have hs : 0 < semispan w := by
    rw [semispan_eq, halfSpan]
    split_ifs <;> linarith
  simp only [wingSections, if_true, plainSections, appendSurfaces, Option.map_eq_none_iff]
  constructor
  · intro h
    split_ifs at h with h1
    rw [mem_stations] at h1
    simp only [mul_zero, mul_one, le_refl, hs, and_true] at h1
    obtain ⟨s, hm, h⟩ := h1
    refine ⟨s, hm, h.imp (fun h => ?_) (fun h => ?_)⟩
    · exact (mul_eq_zero.1 h.symm).resolve_left hs.ne'
    · exact (mul_eq_zero.1 h.symm).resolve_left hs.ne'
  · rintro ⟨s, hm, h⟩
    rw [if_pos]
    rw [mem_stations]
    simp only [mul_zero, mul_one, le_refl, hs, and_true]
    exact ⟨s, hm, by rcases h with h | h <;> simp [h]⟩

example : ∃ w : Wing, 0 < w.span ∧ ∃ s ∈ w.surfaces, s.start = 0 ∨ s.stop = 0 :=
  ⟨⟨2, true, false, 1, 1, 1, 0, 0, 0, 0, some 0, ⟨0, 0, 0⟩, [⟨.elevator, 0, 1, 0.25, 0⟩]⟩,
    by norm_num, _, List.mem_singleton_self _, Or.inl rfl⟩

/-! ### C309: bodies -/

theorem curvature_bounds (f : ℝ) : 1 ≤ curvature f ∧ curvature f ≤ 2 := by
  unfold curvature
  generalize Num.npInterp [(1, 0), (1.57, 1 / 3), (3.2, 2 / 3), (8, 1)] f = x
  simp only [Num.npInterp]
  split_ifs with h1 h2 h3 h4 h5 h6 <;> constructor <;> norm_num at * <;> linarith

theorem endLength_bounds {y semi n len : ℝ} (hn : 1 ≤ n) (hy : |y| ≤ semi) (hs : 0 < semi)
    (hl : 0 ≤ len) : 0 ≤ endLength y semi n len ∧ endLength y semi n len ≤ len := by
  have h0 : 0 ≤ |y / semi| := abs_nonneg _
  have h1 : |y / semi| ≤ 1 := by rw [abs_div, abs_of_pos hs, div_le_one hs]; exact hy
  have h2 : 0 ≤ |y / semi| ^ n := rpow_nonneg h0 _
  have h3 : |y / semi| ^ n ≤ 1 := rpow_le_one h0 h1 (by linarith)
  have h4 : 0 ≤ (1 - |y / semi| ^ n) ^ (1 / n) := rpow_nonneg (by linarith) _
  have h5 : (1 - |y / semi| ^ n) ^ (1 / n) ≤ 1 := rpow_le_one (by linarith) (by linarith) (by positivity)
  unfold endLength
  exact ⟨mul_nonneg h4 hl, by nlinarith⟩

theorem endLength_anti {y y' semi n len : ℝ} (hn : 1 ≤ n) (hy : |y| ≤ |y'|) (hy' : |y'| ≤ semi)
    (hs : 0 < semi) (hl : 0 ≤ len) : endLength y' semi n len ≤ endLength y semi n len := by
  have h1 : |y' / semi| ≤ 1 := by rw [abs_div, abs_of_pos hs, div_le_one hs]; exact hy'
  have h2 : |y / semi| ≤ |y' / semi| := by
    rw [abs_div, abs_div, abs_of_pos hs]; gcongr
  have h3 : |y / semi| ^ n ≤ |y' / semi| ^ n := rpow_le_rpow (abs_nonneg _) h2 (by linarith)
  have h4 : |y' / semi| ^ n ≤ 1 := rpow_le_one (abs_nonneg _) h1 (by linarith)
  unfold endLength
  apply mul_le_mul_of_nonneg_right _ hl
  exact rpow_le_rpow (by linarith) (by linarith) (by positivity)

/-- **C309.**  The sections that stand for a fuselage lie inside its length and its width: eleven of them
from one side to the other, symmetric about the middle one, which spans the whole length; nearer to the
side they start later, end earlier and are shorter; the outermost ones span the cabin only. -/
theorem C309_body (b : Body) (hs : 0 < b.semi) (hn : 0 ≤ b.nose) (ht : 0 ≤ b.tail)
    (hcab : b.nose + b.tail ≤ b.total) :
    (bodySections b).length = 11 ∧
    (∀ p ∈ bodySections b, |p.1| ≤ b.semi ∧ 0 ≤ p.2.1 ∧ 0 ≤ p.2.2 ∧ p.2.1 + p.2.2 ≤ b.total ∧
      (-p.1, p.2) ∈ bodySections b) ∧
    (∀ p ∈ bodySections b, ∀ q ∈ bodySections b, |p.1| ≤ |q.1| →
      p.2.1 ≤ q.2.1 ∧ q.2.1 + q.2.2 ≤ p.2.1 + p.2.2 ∧ q.2.2 ≤ p.2.2) ∧
    (0, 0, b.total) ∈ bodySections b ∧
    (b.semi, b.nose, b.total - (b.nose + b.tail)) ∈ bodySections b := by
  have hmem : ∀ p, p ∈ bodySections b ↔ ∃ i : ℕ, i < 11 ∧
      p = (-b.semi + 2 * b.semi / 10 * i, bodySection b (-b.semi + 2 * b.semi / 10 * i)) := by
    intro p
    simp only [bodySections, if_neg hs.ne', bodyStations, List.map_map, List.mem_map, List.mem_range,
      Function.comp]
    constructor
    · rintro ⟨i, hi, h⟩; exact ⟨i, hi, h.symm⟩
    · rintro ⟨i, hi, h⟩; exact ⟨i, hi, h.symm⟩
  have hrange : ∀ i : ℕ, i < 11 → |-b.semi + 2 * b.semi / 10 * (i : ℝ)| ≤ b.semi := by
    intro i hi
    have h1 : (i : ℝ) ≤ 10 := by exact_mod_cast Nat.lt_succ_iff.1 hi
    have h0 : (0 : ℝ) ≤ i := Nat.cast_nonneg i
    rw [abs_le]
    constructor <;> nlinarith
  have hneg : ∀ y, bodySection b (-y) = bodySection b y := by
    intro y; simp [bodySection, endLength, neg_div, abs_neg]
  have hcN := curvature_bounds b.fineNose
  have hcT := curvature_bounds b.fineTail
  refine ⟨by simp [bodySections, hs.ne', bodyStations], ?_, ?_, ?_, ?_⟩
  · intro p hp
    obtain ⟨i, hi, rfl⟩ := (hmem p).1 hp
    have hr := hrange i hi
    have h1 := endLength_bounds hcN.1 hr hs hn
    have h2 := endLength_bounds hcT.1 hr hs ht
    refine ⟨hr, ?_, ?_, ?_, ?_⟩
    · simp only [bodySection]; linarith
    · simp only [bodySection]; linarith
    · simp only [bodySection]; linarith
    · refine (hmem _).2 ⟨10 - i, by omega, ?_⟩
      have hc : ((10 - i : ℕ) : ℝ) = 10 - i := by
        rw [Nat.cast_sub (by omega)]; norm_num
      have he : -b.semi + 2 * b.semi / 10 * ((10 - i : ℕ) : ℝ) = -(-b.semi + 2 * b.semi / 10 * (i : ℝ)) := by
        rw [hc]; ring
      rw [he, hneg]
  · intro p hp q hq hpq
    obtain ⟨i, hi, rfl⟩ := (hmem p).1 hp
    obtain ⟨j, hj, rfl⟩ := (hmem q).1 hq
    have h1 := endLength_anti hcN.1 hpq (hrange j hj) hs hn
    have h2 := endLength_anti hcT.1 hpq (hrange j hj) hs ht
    simp only [bodySection]
    exact ⟨by linarith, by linarith, by linarith⟩
  · refine (hmem _).2 ⟨5, by norm_num, ?_⟩
    have h0 : -b.semi + 2 * b.semi / 10 * ((5 : ℕ) : ℝ) = 0 := by push_cast; ring
    rw [h0]
    have hp : ∀ n len : ℝ, 1 ≤ n → endLength 0 b.semi n len = len := by
      intro n len hn
      unfold endLength
      rw [zero_div, abs_zero, zero_rpow (by linarith), sub_zero, one_rpow, one_mul]
    simp only [bodySection, hp _ _ hcN.1, hp _ _ hcT.1]
    ext <;> simp
    ring
  · refine (hmem _).2 ⟨10, by norm_num, ?_⟩
    have h0 : -b.semi + 2 * b.semi / 10 * ((10 : ℕ) : ℝ) = b.semi := by push_cast; ring
    rw [h0]
    have hp : ∀ n len : ℝ, 1 ≤ n → endLength b.semi b.semi n len = 0 := by
      intro n len hn
      unfold endLength
      rw [div_self hs.ne', abs_one, one_rpow, sub_self, zero_rpow (by positivity), zero_mul]
    simp only [bodySection, hp _ _ hcN.1, hp _ _ hcT.1]
    ext <;> simp

example : ∃ b : Body, 0 < b.semi ∧ 0 ≤ b.nose ∧ 0 ≤ b.tail ∧ b.nose + b.tail ≤ b.total :=
  ⟨⟨30, 4, 6, 2, 1.5, 2.5⟩, by norm_num, by norm_num, by norm_num, by norm_num⟩

end Verif.Avl
