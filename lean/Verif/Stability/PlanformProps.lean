import Verif.Stability.Planform
import Mathlib.Analysis.SpecialFunctions.Integrals.Basic
import Mathlib.Tactic.FieldSimp
import Mathlib.Tactic.LinearCombination

/-!
C168–C170: sweep conversion, extension to the centre line, mean aerodynamic chord and aerodynamic centre
against the geometry of a trapezoid.
-/

namespace Verif.Stability
open Real

/-! ### Specification: one panel of a trapezoidal wing -/

/-- One panel: root chord, tip chord, height and how far the tip leading edge lies behind the root leading
edge. -/
structure Panel where
  cr : ℝ
  ct : ℝ
  h : ℝ
  xt : ℝ

structure Panel.Ok (p : Panel) : Prop where
  cr : 0 < p.cr
  ct : 0 ≤ p.ct
  h : 0 < p.h

/-- Position along the stream of the point at fraction `n` of the chord and height `y` above the root. -/
noncomputable def Panel.at (p : Panel) (n y : ℝ) : ℝ :=
  (1 - y / p.h) * (n * p.cr) + y / p.h * (p.xt + n * p.ct)

/-- Chord at height `y`. -/
noncomputable def Panel.chord (p : Panel) (y : ℝ) : ℝ := p.at 1 y - p.at 0 y

/-- Tangent of the sweep of the line at fraction `n` of the chord. -/
noncomputable def Panel.slope (p : Panel) (n : ℝ) : ℝ := (p.at n p.h - p.at n 0) / p.h

/-- Area of one panel. -/
noncomputable def Panel.area (p : Panel) : ℝ := p.h * (p.cr + p.ct) / 2

theorem Panel.slope_eq (p : Panel) (hp : p.Ok) (n : ℝ) : p.slope n = (p.xt - n * (p.cr - p.ct)) / p.h := by
  have := hp.h.ne'
  unfold Panel.slope Panel.at; field_simp; ring

theorem Panel.chord_eq (p : Panel) (hp : p.Ok) (y : ℝ) : p.chord y = p.cr + (p.ct - p.cr) / p.h * y := by
  have := hp.h.ne'
  unfold Panel.chord Panel.at; field_simp; ring

/-! ### C168 -/

/-- The tangent of an angle the functions return. -/
theorem tan_convert (w : SweepWing) (old new : ℝ) :
    ∃ t, (old = 0 → t = tan w.leading) ∧
      (old ≠ 0 → t = tan w.quarter + 4 * old * (1 - w.taper) / (w.arUsed * (1 + w.taper))) ∧
      convertSweep w old new = arctan (t - 4 * new * (1 - w.taper) / (w.arUsed * (1 + w.taper))) := by
  by_cases h : old = 0
  · exact ⟨tan w.leading, fun _ => rfl, fun h' => absurd h h', by simp [convertSweep, h]⟩
  · refine ⟨_, fun h' => absurd h' h, fun _ => rfl, ?_⟩
    simp only [convertSweep, if_neg h, Real.tan_arctan]

/-- A wing description that fits a symmetric wing of two such panels. -/
structure Fits (w : SweepWing) (p : Panel) : Prop where
  taper : w.taper = p.ct / p.cr
  quarter : tan w.quarter = p.slope (1 / 4)
  leading : tan w.leading = p.slope 0
  ar : w.arUsed = (2 * p.h) ^ 2 / (2 * p.area)

theorem fits_offset (w : SweepWing) (p : Panel) (hp : p.Ok) (hf : Fits w p) (n : ℝ) :
    4 * n * (1 - w.taper) / (w.arUsed * (1 + w.taper)) = n * (p.cr - p.ct) / p.h := by
  have h1 := hp.cr.ne'; have h2 := hp.h.ne'
  have h3 : p.cr + p.ct ≠ 0 := by have := hp.cr; have := hp.ct; positivity
  rw [hf.taper, hf.ar, Panel.area]
  field_simp; ring

/-- The converted angle is the sweep of the line at the new chord fraction, from the quarter chord or from
the leading edge. -/
theorem C168_convert (w : SweepWing) (p : Panel) (hp : p.Ok) (hf : Fits w p) (old new : ℝ)
    (ho : old = 0 ∨ old = 1 / 4) :
    convertSweep w old new = arctan (p.slope new) := by
  obtain ⟨t, t0, t1, e⟩ := tan_convert w old new
  rw [e, fits_offset w p hp hf]
  have h2 := hp.h.ne'
  congr 1
  rcases ho with rfl | rfl
  · rw [t0 rfl, hf.leading, p.slope_eq hp, p.slope_eq hp]; ring
  · rw [t1 (by norm_num), fits_offset w p hp hf, hf.quarter, p.slope_eq hp, p.slope_eq hp]; ring

/-- In particular the quarter-chord sweep converted to the quarter chord is unchanged. -/
theorem C168_same (w : SweepWing) (hq : |w.quarter| < π / 2) : convertSweep w (1 / 4) (1 / 4) = w.quarter := by
  obtain ⟨t, _, t1, e⟩ := tan_convert w (1 / 4) (1 / 4)
  rw [e, t1 (by norm_num), add_sub_cancel_right, Real.arctan_tan] <;>
    linarith [abs_lt.1 hq]

/-- The result is always a proper sweep angle. -/
theorem C168_range (w : SweepWing) (old new : ℝ) : |convertSweep w old new| < π / 2 := by
  obtain ⟨t, _, _, e⟩ := tan_convert w old new
  rw [e, abs_lt]
  exact ⟨Real.neg_pi_div_two_lt_arctan _, Real.arctan_lt_pi_div_two _⟩

/-- For a tapered wing the lines further back are swept less. -/
theorem C168_further_back (w : SweepWing) (p : Panel) (hp : p.Ok) (hf : Fits w p) (ht : p.ct < p.cr) (old n m : ℝ)
    (ho : old = 0 ∨ old = 1 / 4) (hnm : n < m) : convertSweep w old m < convertSweep w old n := by
  rw [C168_convert w p hp hf old m ho, C168_convert w p hp hf old n ho]
  apply Real.arctan_strictMono
  rw [p.slope_eq hp, p.slope_eq hp]
  have := hp.h
  apply div_lt_div_of_pos_right _ this
  nlinarith

/-- A wing segment fits the panel between its two stations; a single (non-symmetric) surface has half as many
panels per span. -/
structure SegFits (a b : SweepSeg) (cRoot span : ℝ) (symm : Bool) (p : Panel) : Prop where
  cr : p.cr = a.rootChordPercent * cRoot
  ct : p.ct = b.rootChordPercent * cRoot
  h : p.h = (b.percentSpan - a.percentSpan) * (if symm then span / 2 else span)

/-- Segment by segment the conversion is right for symmetric wings and for single surfaces, between any two chord
fractions. -/
theorem C168_segments (p : Panel) (hp : p.Ok) (a b : SweepSeg) (cRoot span : ℝ) (symm : Bool)
    (hf : SegFits a b cRoot span symm p) (old new : ℝ) :
    convertSweepSegments (arctan (p.slope old)) a b cRoot span symm old new = arctan (p.slope new) := by
  by_cases hon : old = new
  · subst hon; simp [convertSweepSegments]
  have key : ∀ n : ℝ, 4 * n * (1 - b.rootChordPercent * cRoot / (a.rootChordPercent * cRoot)) /
      ((if symm then span else span * 2) * (b.percentSpan - a.percentSpan) /
        (0.5 * (a.rootChordPercent * cRoot + b.rootChordPercent * cRoot)) *
        (1 + b.rootChordPercent * cRoot / (a.rootChordPercent * cRoot))) = n * (p.cr - p.ct) / p.h := by
    intro n
    have hs : (if symm then span else span * 2) * (b.percentSpan - a.percentSpan) = 2 * p.h := by
      rw [hf.h]; cases symm <;> simp <;> ring
    rw [hs, ← hf.cr, ← hf.ct]
    have h1 := hp.cr.ne'; have h2 := hp.h.ne'
    have h3 : p.cr + p.ct ≠ 0 := by have := hp.cr; have := hp.ct; positivity
    field_simp; ring
  unfold convertSweepSegments
  simp only [if_neg hon, key]
  congr 1
  split_ifs with h0
  · subst h0
    rw [Real.tan_arctan, p.slope_eq hp, p.slope_eq hp]; ring
  · rw [Real.tan_arctan, Real.tan_arctan, p.slope_eq hp, p.slope_eq hp]; ring

/-- There and back again. -/
theorem C168_segments_back (p : Panel) (hp : p.Ok) (a b : SweepSeg) (cRoot span : ℝ) (symm : Bool)
    (hf : SegFits a b cRoot span symm p) (old new : ℝ) :
    convertSweepSegments (convertSweepSegments (arctan (p.slope old)) a b cRoot span symm old new) a b cRoot span
      symm new old = arctan (p.slope old) := by
  rw [C168_segments p hp a b cRoot span symm hf, C168_segments p hp a b cRoot span symm hf]

/-- A single surface (a fin) described by its own span and area: one panel, aspect ratio `h² / area`. -/
structure FitsFin (w : SweepWing) (p : Panel) : Prop where
  taper : w.taper = p.ct / p.cr
  quarter : tan w.quarter = p.slope (1 / 4)
  leading : tan w.leading = p.slope 0
  ar : w.arUsed = p.h ^ 2 / p.area

/-- `convert_sweep` is wrong for a fin: root chord 2, tip chord 1, height 2, unswept leading edge. The
quarter-chord line has slope -1/8, the function answers -1/4. -/
theorem C168_fin_counterexample :
    ∃ (w : SweepWing) (p : Panel), p.Ok ∧ FitsFin w p ∧ convertSweep w 0 (1 / 4) ≠ arctan (p.slope (1 / 4)) := by
  refine ⟨⟨arctan (-1 / 8), 0, 1 / 2, 4 / 3, none, none⟩, ⟨2, 1, 2, 0⟩, ⟨by norm_num, by norm_num, by norm_num⟩,
    ⟨by norm_num, ?_, ?_, ?_⟩, ?_⟩
  · rw [Real.tan_arctan]; norm_num [Panel.slope, Panel.at]
  · norm_num [Panel.slope, Panel.at]
  · norm_num [SweepWing.arUsed, Panel.area]
  · intro h
    simp only [convertSweep, if_pos, Real.tan_zero] at h
    have := Real.arctan_injective h
    norm_num [Panel.slope, Panel.at, SweepWing.arUsed] at this

/-- With an effective aspect ratio of twice the geometric one the fin is right as well. -/
theorem C168_fin_effective (w : SweepWing) (p : Panel) (hp : p.Ok) (old new : ℝ) (ho : old = 0 ∨ old = 1 / 4)
    (ht : w.taper = p.ct / p.cr) (hq : tan w.quarter = p.slope (1 / 4)) (hl : tan w.leading = p.slope 0)
    (he : w.effective = some (2 * (p.h ^ 2 / p.area))) : convertSweep w old new = arctan (p.slope new) := by
  refine C168_convert w p hp ⟨ht, hq, hl, ?_⟩ old new ho
  simp only [SweepWing.arUsed, he]
  have : p.area ≠ 0 := by
    have := hp.cr; have := hp.ct; have := hp.h
    unfold Panel.area; positivity
  field_simp

example : ∃ (w : SweepWing) (p : Panel), p.Ok ∧ Fits w p ∧ p.ct < p.cr := by
  refine ⟨⟨arctan (3 / 8), arctan (1 / 2), 1 / 2, 8 / 3, none, none⟩, ⟨2, 1, 2, 1⟩,
    ⟨by norm_num, by norm_num, by norm_num⟩, ⟨by norm_num, ?_, ?_, ?_⟩, by norm_num⟩
  · rw [Real.tan_arctan]; norm_num [Panel.slope, Panel.at]
  · rw [Real.tan_arctan]; norm_num [Panel.slope, Panel.at]
  · norm_num [SweepWing.arUsed, Panel.area]

example : SegFits ⟨1, 0⟩ ⟨0.5, 0.25⟩ 4 16 true ⟨4, 2, 2, 1⟩ := by
  constructor <;> norm_num

/-! ### C169 -/

/-- The panel outside the body. -/
noncomputable def exposedPanel (s : Surface) (xt : ℝ) : Panel :=
  ⟨s.root, s.tip, s.spanUsed * (if s.symmetric then 1 / 2 else 1), xt⟩

theorem exposed_h (s : Surface) (xt : ℝ) :
    s.spanUsed * 0.5 * (2 - num s.symmetric) = (exposedPanel s xt).h := by
  unfold exposedPanel num
  cases s.symmetric <;> simp <;> ring

/-- The extended root chord is the chord of the same panel continued to the centre line, where the height is
minus the offset. -/
theorem C169_root (s : Surface) (xt : ℝ) (hp : (exposedPanel s xt).Ok) :
    (extendToRef s).root = (exposedPanel s xt).chord (-s.offset) := by
  rw [Panel.chord_eq _ hp]
  have h2 := hp.h.ne'
  simp only [extendToRef, exposed_h s xt]
  generalize (exposedPanel s xt).h = h at *
  simp only [exposedPanel]
  field_simp; ring

/-- The span grows by the offset on each side. -/
theorem C169_span (s : Surface) (xt : ℝ) :
    (extendToRef s).span = ((exposedPanel s xt).h + s.offset) * (if s.symmetric then 2 else 1) := by
  simp only [extendToRef, exposed_h s xt]
  cases s.symmetric <;> norm_num [num]

/-- The area is that of the exposed panels and of the strips continuing them to the centre line. -/
theorem C169_area (s : Surface) (xt : ℝ) (hp : (exposedPanel s xt).Ok) :
    (extendToRef s).area = ((exposedPanel s xt).area +
      s.offset * ((exposedPanel s xt).chord (-s.offset) + (exposedPanel s xt).cr) / 2) *
        (if s.symmetric then 2 else 1) := by
  rw [Panel.chord_eq _ hp, Panel.area]
  have h2 := hp.h.ne'
  simp only [extendToRef, exposed_h s xt]
  generalize (exposedPanel s xt).h = h at *
  simp only [exposedPanel]
  cases s.symmetric <;> simp [num] <;> field_simp <;> ring

/-- The aspect ratio is span squared over area. -/
theorem C169_aspect (s : Surface) (h : (extendToRef s).area ≠ 0) :
    (extendToRef s).ar = (extendToRef s).span ^ 2 / (extendToRef s).area := by
  simp only [extendToRef] at *
  generalize s.spanUsed * 0.5 * (2 - num s.symmetric) = b1 at *
  generalize 0.5 * (b1 + s.offset) * (s.tip + (b1 + s.offset) / b1 * (s.root - s.tip) + s.tip) = S at *
  have h1 : S ≠ 0 := left_ne_zero_of_mul h
  have h2 : 1 + num s.symmetric ≠ 0 := right_ne_zero_of_mul h
  field_simp

/-- Nothing changes for a surface that already reaches the centre line. -/
theorem C169_no_offset (s : Surface) (h0 : s.offset = 0) (hp : (exposedPanel s 0).Ok) :
    (extendToRef s).root = s.root ∧ (extendToRef s).origin = s.origin := by
  constructor
  · rw [C169_root s 0 hp, h0, Panel.chord_eq _ hp]; simp [exposedPanel]
  · simp [extendToRef, h0]

/-- The extension moves the root forward along the stream only — the code also moves it sideways and down. -/
theorem C169_origin_counterexample :
    ∃ s : Surface, (exposedPanel s 0).Ok ∧ (extendToRef s).origin.2 ≠ s.origin.2 := by
  refine ⟨⟨false, some 4, 4, 1, 2, arctan 1, 1, (20, 0, 1)⟩, ⟨?_, ?_, ?_⟩, ?_⟩
  · norm_num [exposedPanel, Surface.spanUsed]
  · norm_num [exposedPanel, Surface.spanUsed]
  · norm_num [exposedPanel, Surface.spanUsed]
  · simp only [extendToRef, Real.tan_arctan]
    intro h
    have := congrArg Prod.fst h
    norm_num at this

/-- The leading edge of the new root lies on the continued leading edge, provided the stored sweep is that of the
leading edge. -/
theorem C169_leading_edge_partial (s : Surface) (xt : ℝ) (hp : (exposedPanel s xt).Ok)
    (hs : tan s.sweep = (exposedPanel s xt).slope 0) :
    (extendToRef s).origin.1 = s.origin.1 + (exposedPanel s xt).at 0 (-s.offset) := by
  have h2 := hp.h.ne'
  simp only [extendToRef, hs, Panel.slope_eq _ hp, Panel.at]
  field_simp; ring

/-- But the sweep read is that of the quarter chord, and the leading edge is then missed: root 2, tip 1, height 4,
unswept leading edge, offset 1. -/
theorem C169_leading_edge_counterexample :
    ∃ (s : Surface) (xt : ℝ), (exposedPanel s xt).Ok ∧ tan s.sweep = (exposedPanel s xt).slope (1 / 4) ∧
      (extendToRef s).origin.1 ≠ s.origin.1 + (exposedPanel s xt).at 0 (-s.offset) := by
  refine ⟨⟨false, some 4, 4, 1, 2, arctan (-1 / 16), 1, (20, 0, 1)⟩, 0, ⟨?_, ?_, ?_⟩, ?_, ?_⟩
  · norm_num [exposedPanel, Surface.spanUsed]
  · norm_num [exposedPanel, Surface.spanUsed]
  · norm_num [exposedPanel, Surface.spanUsed]
  · rw [Real.tan_arctan]; norm_num [exposedPanel, Surface.spanUsed, Panel.slope, Panel.at]
  · simp only [extendToRef, Real.tan_arctan]
    norm_num [exposedPanel, Surface.spanUsed, Panel.at]

example : (exposedPanel ⟨true, none, 20, 1, 2, 0, 1, (0, 0, 0)⟩ 3).Ok := by
  constructor <;> norm_num [exposedPanel, Surface.spanUsed]

/-! ### C170 -/

theorem integral_chord (p : Panel) (hp : p.Ok) : ∫ y in (0:ℝ)..p.h, p.chord y = p.area := by
  have hd : ∀ y ∈ Set.uIcc 0 p.h, HasDerivAt (fun y => p.cr * y + (p.ct - p.cr) / p.h * (y ^ 2 / 2)) (p.chord y) y := by
    intro y _
    have := ((hasDerivAt_id y).const_mul p.cr).add (((hasDerivAt_pow 2 y).div_const 2).const_mul ((p.ct - p.cr) / p.h))
    refine this.congr_deriv ?_
    rw [p.chord_eq hp]; push_cast; ring
  rw [intervalIntegral.integral_eq_sub_of_hasDerivAt hd]
  · have := hp.h.ne'
    unfold Panel.area; field_simp; ring
  · refine Continuous.intervalIntegrable ?_ _ _
    have : p.chord = fun y => p.cr + (p.ct - p.cr) / p.h * y := funext (p.chord_eq hp)
    rw [this]; fun_prop

theorem integral_chord_sq (p : Panel) (hp : p.Ok) :
    ∫ y in (0:ℝ)..p.h, p.chord y ^ 2 = p.h * (p.cr ^ 2 + p.cr * p.ct + p.ct ^ 2) / 3 := by
  have hd : ∀ y ∈ Set.uIcc 0 p.h, HasDerivAt (fun y => p.cr ^ 2 * y + (p.cr * ((p.ct - p.cr) / p.h)) * y ^ 2 +
      ((p.ct - p.cr) / p.h) ^ 2 * (y ^ 3 / 3)) (p.chord y ^ 2) y := by
    intro y _
    have := (((hasDerivAt_id y).const_mul (p.cr ^ 2)).add ((hasDerivAt_pow 2 y).const_mul
      (p.cr * ((p.ct - p.cr) / p.h)))).add (((hasDerivAt_pow 3 y).div_const 3).const_mul (((p.ct - p.cr) / p.h) ^ 2))
    refine this.congr_deriv ?_
    rw [p.chord_eq hp]; push_cast; ring
  rw [intervalIntegral.integral_eq_sub_of_hasDerivAt hd]
  · have := hp.h.ne'
    field_simp; ring
  · refine Continuous.intervalIntegrable ?_ _ _
    have : p.chord = fun y => p.cr + (p.ct - p.cr) / p.h * y := funext (p.chord_eq hp)
    rw [this]; fun_prop

theorem integral_y_chord (p : Panel) (hp : p.Ok) :
    ∫ y in (0:ℝ)..p.h, y * p.chord y = p.h ^ 2 * (p.cr + 2 * p.ct) / 6 := by
  have hd : ∀ y ∈ Set.uIcc 0 p.h, HasDerivAt (fun y => p.cr * (y ^ 2 / 2) + ((p.ct - p.cr) / p.h) * (y ^ 3 / 3))
      (y * p.chord y) y := by
    intro y _
    have := (((hasDerivAt_pow 2 y).div_const 2).const_mul p.cr).add (((hasDerivAt_pow 3 y).div_const 3).const_mul
      ((p.ct - p.cr) / p.h))
    refine this.congr_deriv ?_
    rw [p.chord_eq hp]; push_cast; ring
  rw [intervalIntegral.integral_eq_sub_of_hasDerivAt hd]
  · have := hp.h.ne'
    field_simp; ring
  · refine Continuous.intervalIntegrable ?_ _ _
    have : p.chord = fun y => p.cr + (p.ct - p.cr) / p.h * y := funext (p.chord_eq hp)
    rw [this]; fun_prop

/-- A trapezoidal wing description that fits the panel: two panels when symmetric, one otherwise; chords either
both given, or the tip left to the taper, or both left to the area. -/
structure TrapFits (w : TrapWing) (p : Panel) : Prop where
  mac : w.mac = 0
  taper : w.taper = p.ct / p.cr
  span : w.span = p.h * (if w.symmetric then 2 else 1)
  area : w.area = p.area * (if w.symmetric then 2 else 1)
  chords : (w.root = p.cr ∧ w.tip = p.ct) ∨ (w.root = p.cr ∧ w.tip = 0) ∨ (w.root = 0 ∧ w.tip = 0)

theorem rootUsed_eq (w : TrapWing) (p : Panel) (hp : p.Ok) (hf : TrapFits w p) : w.rootUsed = p.cr := by
  have hc := hp.cr; have ht := hp.ct; have hh := hp.h
  unfold TrapWing.rootUsed
  by_cases h0 : w.root = 0
  · rw [if_pos h0, hf.area, hf.span, hf.taper, Panel.area]
    have h3 : p.cr + p.ct ≠ 0 := by positivity
    have e : 1 - 0.5 * (1 - p.ct / p.cr) = (p.cr + p.ct) / (2 * p.cr) := by field_simp; ring
    rw [e]
    cases w.symmetric <;> simp <;> field_simp
  · rw [if_neg h0]
    rcases hf.chords with h | h | h
    · exact h.1
    · exact h.1
    · exact absurd h.1 h0

theorem mac_closed (w : TrapWing) (p : Panel) (hp : p.Ok) (hf : TrapFits w p) :
    trapezoidMac w = 2 / 3 * (p.cr + p.ct - p.cr * p.ct / (p.cr + p.ct)) := by
  have hr := rootUsed_eq w p hp hf
  have hc := hp.cr.ne'
  unfold trapezoidMac
  rw [if_neg (by simp [hf.mac])]
  split_ifs with h0
  · dsimp only
    rw [hr, hf.taper]
    have : p.cr * (p.ct / p.cr) = p.ct := by field_simp
    rw [this]
  · rcases hf.chords with h | h | h
    · simp only [h.1, h.2]
    · exact absurd h.2 h0
    · exact absurd h.2 h0

/-- The mean aerodynamic chord is the integral of the squared chord over the area, however the chords were given. -/
theorem C170_mac (w : TrapWing) (p : Panel) (hp : p.Ok) (hf : TrapFits w p) :
    trapezoidMac w = (∫ y in (0:ℝ)..p.h, p.chord y ^ 2) / ∫ y in (0:ℝ)..p.h, p.chord y := by
  rw [mac_closed w p hp hf, integral_chord p hp, integral_chord_sq p hp, Panel.area]
  have h1 := hp.cr; have h2 := hp.ct; have h3 := hp.h
  have h4 : p.cr + p.ct ≠ 0 := by positivity
  field_simp; ring

/-- It lies between the smaller and the larger of the two chords, here for a tapered wing. -/
theorem C170_mac_bounds (w : TrapWing) (p : Panel) (hp : p.Ok) (hf : TrapFits w p) (ht : p.ct ≤ p.cr) :
    p.ct ≤ trapezoidMac w ∧ trapezoidMac w ≤ p.cr := by
  rw [mac_closed w p hp hf]
  have h1 := hp.cr; have h2 := hp.ct
  have h4 : 0 < p.cr + p.ct := by positivity
  have e : 2 / 3 * (p.cr + p.ct - p.cr * p.ct / (p.cr + p.ct)) =
      2 / 3 * (p.cr ^ 2 + p.cr * p.ct + p.ct ^ 2) / (p.cr + p.ct) := by field_simp; ring
  rw [e, le_div_iff₀ h4, div_le_iff₀ h4]
  constructor
  · nlinarith [mul_nonneg h2 h1.le, mul_self_nonneg (p.cr - p.ct)]
  · nlinarith [mul_nonneg h2 h1.le, mul_self_nonneg (p.cr - p.ct)]

/-- A given mean aerodynamic chord is believed. -/
theorem C170_mac_given (w : TrapWing) (h : w.mac ≠ 0) : trapezoidMac w = w.mac := by
  simp [trapezoidMac, h]

/-- For a tapered wing the station used is the centroid of the panel, the station of the mean aerodynamic chord. -/
theorem C170_station (w : TrapWing) (p : Panel) (hp : p.Ok) (hf : TrapFits w p) (ht : p.ct ≠ p.cr) :
    macStation w = (∫ y in (0:ℝ)..p.h, y * p.chord y) / ∫ y in (0:ℝ)..p.h, p.chord y := by
  rw [integral_chord p hp, integral_y_chord p hp, Panel.area]
  have h1 := hp.cr; have h2 := hp.ct; have h3 := hp.h
  have h4 : p.cr + p.ct ≠ 0 := by positivity
  have h5 : p.cr - p.ct ≠ 0 := sub_ne_zero.2 ht.symm
  have hne : w.taper ≠ 1 := by
    rw [hf.taper]; intro h; rw [div_eq_one_iff_eq h1.ne'] at h; exact ht h
  unfold macStation
  simp only [if_pos hne]
  rw [rootUsed_eq w p hp hf, mac_closed w p hp hf, hf.taper, hf.span]
  have e1 : p.cr * (1 - p.ct / p.cr) = p.cr - p.ct := by field_simp
  have e2 : p.h * (if w.symmetric then (2:ℝ) else 1) * (1 - 0.5 * num w.symmetric) = p.h := by
    cases w.symmetric <;> norm_num [num] <;> ring
  rw [e1, e2]
  field_simp; ring

/-- An untapered symmetric wing is different: the station comes out at the tip instead of half way. -/
theorem C170_untapered_counterexample :
    ∃ (w : TrapWing) (p : Panel), p.Ok ∧ TrapFits w p ∧
      macStation w ≠ (∫ y in (0:ℝ)..p.h, y * p.chord y) / ∫ y in (0:ℝ)..p.h, p.chord y := by
  have hp : (⟨1, 1, 4, 4⟩ : Panel).Ok := ⟨by norm_num, by norm_num, by norm_num⟩
  refine ⟨⟨8, 8, 1, arctan 1, true, 1, 1, 0⟩, ⟨1, 1, 4, 4⟩, hp, ⟨rfl, by norm_num, by norm_num, ?_, Or.inl ⟨rfl, rfl⟩⟩, ?_⟩
  · norm_num [Panel.area]
  · rw [integral_chord _ hp, integral_y_chord _ hp]
    norm_num [macStation, Panel.area]

/-- An untapered single surface is right. -/
theorem C170_untapered_single (w : TrapWing) (p : Panel) (hp : p.Ok) (hf : TrapFits w p) (ht : p.ct = p.cr)
    (hs : w.symmetric = false) :
    macStation w = (∫ y in (0:ℝ)..p.h, y * p.chord y) / ∫ y in (0:ℝ)..p.h, p.chord y := by
  rw [integral_chord p hp, integral_y_chord p hp, Panel.area]
  have h1 := hp.cr.ne'; have h3 := hp.h.ne'
  have : w.taper = 1 := by rw [hf.taper, ht, div_self h1]
  simp only [macStation, this, hf.span, hs, ht]
  norm_num
  field_simp
  norm_num

/-- The aerodynamic centre is the quarter-chord point of the mean aerodynamic chord when the stored sweep is that of
the leading edge. -/
theorem C170_ac_partial (w : TrapWing) (p : Panel) (hp : p.Ok) (hf : TrapFits w p) (ht : p.ct ≠ p.cr)
    (hs : tan w.sweep = p.slope 0) :
    trapezoidAcX w = p.at (1 / 4) (macStation w) := by
  have hst := C170_station w p hp hf ht
  rw [integral_chord p hp, integral_y_chord p hp, Panel.area] at hst
  unfold trapezoidAcX
  rw [mac_closed w p hp hf, hs, p.slope_eq hp, hst, Panel.at]
  have h1 := hp.cr; have h2 := hp.ct; have h3 := hp.h
  have h4 : p.cr + p.ct ≠ 0 := by positivity
  field_simp; ring

/-- With the quarter-chord sweep the code reads, it is not: an unswept quarter-chord line, root chord 4, tip 2, puts the
centre at 1 behind the root leading edge, the code at 7/9. -/
theorem C170_ac_counterexample :
    ∃ (w : TrapWing) (p : Panel), p.Ok ∧ TrapFits w p ∧ p.ct ≠ p.cr ∧ tan w.sweep = p.slope (1 / 4) ∧
      trapezoidAcX w ≠ p.at (1 / 4) (macStation w) := by
  have hp : (⟨4, 2, 6, 1 / 2⟩ : Panel).Ok := ⟨by norm_num, by norm_num, by norm_num⟩
  have hf : TrapFits ⟨36, 12, 1 / 2, 0, true, 4, 2, 0⟩ ⟨4, 2, 6, 1 / 2⟩ :=
    ⟨rfl, by norm_num, by norm_num, by norm_num [Panel.area], Or.inl ⟨rfl, rfl⟩⟩
  refine ⟨_, _, hp, hf, by norm_num, ?_, ?_⟩
  · norm_num [Panel.slope, Panel.at]
  · unfold trapezoidAcX
    rw [mac_closed _ _ hp hf, C170_station _ _ hp hf (by norm_num), integral_chord _ hp, integral_y_chord _ hp]
    norm_num [Panel.area, Panel.at]

/-- How far off: a quarter of the difference between the root chord and the mean aerodynamic chord. -/
theorem C170_ac_error (w : TrapWing) (p : Panel) (hp : p.Ok)
    (hs : tan w.sweep = p.slope (1 / 4)) :
    p.at (1 / 4) (macStation w) - trapezoidAcX w = (p.cr - trapezoidMac w) / 4 := by
  have h3 := hp.h.ne'
  unfold trapezoidAcX
  rw [hs, p.slope_eq hp, Panel.at]
  field_simp; ring

example : TrapFits ⟨36, 12, 1 / 2, 0, true, 0, 0, 0⟩ ⟨4, 2, 6, 1 / 2⟩ := by
  refine ⟨rfl, by norm_num, by norm_num, by norm_num [Panel.area], Or.inr (Or.inr ⟨rfl, rfl⟩)⟩

end Verif.Stability
