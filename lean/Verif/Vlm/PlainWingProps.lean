import Verif.Vlm.PlainWing
import Mathlib.Tactic.FieldSimp
import Mathlib.Tactic.Linarith
import Mathlib.Tactic.Positivity
/-
C403: wings without segments in the lattice.
-/

namespace Verif.Vlm

open Real Verif.Stability

/-- The planform somebody has in mind: a trapezium. -/
structure Trapezium where
  root : ℝ
  tip : ℝ
  semi : ℝ

/-- Place of the line at fraction `f` of the chord at the tip, against the one at the root, if the leading edge goes back by `d`. -/
def Trapezium.back (t : Trapezium) (d f : ℝ) : ℝ := d + f * t.tip - f * t.root

/-- What the lattice makes of the wing is a trapezium of the given chord at the root. If the taper is given, the chord at the tip has that ratio to it. -/
theorem C403_taper (w : PlainWing) (h : w.taper ≠ 0) :
    w.segments.1.chord = w.root ∧ w.segments.2.chord = w.taper * w.root := by
  unfold PlainWing.segments PlainWing.complete
  by_cases h1 : w.tip = 0 <;> simp [h, h1]

/-- If it is not, the chord at the tip is the one given. -/
theorem C403_tip (w : PlainWing) (h : w.taper = 0) (hr : w.root ≠ 0) :
    w.segments.1.chord = w.root ∧ w.segments.2.chord = w.tip := by
  unfold PlainWing.segments PlainWing.complete
  simp [h, hr]

/-- **C403, partial.** If taper and chord at the tip do not contradict each other, the lattice has both chords. -/
theorem C403_chords_partial (w : PlainWing) (hr : w.root ≠ 0) (h : w.taper = 0 ∨ w.tip = w.taper * w.root) :
    w.segments.1.chord = w.root ∧ w.segments.2.chord = w.tip := by
  by_cases h0 : w.taper = 0
  · exact C403_tip w h0 hr
  · rcases h with h | h
    · exact absurd h h0
    · rw [h]; exact C403_taper w h0

/-- If one of taper and chord at the tip is not given, the other is made to fit: the chord at the tip is the taper times that at the root. -/
theorem C403_complete (w : PlainWing) (hr : w.root ≠ 0) (h : w.taper = 0 ∨ w.tip = 0) :
    w.complete.tip = w.complete.taper * w.complete.root ∧ (w.taper ≠ 0 → w.complete.taper = w.taper) ∧
      (w.tip ≠ 0 → w.complete.tip = w.tip) := by
  unfold PlainWing.complete
  by_cases h0 : w.taper = 0
  · simp [h0, div_mul_cancel₀ _ hr]
  · have ht : w.tip = 0 := h.resolve_left h0
    simp [h0, ht, mul_comm]

example : (PlainWing.complete ⟨4, 0, 0.5, 0, none, 0, 20, true⟩).tip = 2 := by
  have := (C403_complete ⟨4, 0, 0.5, 0, none, 0, 20, true⟩ (by norm_num) (Or.inr rfl))
  rw [this.1, this.2.1 (by norm_num), (show (PlainWing.complete ⟨4, 0, 0.5, 0, none, 0, 20, true⟩).root = 4 by
    unfold PlainWing.complete; split_ifs <;> rfl)]
  norm_num

theorem complete_fields (w : PlainWing) : w.complete.root = w.root ∧ w.complete.quarter = w.quarter ∧ w.complete.leading = w.leading ∧
    w.complete.dihedral = w.dihedral ∧ w.complete.span = w.span ∧ w.complete.symmetric = w.symmetric := by
  unfold PlainWing.complete
  split_ifs <;> simp

/-- The line of quarter chords has the sweep given, if none is given for the leading edge. -/
theorem C403_quarter (w : PlainWing) (hr : 0 < w.root) (hs : 0 < w.span) (ht : 0 ≤ w.taper) (htip : 0 ≤ w.tip) (hl : w.leading = none) :
    Trapezium.back ⟨w.segments.1.chord, w.segments.2.chord, w.semi⟩ w.segments.2.x (1 / 4) = w.semi * tan w.quarter := by
  obtain ⟨e1, e2, e3, -, e5, e6⟩ := complete_fields w
  have hT : 0 ≤ w.complete.taper := by
    unfold PlainWing.complete
    split_ifs
    · exact div_nonneg htip hr.le
    · exact ht
    · exact ht
  have hsemi : w.complete.semi = w.semi := by unfold PlainWing.semi; rw [e5, e6]
  unfold PlainWing.segments Trapezium.back
  simp only
  rw [e1, e2, e3, e5, e6, hl, hsemi]
  simp only
  unfold convertSweepSegments
  rw [if_neg (by norm_num)]
  simp only
  rw [if_neg (by norm_num), tan_arctan, tan_arctan]
  generalize w.complete.taper = T at *
  unfold PlainWing.semi
  have h1 : 0 < 1 + T := by linarith
  have h2 : w.root ≠ 0 := hr.ne'
  have h3 : w.span ≠ 0 := hs.ne'
  have h4 : (1 : ℝ) + T ≠ 0 := h1.ne'
  rw [one_mul, mul_div_assoc T, div_self h2, mul_one]
  have h5 : w.root + T * w.root ≠ 0 := by
    rw [show w.root + T * w.root = (1 + T) * w.root by ring]; exact mul_ne_zero h4 h2
  cases w.symmetric
  · simp only [Bool.false_eq_true, if_false]
    have : w.span * 2 * (1 - 0) / (0.5 * (w.root + T * w.root)) * (1 + T) = 4 * w.span / w.root := by
      rw [show w.root + T * w.root = (1 + T) * w.root by ring]; field_simp; norm_num
    rw [this]
    field_simp
    ring
  · simp only [if_true]
    have : w.span * (1 - 0) / (0.5 * (w.root + T * w.root)) * (1 + T) = 2 * w.span / w.root := by
      rw [show w.root + T * w.root = (1 + T) * w.root by ring]; field_simp; norm_num
    rw [this]
    field_simp
    ring

/-- If one is, the leading edge has it, whatever is said of the quarter chord. -/
theorem C403_leading (w : PlainWing) (s : ℝ) (hl : w.leading = some s) :
    w.segments.1.leading = s ∧ w.segments.2.x = w.semi * tan s := by
  obtain ⟨-, -, e3, -, e5, e6⟩ := complete_fields w
  have hsemi : w.complete.semi = w.semi := by unfold PlainWing.semi; rw [e5, e6]
  unfold PlainWing.segments
  simp only
  rw [e3, hl, hsemi]
  exact ⟨rfl, by ring⟩

/-- The tip lies above the root as the dihedral says. -/
theorem C403_dihedral (w : PlainWing) : w.segments.2.z = w.semi * tan w.dihedral := by
  obtain ⟨-, -, -, e4, e5, e6⟩ := complete_fields w
  have hsemi : w.complete.semi = w.semi := by unfold PlainWing.semi; rw [e5, e6]
  unfold PlainWing.segments
  simp only
  rw [hsemi, e4]
  ring

/-- **C403, false of the code.** Of a taper and a chord at the tip that contradict each other, the chord is given up without a word. -/
theorem C403_contradiction_counterexample : ∃ w : PlainWing, 0 < w.root ∧ 0 < w.tip ∧ 0 < w.taper ∧ w.segments.2.chord ≠ w.tip := by
  refine ⟨⟨2, 2, 0.5, 0, none, 0, 10, true⟩, by norm_num, by norm_num, by norm_num, ?_⟩
  rw [(C403_taper ⟨2, 2, 0.5, 0, none, 0, 10, true⟩ (by norm_num)).2]
  norm_num

/-- A swept and tapered wing of 10 m span that is given by its chords. -/
example : (PlainWing.mk 2 1 0 0.4 none 0.1 10 true).segments.2.chord = 1 :=
  (C403_tip _ rfl (by norm_num)).2

example : Trapezium.back ⟨2, 1, 5⟩ ((PlainWing.mk 2 1 0 0.4 none 0.1 10 true).segments.2.x) (1 / 4) = 5 * tan 0.4 := by
  have h := C403_quarter (PlainWing.mk 2 1 0 0.4 none 0.1 10 true) (by norm_num) (by norm_num) (by norm_num) (by norm_num) rfl
  have e := C403_tip (PlainWing.mk 2 1 0 0.4 none 0.1 10 true) rfl (by norm_num)
  rw [e.1, e.2] at h
  have hs : (PlainWing.mk 2 1 0 0.4 none 0.1 10 true).semi = 5 := by unfold PlainWing.semi; norm_num
  rw [hs] at h
  exact h

end Verif.Vlm
