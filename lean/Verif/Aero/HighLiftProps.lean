import Verif.Aero.HighLift
import Mathlib.Analysis.Real.Pi.Bounds
import Mathlib.Tactic.Positivity
import Mathlib.Tactic.Linarith
import Mathlib.Tactic.FieldSimp
import Mathlib.Tactic.NormNum

/-!
C136 maximum lift.
-/

namespace Verif.Aero
open Real

/-! ## C136 -/

theorem flapRef_pos {tc : ℝ} (h0 : 0 ≤ tc) (h1 : tc ≤ 20) : 0 < flapRef tc := by
  have b : 0 ≤ 20 - tc := by linarith
  have e : flapRef tc * 160000 = 0.9734 * (20 - tc) ^ 4 + 4.7656 * ((20 - tc) ^ 3 * tc) + 4.7364 * ((20 - tc) ^ 2 * tc ^ 2)
      + 10.2696 * ((20 - tc) * tc ^ 3) + 2.9254 * tc ^ 4 := by
    unfold flapRef; ring
  have hp : 0 < flapRef tc * 160000 := by
    rw [e]
    rcases h0.lt_or_eq with h | h
    · have : 0 < tc ^ 4 := by positivity
      have := pow_nonneg b 4
      positivity
    · rw [← h]; norm_num
  linarith

theorem flapKd_mono {a b : ℝ} (h0 : 1 ≤ a) (hab : a < b) (h1 : b ≤ 80) : 0 < flapKd a ∧ flapKd a < flapKd b := by
  unfold flapKd
  constructor <;> nlinarith

/-- A flap turned down 1 to 80 degrees adds lift, the more the further it is turned, the larger its chord and the area it
affects, and a triple slotted one more than a double slotted and that more than a single slotted. -/
theorem C136_flap_partial (tc chord chord' fa fa' cs S Swf Swf' : ℝ) (kind : String) (ht0 : 0 ≤ tc) (ht1 : tc ≤ 20)
    (hc : 0 ≤ chord) (hcc : chord ≤ chord') (hf0 : 1 ≤ fa) (hff : fa < fa') (hf1 : fa' ≤ 80) (h0 : 0 < cs) (h1 : cs ≤ 1)
    (hS : 0 < S) (hw : 0 < Swf) (hww : Swf ≤ Swf') :
    0 < flapLift tc (some kind) chord fa cs S Swf
      ∧ flapLift tc (some kind) chord fa cs S Swf < flapLift tc (some kind) chord' fa' cs S Swf'
      ∧ flapLift tc (some "single_slotted") chord fa cs S Swf < flapLift tc (some "double_slotted") chord fa cs S Swf
      ∧ flapLift tc (some "double_slotted") chord fa cs S Swf < flapLift tc (some "triple_slotted") chord fa cs S Swf
      ∧ flapLift tc none chord fa cs S Swf = 0 := by
  have hr := flapRef_pos ht0 ht1
  obtain ⟨k1, k2⟩ := flapKd_mono hf0 hff hf1
  have hk : ∀ t : String, 0 < flapKind (some t) := by
    intro t; unfold flapKind; dsimp only; split_ifs <;> norm_num
  have hksw : 0 < (1 - 0.08 * cs ^ 2) * cs ^ (0.75 : ℝ) := by
    apply mul_pos _ (rpow_pos_of_pos h0 _)
    nlinarith
  have e1 : flapKind (some "single_slotted") = 0.93 := by simp [flapKind]
  have e2 : flapKind (some "double_slotted") = 1 := by
    simp [flapKind]
  have e3 : flapKind (some "triple_slotted") = 1.08 := by
    simp [flapKind]
  have hKc : 0 < 0.0395 * (chord * 100) + 0.0057 := by linarith
  have main : ∀ t t' : String, flapKind (some t) < flapKind (some t') →
      flapLift tc (some t) chord fa cs S Swf < flapLift tc (some t') chord fa cs S Swf := by
    intro t t' h
    unfold flapLift
    dsimp only
    gcongr
  refine ⟨?_, ?_, main _ _ (by rw [e1, e2]; norm_num), main _ _ (by rw [e2, e3]; norm_num), ?_⟩
  · unfold flapLift
    dsimp only
    have := hk kind
    positivity
  · unfold flapLift
    dsimp only
    have hR : 0 < flapRef tc * flapKind (some kind) := mul_pos hr (hk kind)
    have hKc' : 0.0395 * (chord * 100) + 0.0057 ≤ 0.0395 * (chord' * 100) + 0.0057 := by linarith
    generalize (1 - 0.08 * cs ^ 2) * cs ^ (0.75 : ℝ) = ksw at *
    generalize flapRef tc * flapKind (some kind) = r at *
    generalize 0.0395 * (chord * 100) + 0.0057 = c at *
    generalize 0.0395 * (chord' * 100) + 0.0057 = c' at *
    apply div_lt_div_of_pos_right _ hS
    have hc' : 0 < c' := lt_of_lt_of_le hKc hKc'
    calc c * flapKd fa * ksw * r * Swf < c * flapKd fa' * ksw * r * Swf := by gcongr
      _ ≤ c' * flapKd fa' * ksw * r * Swf' := by
        have := k1.trans k2
        gcongr
  · simp [flapLift, flapKind]

example : 0 < flapLift 11 (some "single_slotted") 0.28 30 0.866 120 72 :=
  (C136_flap_partial 11 0.28 0.28 30 31 0.866 120 72 72 "single_slotted" (by norm_num) (by norm_num) (by norm_num) le_rfl
    (by norm_num) (by norm_num) (by norm_num) (by norm_num) (by norm_num) (by norm_num) (by norm_num) le_rfl).1

/-- A flap that is not deflected takes lift away. -/
theorem C136_flap_counterexample : ¬ ∀ (tc chord fa cs S Swf : ℝ) (kind : String), 0 ≤ tc → tc ≤ 20 → 0 ≤ chord → 0 ≤ fa →
    fa ≤ 80 → 0 < cs → cs ≤ 1 → 0 < S → 0 < Swf → 0 ≤ flapLift tc (some kind) chord fa cs S Swf := by
  intro H
  have := H 0 0.3 0 1 1 1 "single_slotted" (by norm_num) (by norm_num) (by norm_num) (by norm_num) (by norm_num) (by norm_num)
    (by norm_num) (by norm_num) (by norm_num)
  simp only [flapLift, flapRef, flapKd, flapKind, one_rpow, if_true] at this
  norm_num at this

/-- A name that is not known counts as double slotted; `none` as a name is such a name. -/
theorem C136_names (tc chord fa cs S Swf : ℝ) (t : String) (h1 : t ≠ "single_slotted") (h2 : t ≠ "triple_slotted") :
    flapLift tc (some t) chord fa cs S Swf = flapLift tc (some "double_slotted") chord fa cs S Swf := by
  have e : flapKind (some t) = flapKind (some "double_slotted") := by
    simp [flapKind, h1, h2]
  unfold flapLift
  rw [e]

/-- A slat adds lift between 0 and 90 degrees, none at 0. -/
theorem C136_slat_partial (sa cs : ℝ) (h0 : 0 < sa) (h1 : sa < 90) (hc : 0 < cs) :
    0 < slatLift sa cs ∧ slatLift 0 cs = 0 := by
  have hp := pi_pos
  constructor
  · unfold slatLift
    have : 0 < cos (sa * (π / 180)) := by
      apply cos_pos_of_mem_Ioo
      constructor <;> nlinarith
    positivity
  · simp [slatLift]

/-- Not always the more the further it is turned. -/
theorem C136_slat_counterexample : ¬ ∀ sa sa' cs : ℝ, 0 ≤ sa → sa ≤ sa' → sa' ≤ 90 → 0 < cs → cs ≤ 1 → slatLift sa cs ≤ slatLift sa' cs := by
  intro H
  have h := H 60 90 1 (by norm_num) (by norm_num) (by norm_num) (by norm_num) (by norm_num)
  unfold slatLift at h
  rw [show (90 : ℝ) * (π / 180) = π / 2 by ring, show (60 : ℝ) * (π / 180) = π / 3 by ring, cos_pi_div_two, cos_pi_div_three,
    one_rpow] at h
  norm_num at h

/-- Over the vehicle: proportional to the factor; wings not marked as high lift count nothing; the wings add up. -/
theorem C136_total (f S : ℝ) (ws vs : List HWing) (w : HWing) (hw : w.highLift = false) :
    (maxLift f S ws).1 = f * (maxLift 1 S ws).1 ∧ maxLift f S (w :: ws) = maxLift f S ws
      ∧ maxLift f S (ws ++ vs) = ((maxLift f S ws).1 + (maxLift f S vs).1, (maxLift f S ws).2 + (maxLift f S vs).2) := by
  unfold maxLift
  refine ⟨by dsimp only; ring, ?_, ?_⟩
  · rw [List.filter_cons_of_neg (by simp [hw])]
  · dsimp only
    rw [List.filter_append, List.map_append, List.sum_append, List.map_append, List.sum_append, add_mul]

/-- What the flap of a wing adds to the maximum lift area of the vehicle: its increment over the affected area, where the
wing is as large as the reference area. -/
theorem C136_flap_area_partial (S : ℝ) (w : HWing) (fl : Flap) (hS : S ≠ 0) (hh : w.highLift = true) (hf : w.flap = some fl)
    (hw : w.area = S) :
    ((maxLift 1 S [w]).1 - (maxLift 1 S [{ w with flap := none }]).1) * S
      = flapLift w.tc fl.kind fl.chord fl.angle (cos (w.sweep * (π / 180))) 1 w.affected := by
  have e1 : [w].filter HWing.highLift = [w] := by simp [hh]
  have e2 : ([{ w with flap := none }] : List HWing).filter HWing.highLift = [{ w with flap := none }] := by simp [hh]
  unfold maxLift
  dsimp only
  rw [e1, e2]
  simp only [List.map_cons, List.map_nil, List.sum_cons, List.sum_nil, hw]
  unfold wingMax
  rw [hf]
  dsimp only
  have ec : cleanMax { w with area := S, flap := none } = cleanMax w := rfl
  rw [ec]
  unfold flapLift
  field_simp
  ring

/-- Otherwise the area ratio enters twice. -/
theorem C136_flap_area_counterexample : ¬ ∀ (S : ℝ) (w : HWing) (fl : Flap), 0 < S → w.highLift = true → w.flap = some fl →
    ((maxLift 1 S [w]).1 - (maxLift 1 S [{ w with flap := none }]).1) * S
      = flapLift w.tc fl.kind fl.chord fl.angle (cos (w.sweep * (π / 180))) 1 w.affected := by
  intro H
  have h := H 2 ⟨true, 1, 0, 0, 1, 9000000, none, some ⟨some "double_slotted", 0, 1⟩, 1⟩ _ (by norm_num) rfl rfl
  have e2 : flapKind (some "double_slotted") = 1 := by
    simp [flapKind]
  unfold maxLift at h
  simp only [List.filter, List.map_cons, List.map_nil, List.sum_cons, List.sum_nil] at h
  unfold wingMax at h
  simp only [cleanMax, flapLift, flapRef, flapKd, e2, zero_mul, cos_zero, one_rpow] at h
  norm_num at h

/-- Faster flight is more: a clean wing's maximum lift grows with the Reynolds number. -/
theorem C136_reynolds (w : HWing) (Re' : ℝ) (ht1 : w.tc ≤ 22) (hs : w.sweep = 0) (hp0 : 0 ≤ w.taper)
    (hp1 : w.taper ≤ 1) (hR : 0 < w.Re) (hlt : w.Re < Re') :
    0 < cleanMax w ∧ cleanMax w < cleanMax { w with Re := Re' } := by
  have hb : 0 < 0.919729714285715 - 0.044504761904771 * w.taper - 0.001835900000000 * w.sweep
      + 0.247071428571446 * w.taper ^ 2 + 0.003191500000000 * w.taper * w.sweep - 0.000056632142857 * w.sweep ^ 2
      - 0.279166666666676 * w.taper ^ 3 + 0.002300000000000 * w.taper ^ 2 * w.sweep
      + 0.000049982142857 * w.taper * w.sweep ^ 2 - 0.000000280000000 * w.sweep ^ 3 := by
    rw [hs]
    have : w.taper ^ 3 ≤ 1 := pow_le_one₀ hp0 hp1
    norm_num
    nlinarith [sq_nonneg w.taper]
  have hr : 0 < -0.0009 * w.tc ^ 3 + 0.0217 * w.tc ^ 2 - 0.0442 * w.tc + 0.7005 := by
    nlinarith [mul_nonneg (sq_nonneg w.tc) (sub_nonneg.2 ht1), sq_nonneg (w.tc - 12)]
  have hpow : (w.Re / (9 * 10 ^ 6)) ^ (0.1 : ℝ) < (Re' / (9 * 10 ^ 6)) ^ (0.1 : ℝ) := by
    apply rpow_lt_rpow (by positivity) _ (by norm_num)
    gcongr
  have hpos : 0 < (w.Re / (9 * 10 ^ 6)) ^ (0.1 : ℝ) := by positivity
  unfold cleanMax
  dsimp only
  generalize 0.919729714285715 - 0.044504761904771 * w.taper - 0.001835900000000 * w.sweep
      + 0.247071428571446 * w.taper ^ 2 + 0.003191500000000 * w.taper * w.sweep - 0.000056632142857 * w.sweep ^ 2
      - 0.279166666666676 * w.taper ^ 3 + 0.002300000000000 * w.taper ^ 2 * w.sweep
      + 0.000049982142857 * w.taper * w.sweep ^ 2 - 0.000000280000000 * w.sweep ^ 3 = b at *
  generalize -0.0009 * w.tc ^ 3 + 0.0217 * w.tc ^ 2 - 0.0442 * w.tc + 0.7005 = r at *
  constructor
  · positivity
  · gcongr

example : 0 < cleanMax ⟨true, 100, 12, 0, 0.4, 1e7, none, none, 0⟩ :=
  (C136_reynolds ⟨true, 100, 12, 0, 0.4, 1e7, none, none, 0⟩ 2e7 (by norm_num) rfl (by norm_num) (by norm_num)
    (by norm_num) (by norm_num)).1

end Verif.Aero
