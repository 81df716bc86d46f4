import Verif.Noise.LevelProps
import Mathlib.Tactic.IntervalCases

/-!
C121 tone correction.
-/

namespace Verif.Noise
open Real

theorem factorLow_range (x : ℝ) : 0 ≤ factorLow x ∧ factorLow x ≤ 10 / 3 := by
  unfold factorLow
  split_ifs with h1 h2 h3
  · norm_num
  · constructor <;> linarith [h2.1, h2.2]
  · constructor <;> linarith [h3.1, h3.2]
  · norm_num

theorem factorMid_range (x : ℝ) : 0 ≤ factorMid x ∧ factorMid x ≤ 20 / 3 := by
  unfold factorMid
  split_ifs with h1 h2 h3
  · norm_num
  · constructor <;> linarith [h2.1, h2.2]
  · constructor <;> linarith [h3.1, h3.2]
  · norm_num

theorem factorLow_zero : factorLow 0 = 0 := by unfold factorLow; norm_num

theorem factorMid_zero : factorMid 0 = 0 := by unfold factorMid; norm_num

theorem correction_range (L : ℕ → ℝ) (i : ℕ) : 0 ≤ correction L i ∧ correction L i ≤ 20 / 3 := by
  have a := factorLow_range (excess L i)
  have b := factorMid_range (excess L i)
  unfold correction
  split_ifs
  · exact ⟨a.1, by linarith [a.2]⟩
  · exact b
  · exact ⟨a.1, by linarith [a.2]⟩
  · norm_num

theorem toneCorrection_eq (L : ℕ → ℝ) (c : ℝ) (k : ℕ) (hk : k < 23) (he : correction L k = c)
    (hm : ∀ i < 23, correction L i ≤ c) : toneCorrection L = c := by
  unfold toneCorrection
  apply le_antisymm
  · exact Finset.sup'_le _ _ fun i hi => hm i (Finset.mem_range.1 hi)
  · rw [← he]; exact Finset.le_sup' _ (Finset.mem_range.2 hk)

/-! ## C121 -/

/-- The correction is never negative and never more than 6 2/3 dB. -/
theorem C121_range (L : ℕ → ℝ) : 0 ≤ toneCorrection L ∧ toneCorrection L ≤ 20 / 3 := by
  constructor
  · exact (correction_range L 0).1.trans (Finset.le_sup' (correction L) (Finset.mem_range.2 (by norm_num)))
  · exact Finset.sup'_le _ _ fun i _ => (correction_range L i).2

theorem smoothed_straight (α β : ℝ) (i : ℕ) (h1 : 1 ≤ i) (h2 : i < 23) :
    smoothed (fun i => α + β * i) i = α + β * i := by
  have hc : ((i - 1 : ℕ) : ℝ) = (i : ℝ) - 1 := by push_cast [h1]; ring
  unfold smoothed
  rw [if_pos ⟨h1, h2⟩]
  split_ifs with he h22
  · subst h22
    unfold slope
    norm_num
    ring
  · show (α + β * ((i - 1 : ℕ) : ℝ) + (α + β * ((i + 1 : ℕ) : ℝ))) / 2 = _
    rw [hc]; push_cast; ring
  · rfl

theorem slope5_straight (α β : ℝ) (i : ℕ) (h1 : 2 ≤ i) (h2 : i < 23) :
    slope5 (fun i => α + β * i) i = β := by
  unfold slope5
  split_ifs with h3 h4
  · rw [smoothed_straight α β i (by omega) h2, smoothed_straight α β (i - 1) (by omega) (by omega)]
    have hc : ((i - 1 : ℕ) : ℝ) = (i : ℝ) - 1 := by push_cast [show 1 ≤ i by omega]; ring
    rw [hc]; ring
  · rw [smoothed_straight α β 3 (by omega) (by omega), smoothed_straight α β 2 (by omega) (by omega)]
    push_cast; ring
  · omega

theorem background_straight (α β : ℝ) : ∀ i, 2 ≤ i → i < 22 → background (fun i => α + β * i) i = α + β * i
  | 0, h, _ => by omega
  | 1, h, _ => by omega
  | 2, _, _ => rfl
  | i + 3, _, h => by
    rw [background, if_pos (by omega), background_straight α β (i + 2) (by omega) (by omega)]
    unfold slope6
    rw [if_pos ⟨by omega, by omega⟩, slope5_straight α β _ (by omega) (by omega), slope5_straight α β _ (by omega) (by omega),
      slope5_straight α β _ (by omega) (by omega)]
    push_cast; ring

/-- A spectrum that rises or falls evenly, however steeply, holds no tone. -/
theorem C121_straight (α β : ℝ) : toneCorrection (fun i => α + β * i) = 0 := by
  have hz : ∀ i < 23, correction (fun i => α + β * i) i = 0 := by
    intro i hi
    have hex : excess (fun i => α + β * i) i = 0 := by
      unfold excess
      split_ifs with h1 h2 h3 h4 h5
      · rw [background_straight α β i h1.1 (by omega)] at h2; norm_num at h2
      · rfl
      · rw [background_straight α β i (by omega) (by omega)] at h4; norm_num at h4
      · rfl
      · omega
      · omega
      · rfl
    unfold correction
    rw [hex, factorLow_zero, factorMid_zero]
    simp
  exact toneCorrection_eq _ 0 0 (by norm_num) (hz 0 (by norm_num)) fun i hi => (hz i hi).le

/-- Louder by the same amount in every band: the same correction. -/
theorem C121_shift (L : ℕ → ℝ) (c : ℝ) (h0 : ∀ i, 0 < L i) (h1 : ∀ i, 0 < L i + c) :
    toneCorrection (fun i => L i + c) = toneCorrection L := by
  have hs : slope (fun i => L i + c) = slope L := by
    funext i; unfold slope; split_ifs
    · ring
    · rfl
  have hi : irregular (fun i => L i + c) = irregular L := by funext i; unfold irregular; rw [hs]
  have he : encircled (fun i => L i + c) = encircled L := by funext i; unfold encircled; rw [hs, hi]
  have hm : ∀ i, 1 ≤ i → i < 23 → smoothed (fun i => L i + c) i = smoothed L i + c := by
    intro i a b
    unfold smoothed
    have hab : 1 ≤ i ∧ i < 23 := ⟨a, b⟩
    rw [he, hs, if_pos hab, if_pos hab]
    split_ifs <;> ring
  have h5 : slope5 (fun i => L i + c) = slope5 L := by
    funext i
    unfold slope5
    split_ifs with a b
    · rw [hm i (by omega) a.2, hm (i - 1) (by omega) (by omega)]; ring
    · rw [hm 3 (by omega) (by omega), hm 2 (by omega) (by omega)]; ring
    · rfl
  have h6 : slope6 (fun i => L i + c) = slope6 L := by funext i; unfold slope6; rw [h5]
  have hb : ∀ i, 2 ≤ i → i < 23 → background (fun i => L i + c) i = background L i + c := by
    intro i
    induction i with
    | zero => intro h; omega
    | succ i ih =>
      intro a b
      match i, a with
      | 0, h => omega
      | 1, _ => rfl
      | i + 2, _ =>
        rw [background, background, if_pos b, if_pos b, ih (by omega) (by omega), h6]; ring
  have hex : ∀ i < 23, excess (fun i => L i + c) i = excess L i := by
    intro i hi
    unfold excess
    split_ifs with a1 a2 a3 a4 a5 a6 a7 a8 a9 <;> try omega
    · rw [hb i a1.1 hi]; ring
    · rw [hb i a1.1 hi] at a2; exact absurd (by linarith) a3
    · rw [hb i a1.1 hi] at a2; exact absurd (by linarith) a2
    · rfl
    · rw [hb i (by omega) hi]; ring
    · rw [hb i (by omega) hi] at a6
      exact absurd ⟨by linarith [a6.1], h0 _, h0 _, h0 _⟩ a7
    · rw [hb i (by omega) hi] at a6
      exact absurd ⟨by linarith [a8.1], h1 _, h1 _, h1 _⟩ a6
    · rfl
    · rfl
  unfold toneCorrection
  apply Finset.sup'_congr _ rfl
  intro i hi
  unfold correction
  rw [hex i (Finset.mem_range.1 hi)]

/-- A flat spectrum with a tone of `h` dB in band `k`. -/
noncomputable def spike (L0 h : ℝ) (k : ℕ) : ℕ → ℝ := fun i => if i = k then L0 + h else L0

theorem slope_spike (L0 h : ℝ) (k : ℕ) (h1 : 3 ≤ k) (h2 : k ≤ 21) (i : ℕ) :
    slope (spike L0 h k) i = if i = k then h else if i = k + 1 then -h else 0 := by
  unfold slope spike
  by_cases hk : i = k
  · subst hk
    rw [if_pos ⟨h1, by omega⟩, if_pos rfl, if_neg (by omega), if_pos rfl]; ring
  · by_cases hk1 : i = k + 1
    · subst hk1
      rw [if_pos ⟨by omega, by omega⟩, if_neg (by omega), if_pos (by omega), if_neg (by omega), if_pos rfl]; ring
    · have hi1 : ¬ (3 ≤ i ∧ i - 1 = k) := by omega
      split_ifs <;> first | omega | simp

theorem encircled_spike (L0 h : ℝ) (k : ℕ) (h1 : 3 ≤ k) (h2 : k ≤ 21) (hh : 5 < h) (i : ℕ) :
    encircled (spike L0 h k) i ↔ i = k := by
  have hpos : ∀ j, 0 < slope (spike L0 h k) j → j = k := by
    intro j hj
    rw [slope_spike L0 h k h1 h2] at hj
    by_contra hne
    rw [if_neg hne] at hj
    split_ifs at hj <;> linarith
  constructor
  · rintro (⟨_, hp, _⟩ | ⟨_, _, _, hp⟩)
    · exact hpos i hp
    · exact hpos i hp
  · rintro rfl
    left
    have e1 : slope (spike L0 h i) i = h := by rw [slope_spike L0 h i h1 h2, if_pos rfl]
    have e2 : slope (spike L0 h i) (i - 1) = 0 := by
      rw [slope_spike L0 h i h1 h2, if_neg (by omega), if_neg (by omega)]
    refine ⟨⟨h1, by omega, ?_⟩, ?_, ?_⟩
    · rw [e1, e2, sub_zero, abs_of_pos (by linarith)]; exact hh
    · rw [e1]; linarith
    · rw [e1, e2]; linarith

theorem smoothed_spike (L0 h : ℝ) (k : ℕ) (h1 : 3 ≤ k) (h2 : k ≤ 21) (hh : 5 < h) (i : ℕ) (a : 1 ≤ i) (b : i < 23) :
    smoothed (spike L0 h k) i = L0 := by
  unfold smoothed
  rw [if_pos ⟨a, b⟩]
  have he := encircled_spike L0 h k h1 h2 hh i
  split_ifs with c d
  · have := he.1 c; omega
  · have := he.1 c
    subst this
    unfold spike
    rw [if_neg (by omega), if_neg (by omega)]; ring
  · unfold spike
    rw [if_neg (fun hc => c (he.2 hc))]

theorem background_spike (L0 h : ℝ) (k : ℕ) (h1 : 3 ≤ k) (h2 : k ≤ 21) (hh : 5 < h) :
    ∀ i, 2 ≤ i → i < 23 → background (spike L0 h k) i = L0
  | 0, h, _ => by omega
  | 1, h, _ => by omega
  | 2, _, _ => by rw [background, spike, if_neg (by omega)]
  | i + 3, _, hi => by
    have hs : ∀ j, slope5 (spike L0 h k) j = 0 := by
      intro j
      unfold slope5
      split_ifs with a b
      · rw [smoothed_spike L0 h k h1 h2 hh _ (by omega) (by omega), smoothed_spike L0 h k h1 h2 hh _ (by omega) (by omega)]; ring
      · rw [smoothed_spike L0 h k h1 h2 hh _ (by omega) (by omega), smoothed_spike L0 h k h1 h2 hh _ (by omega) (by omega)]; ring
      · rfl
    rw [background, if_pos hi, background_spike L0 h k h1 h2 hh (i + 2) (by omega) (by omega)]
    unfold slope6
    simp [hs]

theorem excess_spike (L0 h : ℝ) (k : ℕ) (h1 : 3 ≤ k) (h2 : k ≤ 21) (hh : 5 < h) (hL : 0 < L0) (i : ℕ) (hi : i < 23) :
    excess (spike L0 h k) i = if i = k ∧ k ≠ 16 then h else 0 := by
  have hd : ∀ i, 2 ≤ i → i < 23 → spike L0 h k i - background (spike L0 h k) i = if i = k then h else 0 := by
    intro i a b
    rw [background_spike L0 h k h1 h2 hh i a b]
    unfold spike
    split_ifs <;> ring
  have hp : ∀ i, 0 < spike L0 h k i := by
    intro i; unfold spike; split_ifs <;> linarith
  by_cases hk : i = k
  · subst hk
    have hd' := hd i (by omega) hi
    rw [if_pos rfl] at hd'
    unfold excess
    rw [hd']
    by_cases h16 : i = 16
    · subst h16; norm_num
    · rw [if_pos (⟨rfl, h16⟩ : i = i ∧ i ≠ 16)]
      by_cases hlow : 2 ≤ i ∧ i < 16
      · rw [if_pos hlow, if_pos (by linarith)]
      · rw [if_neg hlow, if_pos ⟨by omega, by omega⟩, if_pos ⟨by linarith, hp _, hp _, hp _⟩]
  · rw [if_neg (fun hc => hk hc.1)]
    unfold excess
    split_ifs with a b c d e f
    · rw [hd i a.1 hi, if_neg hk] at b; norm_num at b
    · rfl
    · rw [hd i (by omega) hi, if_neg hk] at d; norm_num at d
    · rfl
    · omega
    · omega
    · rfl

/-- The correction the certification procedure gives for a tone standing out by `h` dB in band `k`: bands 2 to 9 are
those below 500 Hz, 10 to 20 those up to 5 kHz. -/
noncomputable def required (k : ℕ) (h : ℝ) : ℝ :=
  (if 10 ≤ k ∧ k ≤ 20 then 1 else 1 / 2) * (min h 20 / 3)

/-- A tone of more than 5 dB on a flat spectrum gets the required correction; bands 9, 16 and 20 (400 Hz, 2 kHz and
5 kHz) and a tone of exactly 20 dB are left out. -/
theorem C121_tone_partial (L0 h : ℝ) (k : ℕ) (h1 : 3 ≤ k) (h2 : k ≤ 21) (hh : 5 < h) (hL : 0 < L0)
    (hk : k ≠ 9 ∧ k ≠ 16 ∧ k ≠ 20) (h20 : h ≠ 20) : toneCorrection (spike L0 h k) = required k h := by
  have hex := excess_spike L0 h k h1 h2 hh hL
  have hlow : factorLow h = 1 / 2 * (min h 20 / 3) := by
    unfold factorLow
    rcases lt_or_gt_of_ne h20 with hl | hg
    · rw [if_neg (by linarith), if_pos ⟨by linarith, hl⟩, min_eq_left hl.le]; ring
    · rw [if_pos hg, min_eq_right hg.le]; norm_num
  have hmid : factorMid h = 1 * (min h 20 / 3) := by
    unfold factorMid
    rcases lt_or_gt_of_ne h20 with hl | hg
    · rw [if_neg (by linarith), if_pos ⟨by linarith, hl⟩, min_eq_left hl.le]; ring
    · rw [if_pos hg, min_eq_right hg.le]; norm_num
  have hck : correction (spike L0 h k) k = required k h := by
    unfold correction required
    rw [hex k (by omega), if_pos (⟨rfl, hk.2.1⟩ : k = k ∧ k ≠ 16), hlow, hmid]
    split_ifs <;> first | rfl | omega
  apply toneCorrection_eq _ _ k (by omega) hck
  intro i hi
  by_cases hik : i = k
  · rw [hik, hck]
  · have : correction (spike L0 h k) i = 0 := by
      unfold correction
      rw [hex i hi, if_neg (fun (hc : i = k ∧ k ≠ 16) => hik hc.1), factorLow_zero, factorMid_zero]; simp
    rw [this, ← hck]
    exact (correction_range _ _).1

example : toneCorrection (spike 60 12 13) = 4 := by
  rw [C121_tone_partial 60 12 13 (by norm_num) (by norm_num) (by norm_num) (by norm_num) (by norm_num) (by norm_num)]
  norm_num [required]

theorem no_correction (L0 h : ℝ) (k : ℕ) (h1 : 3 ≤ k) (h2 : k ≤ 21) (hh : 5 < h) (hL : 0 < L0)
    (hz : correction (spike L0 h k) k = 0) : toneCorrection (spike L0 h k) = 0 := by
  apply toneCorrection_eq _ _ k (by omega) hz
  intro i hi
  by_cases hik : i = k
  · rw [hik, hz]
  · apply le_of_eq
    unfold correction
    rw [excess_spike L0 h k h1 h2 hh hL i hi, if_neg (fun (hc : i = k ∧ k ≠ 16) => hik hc.1), factorLow_zero, factorMid_zero]; simp

/-- Tones in bands 9, 16 and 20 get no correction at all. -/
theorem C121_band_counterexample (k : ℕ) (hk : k = 9 ∨ k = 16 ∨ k = 20) :
    ¬ ∀ L0 h : ℝ, 0 < L0 → 5 < h → h ≠ 20 → toneCorrection (spike L0 h k) = required k h := by
  intro H
  have h1 := H 60 12 (by norm_num) (by norm_num) (by norm_num)
  have h3 : 3 ≤ k ∧ k ≤ 21 := by omega
  have hz : correction (spike 60 12 k) k = 0 := by
    unfold correction
    rw [excess_spike 60 12 k h3.1 h3.2 (by norm_num) (by norm_num) k (by omega)]
    rcases hk with rfl | rfl | rfl
    · norm_num
    · norm_num [factorMid_zero]
    · norm_num
  rw [no_correction 60 12 k h3.1 h3.2 (by norm_num) (by norm_num) hz] at h1
  unfold required at h1
  rcases hk with rfl | rfl | rfl <;> norm_num at h1

/-- A tone of exactly 20 dB gets none either. -/
theorem C121_twenty_counterexample :
    ¬ ∀ (L0 h : ℝ) (k : ℕ), 0 < L0 → 5 < h → 3 ≤ k → k ≤ 21 → k ≠ 9 ∧ k ≠ 16 ∧ k ≠ 20 →
      toneCorrection (spike L0 h k) = required k h := by
  intro H
  have h1 := H 60 20 13 (by norm_num) (by norm_num) (by norm_num) (by norm_num) (by norm_num)
  have hz : correction (spike 60 20 13) 13 = 0 := by
    unfold correction
    rw [excess_spike 60 20 13 (by norm_num) (by norm_num) (by norm_num) (by norm_num) 13 (by norm_num)]
    norm_num [factorMid]
  rw [no_correction 60 20 13 (by norm_num) (by norm_num) (by norm_num) (by norm_num) hz] at h1
  norm_num [required] at h1

/-- The first spectrum of a history gets its correction. -/
theorem C121_first_partial (L : ℕ → ℝ) (rest : List (ℕ → ℝ)) :
    ∃ r, toneCorrections (L :: rest) = some r ∧ r.length = (L :: rest).length ∧ r.head? = some (toneCorrection L) :=
  ⟨_, rfl, by simp, rfl⟩

/-- The later spectra do not: the function returns within its loop. -/
theorem C121_history_counterexample :
    ¬ ∀ s : List (ℕ → ℝ), s ≠ [] → toneCorrections s = some (s.map toneCorrection) := by
  intro H
  have h1 := H [spike 60 12 13, spike 60 12 13] (by simp)
  simp only [toneCorrections, List.map_cons, List.map_nil, Option.some_inj, List.cons.injEq, true_and, and_true] at h1
  rw [C121_tone_partial 60 12 13 (by norm_num) (by norm_num) (by norm_num) (by norm_num) (by norm_num) (by norm_num)] at h1
  norm_num [required] at h1

end Verif.Noise
