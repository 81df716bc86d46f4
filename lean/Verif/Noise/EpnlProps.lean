import Verif.Noise.LevelProps
import Mathlib.Tactic.IntervalCases

/-!
C120 effective perceived noise level and single event level.
-/

namespace Verif.Noise
open Real

theorem le_peak {n : ℕ} {p : ℕ → ℝ} (h : 0 < n) {i : ℕ} (hi : i < n) : p i ≤ peak n p h :=
  Finset.le_sup' p (Finset.mem_range.2 hi)

theorem exists_peak {n : ℕ} (p : ℕ → ℝ) (h : 0 < n) : ∃ i < n, p i = peak n p h := by
  obtain ⟨i, hi, he⟩ := Finset.exists_mem_eq_sup' ⟨0, Finset.mem_range.2 h⟩ p
  exact ⟨i, Finset.mem_range.1 hi, he.symm⟩

theorem peak_eq {n : ℕ} {p : ℕ → ℝ} (h : 0 < n) {m : ℝ} {i : ℕ} (hi : i < n) (he : p i = m) (hm : ∀ j < n, p j ≤ m) :
    peak n p h = m := by
  obtain ⟨j, hj, hje⟩ := exists_peak p h
  have := le_peak (p := p) h hi
  have := hm j hj
  linarith

theorem scan_spec {n : ℕ} {c : ℕ → Prop} : ∀ {k i j : ℕ}, scan n c k i = some j →
    i ≤ j ∧ j < n ∧ ¬ c j ∧ ∀ l, i ≤ l → l < j → c l
  | 0, _, _, h => by simp [scan] at h
  | k + 1, i, j, h => by
    rw [scan] at h
    split_ifs at h with h1 h2
    · obtain ⟨a, b, d, e⟩ := scan_spec h
      refine ⟨by omega, b, d, fun l hl hlj => ?_⟩
      rcases Nat.eq_or_lt_of_le hl with rfl | hlt
      · exact h2
      · exact e l hlt hlj
    · obtain rfl := Option.some_inj.1 h
      exact ⟨le_rfl, by omega, h2, fun l hl hlj => by omega⟩

theorem scan_exists {n : ℕ} {c : ℕ → Prop} : ∀ {k i j : ℕ}, i ≤ j → j < n → ¬ c j → n - i < k → ∃ r, scan n c k i = some r
  | 0, _, _, _, _, _, h => by omega
  | k + 1, i, j, h1, h2, h3, h4 => by
    rw [scan]
    split_ifs with a b
    · omega
    · have : i ≠ j := fun e => h3 (e ▸ b)
      exact scan_exists (k := k) (i := i + 1) (j := j) (by omega) h2 h3 (by omega)
    · exact ⟨i, rfl⟩

theorem scan_eq {n : ℕ} {c : ℕ → Prop} {k i j : ℕ} (h1 : i ≤ j) (h2 : j < n) (h3 : ¬ c j) (h4 : n - i < k)
    (h5 : ∀ l, i ≤ l → l < j → c l) : scan n c k i = some j := by
  obtain ⟨r, hr⟩ := scan_exists h1 h2 h3 h4
  obtain ⟨a, b, d, e⟩ := scan_spec hr
  have : r = j := by
    rcases lt_trichotomy r j with h | h | h
    · exact absurd (h5 r a h) d
    · exact h
    · exact absurd (e j h1 h) h3
  rw [hr, this]

/-- The window: it starts at the first point within ten decibels, and ends before the first one that is not, or before
the last point of the history. -/
theorem window_spec {n : ℕ} {p : ℕ → ℝ} {m : ℝ} {w : ℕ × ℤ} (h : window n p m = some w) :
    w.1 < n ∧ m - 10 < p w.1 ∧ (∀ l < w.1, p l ≤ m - 10) ∧ (w.1 : ℤ) - 1 < w.2 + 1 ∧ w.2 + 1 < n
      ∧ (p (n - 1) < m - 10 → (w.1 : ℤ) ≤ w.2) := by
  unfold window at h
  cases h1 : scan n (fun i => p i ≤ m - 10) (n + 1) 0 with
  | none => simp [h1] at h
  | some t1 =>
    rw [h1, Option.bind_some] at h
    obtain ⟨_, b, d, e⟩ := scan_spec h1
    have b' : m - 10 < p t1 := not_le.1 d
    have e' : ∀ l < t1, p l ≤ m - 10 := fun l hl => e l (Nat.zero_le _) hl
    split_ifs at h with h2
    · obtain rfl := Option.some_inj.1 h
      refine ⟨b, b', e', ?_, ?_, fun hc => absurd h2 (not_le.2 hc)⟩ <;> dsimp only <;> omega
    · cases h3 : scan n (fun i => m - 10 ≤ p i) (n + 1) (t1 + 1) with
      | none => rw [h3] at h; simp at h
      | some i =>
        rw [h3, Option.map_some, Option.some_inj] at h
        subst h
        obtain ⟨a, b2, d2, e2⟩ := scan_spec h3
        refine ⟨b, b', e', ?_, ?_, fun _ => ?_⟩ <;> dsimp only <;> omega

theorem window_exists {n : ℕ} (p : ℕ → ℝ) (h : 0 < n) : ∃ w, window n p (peak n p h) = some w := by
  obtain ⟨i, hi, he⟩ := exists_peak p h
  obtain ⟨t1, ht1⟩ := scan_exists (n := n) (c := fun i => p i ≤ peak n p h - 10) (k := n + 1) (i := 0) (j := i)
    (Nat.zero_le _) hi (by rw [he]; linarith) (by omega)
  unfold window
  rw [ht1, Option.bind_some]
  split_ifs with h2
  · exact ⟨_, rfl⟩
  · obtain ⟨_, b, d, _⟩ := scan_spec ht1
    have hne : t1 ≠ n - 1 := by
      rintro rfl
      exact h2 (not_le.1 d).le
    obtain ⟨r, hr⟩ := scan_exists (n := n) (c := fun i => peak n p h - 10 ≤ p i) (k := n + 1) (i := t1 + 1) (j := n - 1)
      (by omega) (by omega) h2 (by omega)
    rw [hr]
    exact ⟨_, rfl⟩

theorem windowSum_pos {n : ℕ} {p : ℕ → ℝ} {m : ℝ} {w : ℕ × ℤ} (h : window n p m = some w) : 0 < windowSum n p w := by
  obtain ⟨_, _, _, h4, _, _⟩ := window_spec h
  apply Finset.sum_pos (fun i _ => power_pos _)
  exact Finset.nonempty_Ico.2 h4

theorem epnl_eq {n : ℕ} {p : ℕ → ℝ} (h : 0 < n) (h0 : ∃ i < n, p i ≠ 0) :
    epnl n p = (window n p (peak n p h)).map fun w => level (windowSum n p w) - 13 := by
  unfold epnl
  rw [dif_pos h, if_neg (by push Not; exact h0)]
  congr 1
  funext w
  ring

theorem senel_eq {n : ℕ} {p : ℕ → ℝ} (h : 0 < n) :
    senel n p = (window n p (peak n p h)).map fun w => level (windowSum n p w) := by
  unfold senel; rw [dif_pos h]

/-! ## C120 -/

/-- Every history with a point has a level. -/
theorem C120_defined (n : ℕ) (p : ℕ → ℝ) (h : 0 < n) : (∃ v, epnl n p = some v) ∧ ∃ v, senel n p = some v := by
  obtain ⟨w, hw⟩ := window_exists p h
  constructor
  · by_cases h0 : ∀ i < n, p i = 0
    · exact ⟨0, by unfold epnl; rw [dif_pos h, if_pos h0]⟩
    · push Not at h0
      rw [epnl_eq h h0, hw]; exact ⟨_, rfl⟩
  · rw [senel_eq h, hw]; exact ⟨_, rfl⟩

/-- The two measures of the same history differ by 13 dB. -/
theorem C120_senel (n : ℕ) (p : ℕ → ℝ) (h0 : ∃ i < n, p i ≠ 0) : epnl n p = (senel n p).map (· - 13) := by
  have h : 0 < n := by obtain ⟨i, hi, _⟩ := h0; omega
  rw [epnl_eq h h0, senel_eq h, Option.map_map]
  rfl

/-- A history louder by `c` throughout is rated louder by `c`. -/
theorem C120_shift (n : ℕ) (p : ℕ → ℝ) (c : ℝ) (h0 : ∃ i < n, p i ≠ 0) (h1 : ∃ i < n, p i + c ≠ 0) :
    epnl n (fun i => p i + c) = (epnl n p).map (· + c) := by
  have h : 0 < n := by obtain ⟨i, hi, _⟩ := h0; omega
  have hp : peak n (fun i => p i + c) h = peak n p h + c := by
    obtain ⟨i, hi, he⟩ := exists_peak p h
    exact peak_eq h hi (by rw [he]) fun j hj => by have := le_peak (p := p) h hj; linarith
  have hw : window n (fun i => p i + c) (peak n p h + c) = window n p (peak n p h) := by
    unfold window
    have e1 : (fun i => p i + c ≤ peak n p h + c - 10) = fun i => p i ≤ peak n p h - 10 := by
      funext i; apply propext; constructor <;> intro _ <;> linarith
    have e2 : (fun i => peak n p h + c - 10 ≤ p i + c) = fun i => peak n p h - 10 ≤ p i := by
      funext i; apply propext; constructor <;> intro _ <;> linarith
    have e3 : (peak n p h + c - 10 ≤ p (n - 1) + c) ↔ peak n p h - 10 ≤ p (n - 1) := by
      constructor <;> intro _ <;> linarith
    simp only [e1, e2, e3]
  rw [epnl_eq h h0, epnl_eq h h1, hp, hw, Option.map_map]
  obtain ⟨w, hw'⟩ := window_exists p h
  rw [hw', Option.map_some, Option.map_some, Option.some_inj]
  have hs : windowSum n (fun i => p i + c) w = windowSum n p w * power c := by
    unfold windowSum
    rw [Finset.sum_mul]
    exact Finset.sum_congr rfl fun i _ => power_add _ _
  have hpos := windowSum_pos hw'
  simp only [Function.comp]
  rw [hs, level_mul hpos (power_pos c), level_power]
  ring

/-- No point counts more than once: the level is at most that of the loudest point held all the time. -/
theorem C120_upper (n : ℕ) (p : ℕ → ℝ) (h0 : ∃ i < n, p i ≠ 0) (v m : ℝ) (hv : epnl n p = some v)
    (hm : ∀ i < n, p i ≤ m) : v ≤ m + 10 * logb 10 n - 13 := by
  have h : 0 < n := by obtain ⟨i, hi, _⟩ := h0; omega
  obtain ⟨w, hw⟩ := window_exists p h
  rw [epnl_eq h h0, hw, Option.map_some, Option.some_inj] at hv
  obtain ⟨h1, _, _, h4, h5, _⟩ := window_spec hw
  have hn : (0 : ℝ) < n := by exact_mod_cast h
  have hs : windowSum n p w ≤ n * power m := by
    unfold windowSum
    have : ∀ i ∈ Finset.Ico ((w.1 : ℤ) - 1) (w.2 + 1), power (p (wrap n i)) ≤ power m := by
      intro i hi
      rw [Finset.mem_Ico] at hi
      apply power_le
      apply hm
      unfold wrap
      split_ifs <;> omega
    refine (Finset.sum_le_card_nsmul _ _ _ this).trans ?_
    rw [nsmul_eq_mul, Int.card_Ico]
    apply mul_le_mul_of_nonneg_right _ (power_pos m).le
    have : (w.2 + 1 - ((w.1 : ℤ) - 1)).toNat ≤ n := by omega
    exact_mod_cast this
  have := level_le (windowSum_pos hw) hs
  rw [level_mul hn (power_pos m), level_power] at this
  unfold level at this hv
  linarith

/-- When the whole history lies within ten decibels of the loudest point, every point counts once. -/
theorem C120_whole (n : ℕ) (p : ℕ → ℝ) (m : ℝ) (i0 : ℕ) (hi0 : i0 < n) (hm0 : p i0 = m) (hm : ∀ i < n, p i ≤ m)
    (hw : ∀ i < n, m - 10 < p i) (h0 : ∃ i < n, p i ≠ 0) :
    epnl n p = some (level (∑ i ∈ Finset.range n, (10 : ℝ) ^ (p i / 10)) - 13) := by
  have h : 0 < n := by omega
  have hp : peak n p h = m := peak_eq h hi0 hm0 hm
  have hwin : window n p m = some (0, (n : ℤ) - 2) := by
    unfold window
    rw [scan_eq (c := fun i => p i ≤ m - 10) (j := 0) le_rfl h (not_le.2 (hw 0 h)) (by omega) (fun l _ hl => by omega), Option.bind_some,
      if_pos (hw (n - 1) (by omega)).le]
  rw [epnl_eq h h0, hp, hwin, Option.map_some, Option.some_inj]
  congr 2
  unfold windowSum
  apply Finset.sum_nbij' (fun i => wrap n i) (fun k => if k = n - 1 then -1 else (k : ℤ))
  · intro i hi
    rw [Finset.mem_Ico] at hi
    rw [Finset.mem_range]
    dsimp only at hi
    unfold wrap
    split_ifs <;> omega
  · intro k hk
    rw [Finset.mem_range] at hk
    rw [Finset.mem_Ico]
    dsimp only
    split_ifs <;> omega
  · intro i hi
    rw [Finset.mem_Ico] at hi
    dsimp only at hi ⊢
    unfold wrap
    split_ifs <;> omega
  · intro k hk
    rw [Finset.mem_range] at hk
    unfold wrap
    split_ifs <;> omega
  · intro i _
    rfl

example : (∀ i < 20, (fun _ => (95 : ℝ)) i ≤ 95) ∧ ∀ i < 20, (95 : ℝ) - 10 < (fun _ => (95 : ℝ)) i := by
  constructor <;> intro i _ <;> norm_num

open Classical in
/-- What the measure is to integrate: the points within ten decibels of the loudest. -/
noncomputable def audible (n : ℕ) (p : ℕ → ℝ) (m : ℝ) : ℝ :=
  ∑ i ∈ (Finset.range n).filter (fun i => m - 10 ≤ p i), (10 : ℝ) ^ (p i / 10)

/-- A history that rises once above, and falls once below ten decibels from the loudest point: the window is the
points within and the quiet one before. -/
theorem C120_single_window (n : ℕ) (p : ℕ → ℝ) (m : ℝ) (a b i0 : ℕ) (hab : a ≤ b) (hb : b + 1 < n)
    (hi0 : i0 < n) (hm0 : p i0 = m) (hm : ∀ i < n, p i ≤ m) (h1 : ∀ i < a, p i ≤ m - 10)
    (ha : m - 10 < p a) (h2 : ∀ i, a ≤ i → i ≤ b → m - 10 ≤ p i) (h3 : ∀ i, b < i → i < n → p i < m - 10)
    (h0 : ∃ i < n, p i ≠ 0) :
    epnl n p = some (level (power (p (wrap n ((a : ℤ) - 1))) + ∑ i ∈ Finset.Icc a b, power (p i)) - 13) := by
  have h : 0 < n := by omega
  have hp : peak n p h = m := peak_eq h hi0 hm0 hm
  have hwin : window n p m = some (a, (b : ℤ)) := by
    unfold window
    rw [scan_eq (c := fun i => p i ≤ m - 10) (j := a) (Nat.zero_le _) (by omega) (not_le.2 ha) (by omega) (fun l _ hl => h1 l hl), Option.bind_some,
      if_neg (not_le.2 (h3 (n - 1) (by omega) (by omega))),
      scan_eq (c := fun i => m - 10 ≤ p i) (j := b + 1) (by omega) hb (not_le.2 (h3 (b + 1) (by omega) hb)) (by omega)
        (fun l hl hlb => h2 l (by omega) (by omega)), Option.map_some]
    simp
  rw [epnl_eq h h0, hp, hwin, Option.map_some, Option.some_inj]
  congr 2
  unfold windowSum
  dsimp only
  have hins : Finset.Ico ((a : ℤ) - 1) ((b : ℤ) + 1) = insert ((a : ℤ) - 1) (Finset.Ico (a : ℤ) ((b : ℤ) + 1)) := by
    ext i
    simp only [Finset.mem_insert, Finset.mem_Ico]
    omega
  rw [hins, Finset.sum_insert (by simp)]
  congr 1
  apply Finset.sum_nbij' (fun i : ℤ => i.toNat) (fun k : ℕ => (k : ℤ))
  · intro i hi
    rw [Finset.mem_Ico] at hi
    rw [Finset.mem_Icc]
    omega
  · intro k hk
    rw [Finset.mem_Icc] at hk
    rw [Finset.mem_Ico]
    omega
  · intro i hi
    rw [Finset.mem_Ico] at hi
    omega
  · intro k _
    rfl
  · intro i hi
    rw [Finset.mem_Ico] at hi
    unfold wrap
    rw [if_neg (by omega)]

/-- For such a history the level is right to within ten times the logarithm of 1.1, less than half a decibel. -/
theorem C120_integral_partial (n : ℕ) (p : ℕ → ℝ) (m : ℝ) (a b i0 : ℕ) (hab : a ≤ b) (hb : b + 1 < n)
    (hi0 : i0 < n) (hm0 : p i0 = m) (hm : ∀ i < n, p i ≤ m) (h1 : ∀ i < a, p i ≤ m - 10)
    (ha : m - 10 < p a) (h2 : ∀ i, a ≤ i → i ≤ b → m - 10 ≤ p i) (h3 : ∀ i, b < i → i < n → p i < m - 10)
    (h1' : ∀ i < a, p i < m - 10) (h0 : ∃ i < n, p i ≠ 0) :
    ∃ v, epnl n p = some v ∧ level (audible n p m) - 13 < v ∧ v ≤ level (audible n p m) - 13 + 10 * logb 10 1.1 := by
  refine ⟨_, C120_single_window n p m a b i0 hab hb hi0 hm0 hm h1 ha h2 h3 h0, ?_⟩
  have hset : audible n p m = ∑ i ∈ Finset.Icc a b, power (p i) := by
    unfold audible
    apply Finset.sum_congr _ (fun _ _ => rfl)
    ext i
    simp only [Finset.mem_filter, Finset.mem_range, Finset.mem_Icc]
    constructor
    · rintro ⟨hi, hc⟩
      constructor
      · by_contra hlt
        have := h1' i (by omega)
        linarith
      · by_contra hlt
        have := h3 i (by omega) hi
        linarith
    · rintro ⟨hi, hc⟩
      exact ⟨by omega, h2 i hi hc⟩
  rw [hset]
  have hin : i0 ∈ Finset.Icc a b := by
    rw [Finset.mem_Icc]
    constructor
    · by_contra hlt
      have := h1 i0 (by omega)
      linarith
    · by_contra hlt
      have := h3 i0 (by omega) hi0
      linarith
  have hS : power m ≤ ∑ i ∈ Finset.Icc a b, power (p i) := by
    rw [← hm0]
    exact Finset.single_le_sum (f := fun i => power (p i)) (fun i _ => (power_pos _).le) hin
  have hq : power (p (wrap n ((a : ℤ) - 1))) ≤ power m * 0.1 := by
    have : p (wrap n ((a : ℤ) - 1)) ≤ m - 10 := by
      unfold wrap
      split_ifs with hneg
      · have : ((n : ℤ) + ((a : ℤ) - 1)).toNat = n - 1 := by omega
        rw [this]
        exact (h3 (n - 1) (by omega) (by omega)).le
      · exact h1 _ (by omega)
    refine (power_le this).trans (le_of_eq ?_)
    rw [sub_eq_add_neg, power_add]
    congr 1
    unfold power
    rw [show (-10 : ℝ) / 10 = -1 by norm_num, rpow_neg_one]
    norm_num
  have hmp := power_pos m
  have hqp := power_pos (p (wrap n ((a : ℤ) - 1)))
  generalize ∑ i ∈ Finset.Icc a b, power (p i) = S at *
  generalize power (p (wrap n ((a : ℤ) - 1))) = q at *
  have hSpos : 0 < S := by linarith
  constructor
  · have := level_lt hSpos (show S < q + S by linarith)
    linarith
  · have := level_le (show 0 < q + S by linarith) (show q + S ≤ S * 1.1 by linarith)
    rw [level_mul hSpos (by norm_num)] at this
    unfold level at this ⊢
    linarith

/-- Such a history: 80, 95, 100, 92, 70. -/
noncomputable def flyby : ℕ → ℝ := fun i => if i = 0 then 80 else if i = 1 then 95 else if i = 2 then 100 else if i = 3 then 92 else 70

example : (∀ i < 5, flyby i ≤ 100) ∧ (∀ i < 1, flyby i < 100 - 10) ∧ (∀ i, 1 ≤ i → i ≤ 3 → 100 - 10 ≤ flyby i)
    ∧ ∀ i, 3 < i → i < 5 → flyby i < 100 - 10 := by
  refine ⟨?_, ?_, ?_, ?_⟩
  · intro i hi; unfold flyby; interval_cases i <;> norm_num
  · intro i hi; unfold flyby; interval_cases i; norm_num
  · intro i h1 h2; unfold flyby; interval_cases i <;> norm_num
  · intro i h1 h2; unfold flyby; interval_cases i; norm_num

/-- A history that ends at its loudest loses that point: 0 dB then 100 dB is rated 13 dB below zero. -/
theorem C120_last_counterexample :
    ¬ ∀ (n : ℕ) (p : ℕ → ℝ) (m v : ℝ), (∃ i < n, p i = m) → (∀ i < n, p i ≤ m) → epnl n p = some v →
      level (audible n p m) - 13 - 10 * logb 10 1.1 ≤ v := by
  intro h
  set p : ℕ → ℝ := fun i => if i = 1 then 100 else 0 with hp
  have hm : ∀ i < 2, p i ≤ 100 := by intro i hi; interval_cases i <;> norm_num [hp]
  have hpk : peak 2 p (by norm_num) = 100 := peak_eq (by norm_num) (i := 1) (by norm_num) (by norm_num [hp]) hm
  have hw : window 2 p 100 = some (1, 0) := by
    unfold window
    rw [scan_eq (c := fun i => p i ≤ 100 - 10) (j := 1) (by norm_num) (by norm_num) (by norm_num [hp]) (by norm_num)
      (fun l _ hl => by interval_cases l; norm_num [hp]), Option.bind_some, if_pos (by norm_num [hp])]
    rfl
  have he : epnl 2 p = some (0 - 13) := by
    rw [epnl_eq (by norm_num) ⟨1, by norm_num, by norm_num [hp]⟩, hpk, hw, Option.map_some]
    have : windowSum 2 p (1, 0) = power 0 := by
      unfold windowSum
      have : Finset.Ico (((1 : ℕ) : ℤ) - 1) (0 + 1) = {0} := by decide
      rw [this, Finset.sum_singleton]
      norm_num [wrap, hp]
    rw [this, level_power]
  have h1 := h 2 p 100 _ ⟨1, by norm_num, by norm_num [hp]⟩ hm he
  have ha : audible 2 p 100 = power 100 := by
    unfold audible
    rw [Finset.sum_filter, Finset.sum_range_succ, Finset.sum_range_one]
    norm_num [hp, power]
  rw [ha, level_power] at h1
  have : logb 10 1.1 ≤ logb 10 10 := logb_le_logb_of_le (by norm_num) (by norm_num) (by norm_num)
  rw [logb_self_eq_one (by norm_num)] at this
  linarith

/-- After a dip of more than ten decibels the rest of the history is not heard, even if it holds the loudest
point: 0, 91, 0, 100, 0 is rated below 79, the loudest point alone would give 87. -/
theorem C120_dip_counterexample :
    ¬ ∀ (n : ℕ) (p : ℕ → ℝ) (m v : ℝ), (∃ i < n, p i = m) → (∀ i < n, p i ≤ m) → p 0 < m - 10 → p (n - 1) < m - 10 →
      epnl n p = some v → level (audible n p m) - 13 ≤ v := by
  intro h
  set p : ℕ → ℝ := fun i => if i = 1 then 91 else if i = 3 then 100 else 0 with hp
  have hm : ∀ i < 5, p i ≤ 100 := by intro i hi; interval_cases i <;> norm_num [hp]
  have hpk : peak 5 p (by norm_num) = 100 := peak_eq (by norm_num) (i := 3) (by norm_num) (by norm_num [hp]) hm
  have hw : window 5 p 100 = some (1, 1) := by
    unfold window
    rw [scan_eq (c := fun i => p i ≤ 100 - 10) (j := 1) (by norm_num) (by norm_num) (by norm_num [hp]) (by norm_num)
      (fun l _ hl => by interval_cases l; norm_num [hp]), Option.bind_some, if_neg (by norm_num [hp]),
      scan_eq (c := fun i => 100 - 10 ≤ p i) (j := 2) (by norm_num) (by norm_num) (by norm_num [hp]) (by norm_num) (fun l _ hl => by omega)]
    rfl
  have he : epnl 5 p = some (level (power 0 + power 91) - 13) := by
    rw [epnl_eq (by norm_num) ⟨1, by norm_num, by norm_num [hp]⟩, hpk, hw, Option.map_some]
    have : windowSum 5 p (1, 1) = power 0 + power 91 := by
      unfold windowSum
      have : Finset.Ico (((1 : ℕ) : ℤ) - 1) (1 + 1) = {0, 1} := by decide
      rw [this, Finset.sum_pair (by norm_num)]
      norm_num [wrap, hp]
    rw [this]
  have h1 := h 5 p 100 _ ⟨3, by norm_num, by norm_num [hp]⟩ hm (by norm_num [hp]) (by norm_num [hp]) he
  have ha : power 91 + power 100 = audible 5 p 100 := by
    unfold audible
    rw [Finset.sum_filter]
    simp only [Finset.sum_range_succ, Finset.sum_range_zero]
    norm_num [hp, power]
  have h2 : level (power 0 + power 91) < level (audible 5 p 100) := by
    apply level_lt (add_pos (power_pos _) (power_pos _))
    rw [← ha]
    have : power 0 < power 100 := by unfold power; exact rpow_lt_rpow_of_exponent_lt (by norm_num) (by norm_num)
    linarith
  linarith

end Verif.Noise
