import Verif.Noise.LevelProps

/-!
C122 perceived noise level, C123 A-weighting.
-/

namespace Verif.Noise
open Real

theorem log3_lower : (344 / 721 : ℝ) ≤ logb 10 3 := by
  rw [Real.le_logb_iff_rpow_le (by norm_num) (by norm_num)]
  have h : ((10 : ℝ) ^ (344 / 721 : ℝ)) ^ (721 : ℕ) ≤ (3 : ℝ) ^ (721 : ℕ) := by
    rw [← rpow_natCast, ← rpow_mul (by norm_num)]
    have : (344 / 721 : ℝ) * ((721 : ℕ) : ℝ) = ((344 : ℕ) : ℝ) := by norm_num
    rw [this, rpow_natCast]
    exact_mod_cast (by decide +kernel : (10 : ℕ) ^ 344 ≤ 3 ^ 721)
  exact le_of_pow_le_pow_left₀ (by norm_num) (by norm_num) h

theorem log103_lower : (80 / 153 : ℝ) ≤ logb 10 (10 / 3) := by
  rw [Real.le_logb_iff_rpow_le (by norm_num) (by norm_num)]
  have h : ((10 : ℝ) ^ (80 / 153 : ℝ)) ^ (153 : ℕ) ≤ (10 / 3 : ℝ) ^ (153 : ℕ) := by
    rw [← rpow_natCast, ← rpow_mul (by norm_num)]
    have : (80 / 153 : ℝ) * ((153 : ℕ) : ℝ) = ((80 : ℕ) : ℝ) := by norm_num
    rw [this, rpow_natCast]
    norm_num
  exact le_of_pow_le_pow_left₀ (by norm_num) (by norm_num) h

/-- The factor by which the tabulated pieces may fail to join. -/
noncomputable def K : ℝ := (10 : ℝ) ^ (2e-5 : ℝ)

theorem K_one : 1 ≤ K := Real.one_le_rpow (by norm_num) (by norm_num)

theorem K_two : K ≤ 10 := by
  unfold K
  calc (10 : ℝ) ^ (2e-5 : ℝ) ≤ (10 : ℝ) ^ (1 : ℝ) := Real.rpow_le_rpow_of_exponent_le (by norm_num) (by norm_num)
    _ = 10 := rpow_one _

theorem three_join (x : ℝ) (hx : x ≤ 0.47712) : (10 : ℝ) ^ x ≤ 3 * K := by
  have h3 : (3 : ℝ) = (10 : ℝ) ^ logb 10 3 := (rpow_logb (by norm_num) (by norm_num) (by norm_num)).symm
  unfold K
  rw [h3, ← rpow_add (by norm_num)]
  exact Real.rpow_le_rpow_of_exponent_le (by norm_num) (by have := log3_lower; norm_num at this ⊢; linarith)

theorem ten_join (x : ℝ) (hx : x ≤ 0.522886) : (10 : ℝ) ^ x ≤ 10 / 3 * K := by
  have h3 : (10 / 3 : ℝ) = (10 : ℝ) ^ logb 10 (10 / 3) := (rpow_logb (by norm_num) (by norm_num) (by norm_num)).symm
  unfold K
  rw [h3, ← rpow_add (by norm_num)]
  exact Real.rpow_le_rpow_of_exponent_le (by norm_num) (by have := log103_lower; norm_num at this ⊢; linarith)

/-- What the rows of the table have in common. -/
structure Good (r : Noy) : Prop where
  d0 : 0 < r.d
  de : r.d < r.e
  eb : r.e < r.b
  ba : r.b < r.a
  cb : r.c ≤ r.b
  c85 : r.c < 85.9
  b85 : r.b < 85.9
  mb : 0 < r.mb
  mc : 0 ≤ r.mc
  md : 0 < r.md
  me : 0 < r.me
  jd : r.md * (r.e - r.d) ≤ 0.47712
  je : r.me * (r.b - r.e) ≤ 0.522886

theorem noy_good : ∀ r ∈ noy, Good r := by
  intro r hr
  simp only [noy, List.mem_cons, List.not_mem_nil, or_false] at hr
  rcases hr with h | h | h | h | h | h | h | h | h | h | h | h | h | h | h | h | h | h | h | h | h | h | h | h <;>
    subst h <;> constructor <;> norm_num

theorem noy_length : noy.length = 24 := rfl

theorem one_le_ten (x : ℝ) (h : 0 ≤ x) : 1 ≤ (10 : ℝ) ^ x := Real.one_le_rpow (by norm_num) h

theorem ten_mono {x y : ℝ} (h : x ≤ y) : (10 : ℝ) ^ x ≤ (10 : ℝ) ^ y := Real.rpow_le_rpow_of_exponent_le (by norm_num) h

/-- A band is silent or at least a tenth of a noy. -/
theorem noisiness_floor (r : Noy) (hr : Good r) (L : ℝ) : noisiness 85.9 r L = 0 ∨ 0.1 ≤ noisiness 85.9 r L := by
  unfold noisiness
  dsimp only
  split_ifs with h1 h2 h3 h4
  · right; have := one_le_ten (r.md * (L - r.d)) (mul_nonneg hr.md.le (by linarith [h1.1])); linarith
  · right; have := one_le_ten (r.me * (L - r.e)) (mul_nonneg hr.me.le (by linarith [h2.1])); linarith
  · right; have := one_le_ten (r.mb * (L - r.b)) (mul_nonneg hr.mb.le (by linarith [h3.1])); linarith
  · right; have := one_le_ten (r.mc * (L - r.c)) (mul_nonneg hr.mc (by linarith [hr.c85])); linarith
  · left; rfl

theorem noisiness_nonneg (r : Noy) (hr : Good r) (L : ℝ) : 0 ≤ noisiness 85.9 r L := by
  rcases noisiness_floor r hr L with h | h <;> linarith

/-! ## The specification -/

/-- Noisiness of a band by the certification procedure: five ranges of the level. -/
noncomputable def standard (r : Noy) (L : ℝ) : ℝ :=
  if L < r.d then 0
  else if L < r.e then 0.1 * (10 : ℝ) ^ (r.md * (L - r.d))
  else if L < r.b then 0.3 * (10 : ℝ) ^ (r.me * (L - r.e))
  else if L < r.a then (10 : ℝ) ^ (r.mb * (L - r.b))
  else (10 : ℝ) ^ (r.mc * (L - r.c))

theorem noisiness_eq (r : Noy) (hr : Good r) (L : ℝ) (h : L < r.a ∨ 85.9 ≤ L) : noisiness 85.9 r L = standard r L := by
  have := hr.de; have := hr.eb; have := hr.ba; have := hr.b85
  unfold noisiness standard
  dsimp only
  by_cases h1 : L < r.d
  · rw [if_pos h1, if_neg (fun hc => by linarith [hc.1]), if_neg (fun hc => by linarith [hc.1]),
      if_neg (fun hc => by linarith [hc.1]), if_neg (by linarith)]
  · rw [if_neg h1]
    by_cases h2 : L < r.e
    · rw [if_pos h2, if_pos ⟨not_lt.1 h1, h2⟩]
    · rw [if_neg h2, if_neg (fun hc => h2 hc.2)]
      by_cases h3 : L < r.b
      · rw [if_pos h3, if_pos ⟨not_lt.1 h2, h3⟩]
      · rw [if_neg h3, if_neg (fun hc => h3 hc.2)]
        by_cases h4 : L < r.a
        · rw [if_pos h4, if_pos ⟨not_lt.1 h3, h4⟩]
        · rw [if_neg h4, if_neg (fun hc => h4 hc.2)]
          rcases h with h | h
          · exact absurd h h4
          · rw [if_pos h]

/-- Total noisiness of a spectrum by the certification procedure. -/
noncomputable def standardNoys (L : List ℝ) : List ℝ := (noy.zip L).map fun x => standard x.1 x.2

/-! ## C122 -/

/-- A spectrum whose bands are all below their upper limit or above 85.9 dB, and whose last band is too faint to count,
gets the level of the certification procedure. -/
theorem C122_value_partial (L : List ℝ) (hl : L.length = 24)
    (h : ∀ p ∈ noy.zip L, p.2 < p.1.a ∨ 85.9 ≤ p.2) (hlast : L.getLast? = some 0)
    (hN : combine (standardNoys L) ≠ 0) :
    pnl L = 40 + 10 * logb 2 (0.85 * (standardNoys L).foldr max 0 + 0.15 * (standardNoys L).sum) := by
  have hx : noys L = standardNoys L := by
    unfold noys standardNoys
    obtain ⟨M, rfl⟩ : ∃ M, L = M ++ [0] := by
      rcases List.eq_nil_or_concat L with h0 | ⟨M, x, hM⟩
      · rw [h0] at hl; simp at hl
      · refine ⟨M, ?_⟩
        rw [hM] at hlast
        simp at hlast
        rw [hM, hlast]; simp
    have hM : M.length = 23 := by simpa using hl
    have e1 : (M ++ [(0 : ℝ)]).take 23 = M := by rw [← hM]; simp
    have e2 : noy = noy.take 23 ++ [⟨50.7, 41, 37, 21, 29, 0.042285, 0.02996, 0.05964, 0.043573⟩] := rfl
    rw [e1]
    have e3 : noy.zip (M ++ [(0 : ℝ)]) = (noy.take 23).zip M
        ++ [((⟨50.7, 41, 37, 21, 29, 0.042285, 0.02996, 0.05964, 0.043573⟩ : Noy), (0 : ℝ))] := by
      nth_rewrite 1 [e2]
      rw [List.zip_append (by rw [hM]; rfl)]
      rfl
    rw [e3] at h ⊢
    rw [List.map_append]
    congr 1
    · apply List.map_congr_left
      intro p hp
      have hr : p.1 ∈ noy := List.mem_of_mem_take (List.of_mem_zip hp).1
      exact noisiness_eq p.1 (noy_good _ hr) p.2 (h p (List.mem_append_left _ hp))
    · simp [standard]
  unfold pnl
  rw [hx]
  unfold loudness
  dsimp only
  rw [if_neg hN]
  have h2 : logb 10 (combine (standardNoys L)) = logb 10 2 * logb 2 (combine (standardNoys L)) := by
    rw [Real.mul_logb] <;> norm_num
  have hl2 : logb 10 2 ≠ 0 := (Real.logb_pos (by norm_num) (by norm_num)).ne'
  rw [h2]
  unfold combine
  field_simp

theorem foldr_max_nonneg (x : List ℝ) : 0 ≤ x.foldr max 0 := by
  induction x with
  | nil => simp
  | cons a x ih => exact ih.trans (le_max_right _ _)

theorem foldr_max_le (x : List ℝ) (c : ℝ) (h0 : 0 ≤ c) (h : ∀ a ∈ x, a ≤ c) : x.foldr max 0 ≤ c := by
  induction x with
  | nil => simpa
  | cons a x ih =>
    exact max_le (h a (by simp)) (ih fun b hb => h b (by simp [hb]))

theorem le_foldr_max (x : List ℝ) (a : ℝ) (h : a ∈ x) : a ≤ x.foldr max 0 := by
  induction x with
  | nil => simp at h
  | cons b x ih =>
    rcases List.mem_cons.1 h with rfl | h
    · exact le_max_left _ _
    · exact (ih h).trans (le_max_right _ _)

theorem noys_floor (L : List ℝ) : ∀ x ∈ noys L, x = 0 ∨ 0.1 ≤ x := by
  intro x hx
  unfold noys at hx
  rcases List.mem_append.1 hx with h | h
  · obtain ⟨p, hp, rfl⟩ := List.mem_map.1 h
    exact noisiness_floor p.1 (noy_good _ (List.mem_of_mem_take (List.of_mem_zip hp).1)) p.2
  · left; simpa using h

theorem combine_floor (x : List ℝ) (h : ∀ a ∈ x, a = 0 ∨ 0.1 ≤ a) : combine x = 0 ∨ 0.1 ≤ combine x := by
  have hs : ∀ a ∈ x, a ≤ x.sum := fun a ha =>
    List.single_le_sum (fun b hb => by rcases h b hb with e | e <;> linarith) a ha
  have hs0 : 0 ≤ x.sum := List.sum_nonneg fun b hb => by rcases h b hb with e | e <;> linarith
  unfold combine
  by_cases hz : ∀ a ∈ x, a = 0
  · left
    have e1 : x.foldr max 0 = 0 := le_antisymm (foldr_max_le x 0 le_rfl fun a ha => (hz a ha).le) (foldr_max_nonneg x)
    have e2 : x.sum = 0 := List.sum_eq_zero hz
    rw [e1, e2]; norm_num
  · right
    push Not at hz
    obtain ⟨a, ha, hne⟩ := hz
    have h1 := (h a ha).resolve_left hne
    have h2 := le_foldr_max x a ha
    have h3 := hs a ha
    linarith

theorem loudness_sixteenth : 40 + (10 / logb 10 2) * logb 10 (0.0625 : ℝ) = 0 := by
  have h : (0.0625 : ℝ) = ((2 : ℝ) ^ 4)⁻¹ := by norm_num
  have hl2 : logb 10 2 ≠ 0 := (Real.logb_pos (by norm_num) (by norm_num)).ne'
  rw [h, Real.logb_inv, Real.logb_pow]
  field_simp
  norm_num

theorem loudness_mono {a b : ℝ} (ha : 0 < a) (h : a ≤ b) : loudness a ≤ loudness b := by
  have hb : 0 < b := ha.trans_le h
  unfold loudness
  dsimp only
  rw [if_neg ha.ne', if_neg hb.ne']
  have h1 : logb 10 a ≤ logb 10 b := (Real.logb_le_logb (by norm_num) ha hb).2 h
  have h2 : 0 < logb 10 2 := Real.logb_pos (by norm_num) (by norm_num)
  have : 10 / logb 10 2 * logb 10 a ≤ 10 / logb 10 2 * logb 10 b := mul_le_mul_of_nonneg_left h1 (by positivity)
  linarith

/-- The level is never negative. -/
theorem C122_nonneg (L : List ℝ) : 0 ≤ pnl L := by
  unfold pnl
  rcases combine_floor _ (noys_floor L) with h | h
  · rw [h]; unfold loudness; dsimp only; rw [if_pos rfl, loudness_sixteenth]
  · have h1 : loudness (0.0625) ≤ loudness (combine (noys L)) := loudness_mono (by norm_num) (by linarith)
    have h2 : loudness (0.0625) = 0 := by
      unfold loudness; dsimp only; rw [if_neg (by norm_num), loudness_sixteenth]
    linarith

/-- Twice the noisiness is ten decibels more. -/
theorem C122_double (L L' : List ℝ) (h : combine (noys L') = 2 * combine (noys L)) (h0 : combine (noys L) ≠ 0) :
    pnl L' = pnl L + 10 := by
  unfold pnl loudness
  dsimp only
  have hl2 : logb 10 2 ≠ 0 := (Real.logb_pos (by norm_num) (by norm_num)).ne'
  rw [h, if_neg h0, if_neg (by simpa using h0), Real.logb_mul (by norm_num) h0]
  field_simp
  ring

/-- Silence, or bands all below the threshold: level zero. -/
theorem C122_quiet (L : List ℝ) (h : ∀ p ∈ noy.zip L, p.2 < p.1.d) : pnl L = 0 := by
  have hz : ∀ x ∈ noys L, x = 0 := by
    intro x hx
    unfold noys at hx
    rcases List.mem_append.1 hx with hm | hm
    · obtain ⟨p, hp, rfl⟩ := List.mem_map.1 hm
      have hr := noy_good _ (List.mem_of_mem_take (List.of_mem_zip hp).1)
      have hp' : p ∈ noy.zip L := by
        have : (noy.take 23).zip (L.take 23) = (noy.zip L).take 23 := by
          simp [List.zip, List.take_zipWith]
        rw [this] at hp
        exact List.mem_of_mem_take hp
      have hd := h p hp'
      have := hr.de; have := hr.eb; have := hr.ba
      rw [noisiness_eq p.1 hr p.2 (Or.inl (by linarith))]
      unfold standard
      rw [if_pos hd]
    · simpa using hm
  have hc : combine (noys L) = 0 := by
    unfold combine
    rw [List.sum_eq_zero hz,
      le_antisymm (foldr_max_le _ 0 le_rfl fun a ha => (hz a ha).le) (foldr_max_nonneg _)]
    norm_num
  unfold pnl
  rw [hc]; unfold loudness; dsimp only; rw [if_pos rfl, loudness_sixteenth]

theorem standard_mono (r : Noy) (hr : Good r) {L L' : ℝ} (h : L ≤ L') (ha : L' < r.a) : standard r L ≤ K * standard r L' := by
  have hde := hr.de; have heb := hr.eb; have hba := hr.ba
  have hK := K_one
  have hK2 := K_two
  have key : ∀ x y : ℝ, x ≤ y → 0 ≤ y → x ≤ K * y := fun x y h1 h2 => by nlinarith
  unfold standard
  by_cases a1 : L < r.d
  · rw [if_pos a1]
    refine key _ _ ?_ ?_ <;> (split_ifs <;> positivity)
  · rw [if_neg a1, if_neg (show ¬ L' < r.d by linarith)]
    by_cases a2 : L < r.e
    · rw [if_pos a2]
      have hm : r.md * (L - r.d) ≤ 0.47712 := by nlinarith [hr.jd, hr.md]
      have hj := three_join _ hm
      by_cases b2 : L' < r.e
      · rw [if_pos b2]
        refine key _ _ ?_ (by positivity)
        have := ten_mono (show r.md * (L - r.d) ≤ r.md * (L' - r.d) by nlinarith [hr.md])
        linarith
      · rw [if_neg b2]
        by_cases b3 : L' < r.b
        · rw [if_pos b3]
          have := one_le_ten (r.me * (L' - r.e)) (mul_nonneg hr.me.le (by linarith))
          nlinarith
        · rw [if_neg b3, if_pos ha]
          have := one_le_ten (r.mb * (L' - r.b)) (mul_nonneg hr.mb.le (by linarith))
          nlinarith
    · rw [if_neg a2, if_neg (show ¬ L' < r.e by linarith)]
      by_cases a3 : L < r.b
      · rw [if_pos a3]
        have hm : r.me * (L - r.e) ≤ 0.522886 := by nlinarith [hr.je, hr.me]
        have hj := ten_join _ hm
        by_cases b3 : L' < r.b
        · rw [if_pos b3]
          refine key _ _ ?_ (by positivity)
          have := ten_mono (show r.me * (L - r.e) ≤ r.me * (L' - r.e) by nlinarith [hr.me])
          linarith
        · rw [if_neg b3, if_pos ha]
          have := one_le_ten (r.mb * (L' - r.b)) (mul_nonneg hr.mb.le (by linarith))
          nlinarith
      · rw [if_neg a3, if_neg (show ¬ L' < r.b by linarith), if_pos (show L < r.a by linarith), if_pos ha]
        exact key _ _ (ten_mono (by nlinarith [hr.mb])) (by positivity)

theorem forall2_noys : ∀ (R : List Noy) (L L' : List ℝ), (∀ r ∈ R, Good r) → List.Forall₂ (· ≤ ·) L L' →
    (∀ p ∈ R.zip L', p.2 < p.1.a) →
    List.Forall₂ (fun x y => x ≤ K * y) ((R.zip L).map fun x => noisiness 85.9 x.1 x.2)
      ((R.zip L').map fun x => noisiness 85.9 x.1 x.2)
  | [], _, _, _, _, _ => by simp
  | _ :: _, [], _, _, h, _ => by cases h; simp
  | r :: R, a :: L, _, hg, h, hb => by
    cases h with
    | @cons _ b _ L' hab hrest =>
      simp only [List.zip_cons_cons, List.map_cons]
      have hr := hg r (by simp)
      have hba : b < r.a := hb (r, b) (by simp)
      refine List.Forall₂.cons ?_ (forall2_noys R L L' (fun r' h' => hg r' (by simp [h'])) hrest
        fun p hp => hb p (by simp [hp]))
      rw [noisiness_eq r hr a (Or.inl (by linarith)), noisiness_eq r hr b (Or.inl hba)]
      exact standard_mono r hr hab hba

theorem combine_mono : ∀ (x y : List ℝ), List.Forall₂ (fun x y => x ≤ K * y) x y →
    x.foldr max 0 ≤ K * y.foldr max 0 ∧ x.sum ≤ K * y.sum := by
  intro x y h
  induction h with
  | nil => simp
  | @cons a b x y hab _ ih =>
    have hK := K_one
    simp only [List.foldr_cons, List.sum_cons]
    constructor
    · rw [mul_max_of_nonneg _ _ (by linarith)]
      exact max_le_max hab ih.1
    · nlinarith [ih.2]

/-- Below the upper limits a spectrum louder in every band is at least as noisy, to a thousandth of a decibel. -/
theorem C122_monotone_partial (L L' : List ℝ) (h : List.Forall₂ (· ≤ ·) L L')
    (ha : ∀ p ∈ noy.zip L', p.2 < p.1.a) : pnl L ≤ pnl L' + 0.001 := by
  have hK := K_one
  have htake : ∀ M : List ℝ, (noy.take 23).zip (M.take 23) = (noy.zip M).take 23 := fun M => by
    simp [List.zip, List.take_zipWith]
  have hf : List.Forall₂ (fun x y => x ≤ K * y) (noys L) (noys L') := by
    unfold noys
    have h1 := forall2_noys (noy.take 23) (L.take 23) (L'.take 23) (fun r hr => noy_good r (List.mem_of_mem_take hr))
      (List.forall₂_take 23 h) (fun p hp => by rw [htake] at hp; exact ha p (List.mem_of_mem_take hp))
    exact List.rel_append h1 (List.Forall₂.cons (by simp) List.Forall₂.nil)
  obtain ⟨h1, h2⟩ := combine_mono _ _ hf
  have hN : combine (noys L) ≤ K * combine (noys L') := by unfold combine; linarith
  rcases combine_floor _ (noys_floor L) with hz | hp
  · have : pnl L = 0 := by
      unfold pnl; rw [hz]; unfold loudness; dsimp only; rw [if_pos rfl, loudness_sixteenth]
    have := C122_nonneg L'
    linarith
  · have hp' : 0 < combine (noys L') := by
      by_contra hc
      nlinarith
    have h3 : loudness (combine (noys L)) ≤ loudness (K * combine (noys L')) := loudness_mono (by linarith) hN
    have h4 : loudness (K * combine (noys L')) = loudness (combine (noys L')) + 10 / logb 10 2 * 2e-5 := by
      unfold loudness
      dsimp only
      rw [if_neg (mul_pos (by linarith) hp').ne', if_neg hp'.ne', Real.logb_mul (by linarith) hp'.ne']
      have : logb 10 K = 2e-5 := by unfold K; exact Real.logb_rpow (by norm_num) (by norm_num)
      rw [this]; ring
    have h5 : (0.3 : ℝ) ≤ logb 10 2 := by
      rw [Real.le_logb_iff_rpow_le (by norm_num) (by norm_num)]
      have h : ((10 : ℝ) ^ (0.3 : ℝ)) ^ (10 : ℕ) ≤ (2 : ℝ) ^ (10 : ℕ) := by
        rw [← rpow_natCast, ← rpow_mul (by norm_num)]
        have : (0.3 : ℝ) * ((10 : ℕ) : ℝ) = ((3 : ℕ) : ℝ) := by norm_num
        rw [this, rpow_natCast]
        norm_num
      exact le_of_pow_le_pow_left₀ (by norm_num) (by norm_num) h
    have h6 : 10 / logb 10 2 * 2e-5 ≤ 0.001 := by
      rw [div_mul_eq_mul_div, div_le_iff₀ (by linarith)]
      norm_num
      linarith
    unfold pnl
    linarith

/-- A level in one band only. -/
noncomputable def only (k : ℕ) (x : ℝ) : List ℝ := (List.range 24).map fun i => if i = k then x else 0

example : pnl (only 4 50) ≤ pnl (only 4 60) + 0.001 := by
  apply C122_monotone_partial
  · simp only [only, List.range, List.range.loop, List.map_cons, List.map_nil]; norm_num
  · simp only [only, List.range, List.range.loop, List.map_cons, List.map_nil, noy]; norm_num

/-- 40 dB at 1 kHz is one noy, 40 PNdB. -/
example : pnl (only 13 40) = 40 := by
  have e : standardNoys (only 13 40) = (List.range 24).map fun i => if i = 13 then 1 else 0 := by
    simp only [standardNoys, only, List.range, List.range.loop, List.map_cons, List.map_nil, noy, List.zip, List.zipWith,
      standard]
    norm_num
  have ec : combine (standardNoys (only 13 40)) = 1 := by
    rw [e]; simp only [combine, List.range, List.range.loop, List.map_cons, List.map_nil]; norm_num
  rw [C122_value_partial (only 13 40) rfl ?_ rfl (by rw [ec]; norm_num)]
  · have : (0.85 * (standardNoys (only 13 40)).foldr max 0 + 0.15 * (standardNoys (only 13 40)).sum) = 1 := ec
    rw [this]; simp
  · simp only [only, List.range, List.range.loop, List.map_cons, List.map_nil, noy]; norm_num

/-- At 160 Hz a level of 80 dB reads as silence, while 75 dB is more than 40 PNdB. -/
theorem C122_gap_counterexample :
    ¬ ∀ L L' : List ℝ, L.length = 24 → List.Forall₂ (· ≤ ·) L L' → pnl L ≤ pnl L' + 0.001 := by
  intro H
  have h := H (only 5 75) (only 5 80) rfl (by
    simp only [only, List.range, List.range.loop, List.map_cons, List.map_nil]; norm_num)
  have h80 : pnl (only 5 80) = 0 := by
    have : combine (noys (only 5 80)) = 0 := by
      simp only [only, List.range, List.range.loop, List.map_cons, List.map_nil, noys, noy, noisiness, combine,
        List.take, List.zip, List.zipWith]
      norm_num
    unfold pnl
    rw [this]; unfold loudness; dsimp only; rw [if_pos rfl, loudness_sixteenth]
  have h75 : 0.1 ≤ combine (noys (only 5 75)) := by
    have : combine (noys (only 5 75)) ≠ 0 := by
      simp only [only, List.range, List.range.loop, List.map_cons, List.map_nil, noys, noy, noisiness, combine,
        List.take, List.zip, List.zipWith]
      norm_num
      positivity
    exact (combine_floor _ (noys_floor _)).resolve_left this
  have h1 : loudness 0.1 ≤ pnl (only 5 75) := loudness_mono (by norm_num) h75
  have h2 : loudness 0.1 = 40 - 10 / logb 10 2 := by
    unfold loudness
    dsimp only
    rw [if_neg (by norm_num)]
    have : logb 10 0.1 = -1 := by
      rw [show (0.1 : ℝ) = (10 : ℝ)⁻¹ by norm_num, Real.logb_inv, Real.logb_self_eq_one (by norm_num)]
    rw [this]; ring
  have h5 : (0.3 : ℝ) ≤ logb 10 2 := by
    rw [Real.le_logb_iff_rpow_le (by norm_num) (by norm_num)]
    have h : ((10 : ℝ) ^ (0.3 : ℝ)) ^ (10 : ℕ) ≤ (2 : ℝ) ^ (10 : ℕ) := by
      rw [← rpow_natCast, ← rpow_mul (by norm_num)]
      have : (0.3 : ℝ) * ((10 : ℕ) : ℝ) = ((3 : ℕ) : ℝ) := by norm_num
      rw [this, rpow_natCast]
      norm_num
    exact le_of_pow_le_pow_left₀ (by norm_num) (by norm_num) h
  have h6 : 10 / logb 10 2 ≤ 35 := by
    rw [div_le_iff₀ (by linarith)]; linarith
  linarith

theorem tenth_upper : (10 : ℝ) ^ (0.31 : ℝ) ≤ 2.05 := by
  have h : ((10 : ℝ) ^ (0.31 : ℝ)) ^ (100 : ℕ) ≤ (2.05 : ℝ) ^ (100 : ℕ) := by
    rw [← rpow_natCast, ← rpow_mul (by norm_num)]
    have : (0.31 : ℝ) * ((100 : ℕ) : ℝ) = ((31 : ℕ) : ℝ) := by norm_num
    rw [this, rpow_natCast]; norm_num
  exact le_of_pow_le_pow_left₀ (by norm_num) (by norm_num) h

theorem tenth_lower : (1.94 : ℝ) ≤ (10 : ℝ) ^ (0.29 : ℝ) := by
  have h : (1.94 : ℝ) ^ (100 : ℕ) ≤ ((10 : ℝ) ^ (0.29 : ℝ)) ^ (100 : ℕ) := by
    rw [← rpow_natCast _ 100, ← rpow_natCast _ 100, ← rpow_mul (by norm_num)]
    have : (0.29 : ℝ) * ((100 : ℕ) : ℝ) = ((29 : ℕ) : ℝ) := by norm_num
    rw [this, rpow_natCast, rpow_natCast]; norm_num
  exact le_of_pow_le_pow_left₀ (by norm_num) (by positivity) h

/-- From 400 to 6300 Hz ten decibels double the noisiness, to five per cent, from the level of one noy on, up to any level
within the table. -/
theorem C122_ten_decibels {r : Noy} (hr : r ∈ (noy.drop 9).take 13) {L : ℝ} (hL : r.b ≤ L) (hL' : L + 10 < 9999999) :
    1.94 * noisiness 85.9 r L ≤ noisiness 85.9 r (L + 10) ∧ noisiness 85.9 r (L + 10) ≤ 2.05 * noisiness 85.9 r L := by
  have hb : r.a = 9999999 ∧ r.d < r.e ∧ r.e < r.b ∧ 0.029 ≤ r.mb ∧ r.mb ≤ 0.031 := by
    simp only [noy, List.drop, List.take, List.mem_cons, List.not_mem_nil, or_false] at hr
    rcases hr with rfl | rfl | rfl | rfl | rfl | rfl | rfl | rfl | rfl | rfl | rfl | rfl | rfl <;> norm_num
  obtain ⟨ha, hd, he, h1, h2⟩ := hb
  have hv : ∀ x, r.b ≤ x → x < 9999999 → noisiness 85.9 r x = (10 : ℝ) ^ (r.mb * (x - r.b)) := by
    intro x hx hx'
    unfold noisiness
    dsimp only
    rw [if_neg (by rintro ⟨_, h⟩; linarith), if_neg (by rintro ⟨_, h⟩; linarith), if_pos ⟨hx, by rw [ha]; exact hx'⟩]
  rw [hv L hL (by linarith), hv (L + 10) (by linarith) hL',
    show r.mb * (L + 10 - r.b) = r.mb * 10 + r.mb * (L - r.b) by ring, Real.rpow_add (by norm_num)]
  have hp : (0 : ℝ) < (10 : ℝ) ^ (r.mb * (L - r.b)) := by positivity
  have hlo : (1.94 : ℝ) ≤ (10 : ℝ) ^ (r.mb * 10) :=
    tenth_lower.trans (Real.rpow_le_rpow_of_exponent_le (by norm_num) (by linarith))
  have hhi : (10 : ℝ) ^ (r.mb * 10) ≤ 2.05 :=
    (Real.rpow_le_rpow_of_exponent_le (by norm_num) (by linarith)).trans tenth_upper
  exact ⟨mul_le_mul_of_nonneg_right hlo hp.le, mul_le_mul_of_nonneg_right hhi hp.le⟩

example : noisiness 85.9 ⟨9999999, 40, 40, 16, 25, 0.030103, 0, 0.053013, 0.034859⟩ 60
    ≤ 2.05 * noisiness 85.9 ⟨9999999, 40, 40, 16, 25, 0.030103, 0, 0.053013, 0.034859⟩ 50 := by
  have := (C122_ten_decibels (r := ⟨9999999, 40, 40, 16, 25, 0.030103, 0, 0.053013, 0.034859⟩) (L := 50)
    (by simp [noy]) (by norm_num) (by norm_num)).2
  norm_num at this ⊢
  exact this

/-- The band at 10 kHz does not count, however loud. -/
theorem C122_last_band (L : List ℝ) (x y : ℝ) (hl : L.length = 23) : pnl (L ++ [x]) = pnl (L ++ [y]) := by
  have h : ∀ z : ℝ, (L ++ [z]).take 23 = L := fun z => by rw [← hl]; simp
  unfold pnl noys
  rw [h x, h y]

end Verif.Noise
