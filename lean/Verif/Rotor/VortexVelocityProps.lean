import Verif.Rotor.VortexWakeProps
import Verif.Vlm.BiotSavart

/-! Velocity induced by the vortex wake of a rotor (C332 – C338). -/

namespace Verif.Rotor.Vortex
open Real Verif.Rotor Verif.Vlm

/-! ### C332: a vortex segment -/

/-- Before the kernel the segment follows the law of Biot and Savart. -/
theorem C332_biot_savart (A B P : Vec3) (ha : 0 < Vec3.dot (B - A) (B - A))
    (hD : 0 < Vec3.dot (B - A) (B - A) * Vec3.dot (P - A) (P - A) - Vec3.dot (B - A) (P - A) ^ 2) :
    coef A B P = boundVelocity A B P := by
  rw [boundVelocity_eq A B P ha hD]
  have hn : Vec3.cross (P - A) (P - B) = Vec3.cross (B - A) (P - A) := by
    ext <;> simp only [Vec3.cross, Vec3.sub_x, Vec3.sub_y, Vec3.sub_z] <;> ring
  have hsq : (Vec3.cross (B - A) (P - A)).x ^ 2 + (Vec3.cross (B - A) (P - A)).y ^ 2 + (Vec3.cross (B - A) (P - A)).z ^ 2 =
      Vec3.dot (B - A) (B - A) * Vec3.dot (P - A) (P - A) - Vec3.dot (B - A) (P - A) ^ 2 := by
    simp only [Vec3.cross, Vec3.dot, Vec3.sub_x, Vec3.sub_y, Vec3.sub_z]
    ring
  have hdot : Vec3.dot (B - A) (P - B) = Vec3.dot (B - A) (P - A) - Vec3.dot (B - A) (B - A) := by
    simp only [Vec3.dot, Vec3.sub_x, Vec3.sub_y, Vec3.sub_z]
    ring
  simp only [coef, hn, hsq, hdot]
  rw [if_neg hD.ne']
  generalize Vec3.dot (B - A) (B - A) * Vec3.dot (P - A) (P - A) - Vec3.dot (B - A) (P - A) ^ 2 = D
  ext <;> simp only [Vec3.smul] <;> ring

example : coef ⟨-1, 0, 0⟩ ⟨1, 0, 0⟩ ⟨0, 1, 0⟩ = boundVelocity ⟨-1, 0, 0⟩ ⟨1, 0, 0⟩ ⟨0, 1, 0⟩ :=
  C332_biot_savart _ _ _ (by norm_num [Vec3.dot]) (by norm_num [Vec3.dot])

/-- Size of the kernel: with `s` the square of the distance in cores. -/
theorem kernel_size (σ m : ℝ) (hσ : 0 < σ) (hm : 0 < m) :
    let s := 1 / (4 * π * m) / σ ^ 2
    let K := sqrt (1 / (4 * π * m)) * (s + 5 / 2) / (4 * π * σ ^ 3 * (s + 1) ^ ((5 : ℝ) / 2))
    0 < s ∧ m = 1 / (4 * π * σ ^ 2 * s) ∧ 0 < 4 * π * σ ^ 3 * (s + 1) ^ ((5 : ℝ) / 2) ∧ 0 < K ∧
      K ^ 2 = s * (s + 5 / 2) ^ 2 / (s + 1) ^ 5 / (4 * π * σ ^ 2) ^ 2 := by
  intro s K
  have hs : 0 < s := by positivity
  have hden : 0 < 4 * π * σ ^ 3 * (s + 1) ^ ((5 : ℝ) / 2) := by positivity
  have hR : 1 / (4 * π * m) = s * σ ^ 2 := by
    simp only [s]
    field_simp
  refine ⟨hs, ?_, hden, by positivity, ?_⟩
  · have : s = 1 / (4 * π * m) / σ ^ 2 := rfl
    rw [this]
    field_simp
  · have hp : ((s + 1) ^ ((5 : ℝ) / 2)) ^ 2 = (s + 1) ^ 5 := by
      rw [← rpow_natCast, ← rpow_mul (by positivity), ← rpow_natCast]
      norm_num
    have hq : sqrt (1 / (4 * π * m)) ^ 2 = s * σ ^ 2 := by rw [sq_sqrt (by positivity), hR]
    simp only [K]
    rw [div_pow, mul_pow, hq, mul_pow, hp]
    field_simp

/-- What the kernel returns for a coefficient above the threshold. -/
theorem kernel_eq (σ c : ℝ) (hσ : 0 < σ) (hc : 1e-8 < |c|) :
    let s := 1 / (4 * π * |c|) / σ ^ 2
    kernel σ c = sqrt (1 / (4 * π * |c|)) * (s + 5 / 2) / (4 * π * σ ^ 3 * (s + 1) ^ ((5 : ℝ) / 2)) * Real.sign c := by
  intro s
  have hm : 0 < |c| := lt_trans (by norm_num) hc
  obtain ⟨-, -, hden, -, -⟩ := kernel_size σ |c| hσ hm
  simp only [kernel]
  rw [if_neg (not_le.2 hc), if_neg hden.ne']

/-- Magnitude of the kernel for any coefficient. -/
theorem kernel_abs (σ c : ℝ) (hσ : 0 < σ) (hc : c ≠ 0) :
    let m := max |c| 1e-8
    let s := 1 / (4 * π * m) / σ ^ 2
    |kernel σ c| = sqrt (1 / (4 * π * m)) * (s + 5 / 2) / (4 * π * σ ^ 3 * (s + 1) ^ ((5 : ℝ) / 2)) := by
  intro m s
  have hm : 0 < m := lt_of_lt_of_le (by norm_num) (le_max_right _ _)
  have hmm : (if |c| ≤ 1e-8 then (1e-8 : ℝ) else |c|) = m := by
    split_ifs with h
    · exact (max_eq_right h).symm
    · exact (max_eq_left (not_le.1 h).le).symm
  obtain ⟨-, -, hden, hK, -⟩ := kernel_size σ m hσ hm
  have hsg : |Real.sign c| = 1 := by
    rcases lt_or_gt_of_ne hc with h | h
    · rw [Real.sign_of_neg h]; norm_num
    · rw [Real.sign_of_pos h]; norm_num
  simp only [kernel]
  rw [show (if |c| ≤ (1e-8 : ℝ) then (1e-8 : ℝ) else |c|) = m from hmm, if_neg hden.ne', abs_mul, hsg, mul_one]
  exact abs_of_pos hK

/-- The kernel keeps the sense of the velocity. -/
theorem C332_sense (σ c : ℝ) (hσ : 0 < σ) : (0 < c → 0 < kernel σ c) ∧ (c < 0 → kernel σ c < 0) ∧ (c = 0 → kernel σ c = 0) := by
  have hne : ∀ c : ℝ, c ≠ 0 → kernel σ c ≠ 0 := by
    intro c hc h
    have := kernel_abs σ c hσ hc
    rw [h, abs_zero] at this
    have hm : 0 < max |c| 1e-8 := lt_of_lt_of_le (by norm_num) (le_max_right _ _)
    obtain ⟨-, -, -, hK, -⟩ := kernel_size σ _ hσ hm
    exact hK.ne this
  have hsign : ∀ c : ℝ, ∃ x : ℝ, 0 ≤ x ∧ kernel σ c = x * Real.sign c := by
    intro c
    refine ⟨_, ?_, rfl⟩
    have hm : 0 ≤ (if |c| ≤ (1e-8 : ℝ) then (1e-8 : ℝ) else |c|) := by split_ifs <;> positivity
    generalize (if |c| ≤ (1e-8 : ℝ) then (1e-8 : ℝ) else |c|) = m at hm ⊢
    apply div_nonneg
    · positivity
    · split_ifs
      · norm_num
      · positivity
  refine ⟨fun h => ?_, fun h => ?_, fun h => ?_⟩
  · obtain ⟨x, hx, e⟩ := hsign c
    rw [Real.sign_of_pos h, mul_one] at e
    exact lt_of_le_of_ne (e ▸ hx) (hne c h.ne').symm
  · obtain ⟨x, hx, e⟩ := hsign c
    rw [Real.sign_of_neg h] at e
    refine lt_of_le_of_ne ?_ (hne c h.ne)
    rw [e]; linarith
  · obtain ⟨x, hx, e⟩ := hsign c
    rw [e, h, Real.sign_zero, mul_zero]

/-- The kernel only weakens a velocity, but for coefficients below `1e-8`. -/
theorem C332_damps (σ c : ℝ) (hσ : 0 < σ) : |kernel σ c| < max |c| 1e-8 := by
  by_cases hc : c = 0
  · rw [(C332_sense σ c hσ).2.2 hc, abs_zero]
    exact lt_of_lt_of_le (by norm_num) (le_max_right _ _)
  have hm : 0 < max |c| 1e-8 := lt_of_lt_of_le (by norm_num) (le_max_right _ _)
  obtain ⟨hs, hme, -, hK, hK2⟩ := kernel_size σ _ hσ hm
  rw [kernel_abs σ c hσ hc]
  generalize max |c| 1e-8 = m at *
  generalize 1 / (4 * π * m) / σ ^ 2 = s at *
  generalize sqrt (1 / (4 * π * m)) * (s + 5 / 2) / (4 * π * σ ^ 3 * (s + 1) ^ ((5 : ℝ) / 2)) = K at *
  have hU : 0 < 4 * π * σ ^ 2 := by positivity
  refine lt_of_pow_lt_pow_left₀ 2 hm.le ?_
  rw [hK2, hme, div_pow, one_pow]
  generalize 4 * π * σ ^ 2 = U at *
  rw [div_div, div_lt_div_iff₀ (by positivity) (by positivity)]
  have : s ^ 3 * (s + 5 / 2) ^ 2 < (s + 1) ^ 5 := by
    nlinarith [pow_pos hs 2, pow_pos hs 3]
  nlinarith [pow_pos hU 2, mul_lt_mul_of_pos_right this (pow_pos hU 2)]

/-- However close the point, no component of the velocity of a unit segment exceeds `1 / (4 π σ²)`. -/
theorem C332_bounded (σ c : ℝ) (hσ : 0 < σ) : |kernel σ c| < 1 / (4 * π * σ ^ 2) := by
  by_cases hc : c = 0
  · rw [(C332_sense σ c hσ).2.2 hc, abs_zero]
    positivity
  have hm : 0 < max |c| 1e-8 := lt_of_lt_of_le (by norm_num) (le_max_right _ _)
  obtain ⟨hs, -, -, hK, hK2⟩ := kernel_size σ _ hσ hm
  rw [kernel_abs σ c hσ hc]
  generalize max |c| 1e-8 = m at *
  generalize 1 / (4 * π * m) / σ ^ 2 = s at *
  generalize sqrt (1 / (4 * π * m)) * (s + 5 / 2) / (4 * π * σ ^ 3 * (s + 1) ^ ((5 : ℝ) / 2)) = K at *
  have hU : 0 < 4 * π * σ ^ 2 := by positivity
  refine lt_of_pow_lt_pow_left₀ 2 (by positivity) ?_
  rw [hK2, div_pow, one_pow]
  generalize 4 * π * σ ^ 2 = U at *
  apply div_lt_div_of_pos_right _ (pow_pos hU 2)
  rw [div_lt_one (by positivity)]
  nlinarith [pow_pos hs 2, pow_pos hs 3, pow_pos hs 4, pow_pos hs 5, sq_nonneg (s - 1 / 8)]

/-- Far from the segment, in cores, the kernel leaves the velocity as it is up to five over the fourth power of the distance. -/
theorem C332_far (σ c : ℝ) (hσ : 0 < σ) (hc : 1e-8 ≤ |c|) (hs : 10 ≤ 1 / (4 * π * |c|) / σ ^ 2) :
    (1 - 5 / (1 / (4 * π * |c|) / σ ^ 2) ^ 2) * |c| ≤ |kernel σ c| := by
  have hm : 0 < |c| := lt_of_lt_of_le (by norm_num) hc
  obtain ⟨hs0, hme, -, hK, hK2⟩ := kernel_size σ |c| hσ hm
  have hk := kernel_abs σ c hσ (abs_pos.1 hm)
  rw [max_eq_left hc] at hk
  rw [hk]
  generalize |c| = m at *
  generalize 1 / (4 * π * m) / σ ^ 2 = s at *
  generalize sqrt (1 / (4 * π * m)) * (s + 5 / 2) / (4 * π * σ ^ 3 * (s + 1) ^ ((5 : ℝ) / 2)) = K at *
  have hU : 0 < 4 * π * σ ^ 2 := by positivity
  have h5 : 0 ≤ 1 - 5 / s ^ 2 := by
    rw [sub_nonneg, div_le_one (by positivity)]
    nlinarith
  refine (pow_le_pow_iff_left₀ (by positivity) hK.le two_ne_zero).1 ?_
  rw [hK2, hme, mul_pow, div_pow, one_pow, mul_pow (4 * π * σ ^ 2) s]
  generalize 4 * π * σ ^ 2 = U at *
  have h1 : (1 - 5 / s ^ 2) ^ 2 ≤ 1 - 5 / s ^ 2 := by
    have : 1 - 5 / s ^ 2 ≤ 1 := by
      have : 0 ≤ 5 / s ^ 2 := by positivity
      linarith
    nlinarith
  have h2 : (1 - 5 / s ^ 2) ≤ s ^ 3 * (s + 5 / 2) ^ 2 / (s + 1) ^ 5 := by
    rw [le_div_iff₀ (by positivity)]
    have e : (1 - 5 / s ^ 2) * (s + 1) ^ 5 = (s ^ 2 - 5) * (s + 1) ^ 5 / s ^ 2 := by field_simp
    rw [e, div_le_iff₀ (by positivity)]
    nlinarith [pow_pos hs0 2, pow_pos hs0 3, pow_pos hs0 4, pow_pos hs0 5, mul_nonneg (pow_pos hs0 4).le (sub_nonneg.2 hs),
      mul_nonneg (pow_pos hs0 3).le (sub_nonneg.2 hs), mul_nonneg (pow_pos hs0 2).le (sub_nonneg.2 hs)]
  calc (1 - 5 / s ^ 2) ^ 2 * (1 / (U ^ 2 * s ^ 2)) ≤ s ^ 3 * (s + 5 / 2) ^ 2 / (s + 1) ^ 5 * (1 / (U ^ 2 * s ^ 2)) :=
        mul_le_mul_of_nonneg_right (h1.trans h2) (by positivity)
    _ = s * (s + 5 / 2) ^ 2 / (s + 1) ^ 5 / U ^ 2 := by field_simp

example : |kernel 0.11 (1 / (4 * π))| < 1 / (4 * π * 0.11 ^ 2) := C332_bounded 0.11 _ (by norm_num)

/-- The kernel is odd. -/
theorem kernel_neg (σ c : ℝ) : kernel σ (-c) = -kernel σ c := by
  simp only [kernel, abs_neg, Real.sign_neg]
  ring

theorem coef_swap (A B P : Vec3) : coef B A P = -coef A B P := by
  have hn : Vec3.cross (P - B) (P - A) = -Vec3.cross (P - A) (P - B) := by
    ext <;> simp only [Vec3.cross, Vec3.sub_x, Vec3.sub_y, Vec3.sub_z, Vec3.neg_x, Vec3.neg_y, Vec3.neg_z] <;> ring
  have hd : ∀ X, Vec3.dot (A - B) X = -Vec3.dot (B - A) X := by
    intro X
    simp only [Vec3.dot, Vec3.sub_x, Vec3.sub_y, Vec3.sub_z]
    ring
  simp only [coef, hn, hd, Vec3.neg_x, Vec3.neg_y, Vec3.neg_z, neg_sq]
  ext <;> simp only [Vec3.neg_x, Vec3.neg_y, Vec3.neg_z] <;> ring

/-- A segment run in the opposite sense induces the opposite velocity. -/
theorem C332_reverse (σ : ℝ) (A B P : Vec3) : seg σ B A P = -seg σ A B P := by
  simp only [seg, coef_swap A B P, Vec3.neg_x, Vec3.neg_y, Vec3.neg_z, kernel_neg]
  ext a
  fin_cases a <;> simp

/-- Moving the segment and the point together changes nothing. -/
theorem C332_moved (σ : ℝ) (A B P o : Vec3) : seg σ (A + o) (B + o) (P + o) = seg σ A B P := by
  have h : ∀ X Y : Vec3, (X + o) - (Y + o) = X - Y := by
    intro X Y
    ext <;> simp only [Vec3.sub_x, Vec3.sub_y, Vec3.sub_z, Vec3.add_x, Vec3.add_y, Vec3.add_z] <;> ring
  simp only [seg, coef, h]

/-- Square of a component of the velocity, for the counterexample below. -/
theorem kernel_sq (σ c s : ℝ) (hσ : 0 < σ) (hc : 1e-8 < |c|) (hs : 1 / (4 * π * |c|) / σ ^ 2 = s) :
    kernel σ c ^ 2 = s * (s + 5 / 2) ^ 2 / (s + 1) ^ 5 / (4 * π * σ ^ 2) ^ 2 := by
  have hm : 0 < |c| := lt_trans (by norm_num) hc
  obtain ⟨-, -, -, -, hK2⟩ := kernel_size σ |c| hσ hm
  have hk := kernel_abs σ c hσ (abs_pos.1 hm)
  rw [max_eq_left hc.le] at hk
  simp only at hk hK2
  rw [← sq_abs, hk, hK2, hs]

/-- The same segment and point, turned about the axis of the segment: the velocity does not keep its size, since the kernel
is applied to each component separately. -/
theorem C332_turned_counterexample :
    ¬ ∀ (A B P P' : Vec3), A = ⟨-3 / 4, 0, 0⟩ → B = ⟨3 / 4, 0, 0⟩ → P = ⟨0, 1, 0⟩ → P' = ⟨0, 3 / 5, 4 / 5⟩ →
      seg 0.11 A B P 0 ^ 2 + seg 0.11 A B P 1 ^ 2 + seg 0.11 A B P 2 ^ 2 =
        seg 0.11 A B P' 0 ^ 2 + seg 0.11 A B P' 1 ^ 2 + seg 0.11 A B P' 2 ^ 2 := by
  intro h
  have h := h _ _ _ _ rfl rfl rfl rfl
  have hsq : sqrt (25 / 16) = 5 / 4 := by rw [show (25 / 16 : ℝ) = (5 / 4) ^ 2 by norm_num, sqrt_sq (by norm_num)]
  have e1 : coef ⟨-3 / 4, 0, 0⟩ ⟨3 / 4, 0, 0⟩ ⟨0, 1, 0⟩ = ⟨0, 0, 6 / 5 / (4 * π)⟩ := by
    simp only [coef, Vec3.cross, Vec3.dot, Vec3.norm, Vec3.sub_x, Vec3.sub_y, Vec3.sub_z]
    norm_num [hsq]
    ring
  have e2 : coef ⟨-3 / 4, 0, 0⟩ ⟨3 / 4, 0, 0⟩ ⟨0, 3 / 5, 4 / 5⟩ = ⟨0, -(24 / 25 / (4 * π)), 18 / 25 / (4 * π)⟩ := by
    simp only [coef, Vec3.cross, Vec3.dot, Vec3.norm, Vec3.sub_x, Vec3.sub_y, Vec3.sub_z]
    norm_num [hsq]
    constructor <;> ring
  have hz : kernel 0.11 0 = 0 := (C332_sense 0.11 0 (by norm_num)).2.2 rfl
  have big : ∀ t : ℝ, 1 / 2 < t → 1e-8 < |t / (4 * π)| ∧ |t / (4 * π)| = t / (4 * π) := by
    intro t ht
    have hp : 0 < t / (4 * π) := by positivity
    refine ⟨?_, abs_of_pos hp⟩
    rw [abs_of_pos hp, lt_div_iff₀ (by positivity)]
    have := pi_lt_four
    linarith
  have sz : ∀ t : ℝ, 1 / 2 < t → 1 / (4 * π * |t / (4 * π)|) / (0.11 : ℝ) ^ 2 = 1 / (t * 0.0121) := by
    intro t ht
    rw [(big t ht).2]
    have : (0 : ℝ) < t := by linarith
    field_simp
    norm_num
  have k := fun (t : ℝ) (ht : 1 / 2 < t) => kernel_sq 0.11 (t / (4 * π)) _ (by norm_num) (big t ht).1 (sz t ht)
  simp only [seg, e1, e2, hz, kernel_neg, Matrix.cons_val] at h
  rw [neg_sq, k (6 / 5) (by norm_num), k (24 / 25) (by norm_num), k (18 / 25) (by norm_num)] at h
  have hU : (4 * π * (0.11 : ℝ) ^ 2) ^ 2 ≠ 0 := by positivity
  generalize (4 * π * (0.11 : ℝ) ^ 2) ^ 2 = U at *
  field_simp at h
  norm_num at h

/-! ### C333: the wake as a lattice of filaments -/

/-- Specification: the velocity of a lattice of filaments through the points `q j k` (`j ≤ N`, `k ≤ n`), where `Γ j k` is
the circulation of the mesh with the corner `q j k`.  A filament carries the difference of the circulations at its two
sides; the filaments along the blade (`k = 0`) are absent. -/
noncomputable def lattice (σ : ℝ) (N n : ℕ) (q : ℕ → ℕ → Vec3) (Γ : ℕ → ℕ → ℝ) (P : Vec3) : Fin 3 → ℝ :=
  ∑ j ∈ Finset.range N, ∑ k ∈ Finset.range n, ((if k + 1 < n then Γ j (k + 1) else 0) - Γ j k) • seg σ (q j (k + 1)) (q (j + 1) (k + 1)) P
  + ∑ k ∈ Finset.range n, ∑ j ∈ Finset.range (N + 1),
      ((if 0 < j then Γ (j - 1) k else 0) - (if j < N then Γ j k else 0)) • seg σ (q j k) (q j (k + 1)) P

theorem across_sum (n : ℕ) (Γ : ℕ → ℝ) (h : ℕ → Fin 3 → ℝ) :
    ∑ k ∈ Finset.range n, (Γ k • (if (k == 0) = true then 0 else h k) - Γ k • h (k + 1)) =
      ∑ k ∈ Finset.range n, ((if k + 1 < n then Γ (k + 1) else 0) - Γ k) • h (k + 1) := by
  have h1 : ∑ k ∈ Finset.range n, Γ k • (if (k == 0) = true then 0 else h k) =
      ∑ k ∈ Finset.range n, (if k + 1 < n then Γ (k + 1) else 0) • h (k + 1) := by
    cases n with
    | zero => simp
    | succ n =>
      rw [Finset.sum_range_succ', Finset.sum_range_succ]
      simp only [beq_iff_eq, Nat.add_eq_zero_iff, one_ne_zero, and_false, if_false, if_true, smul_zero, add_zero, lt_irrefl, zero_smul]
      refine Finset.sum_congr rfl fun k hk => ?_
      rw [if_pos (by have := Finset.mem_range.1 hk; omega)]
  rw [Finset.sum_sub_distrib, h1, ← Finset.sum_sub_distrib]
  refine Finset.sum_congr rfl fun k _ => ?_
  rw [sub_smul]

theorem along_sum (N : ℕ) (Γ : ℕ → ℝ) (v : ℕ → Fin 3 → ℝ) :
    ∑ j ∈ Finset.range N, (Γ j • v (j + 1) - Γ j • v j) =
      ∑ j ∈ Finset.range (N + 1), ((if 0 < j then Γ (j - 1) else 0) - (if j < N then Γ j else 0)) • v j := by
  simp only [sub_smul]
  rw [Finset.sum_sub_distrib, Finset.sum_sub_distrib]
  congr 1
  · rw [Finset.sum_range_succ']
    simp
  · rw [Finset.sum_range_succ]
    simp only [lt_irrefl, if_false, zero_smul, add_zero]
    refine Finset.sum_congr rfl fun j hj => ?_
    rw [if_pos (Finset.mem_range.1 hj)]

theorem rings_lattice (σ : ℝ) (N n : ℕ) (q : ℕ → ℕ → Vec3) (Γ : ℕ → ℕ → ℝ) (P : Vec3) :
    ∑ j ∈ Finset.range N, ∑ k ∈ Finset.range n,
      ring σ (Γ j k) (k == 0) (q j k, q (j + 1) k, q (j + 1) (k + 1), q j (k + 1)) P = lattice σ N n q Γ P := by
  have e : ∀ j k, ring σ (Γ j k) (k == 0) (q j k, q (j + 1) k, q (j + 1) (k + 1), q j (k + 1)) P =
      (Γ j k • (if (k == 0) = true then 0 else seg σ (q j k) (q (j + 1) k) P) - Γ j k • seg σ (q j (k + 1)) (q (j + 1) (k + 1)) P) +
      (Γ j k • seg σ (q (j + 1) k) (q (j + 1) (k + 1)) P - Γ j k • seg σ (q j k) (q j (k + 1)) P) := by
    intro j k
    simp only [ring]
    rw [C332_reverse σ (q j (k + 1)) (q (j + 1) (k + 1)) P, C332_reverse σ (q j k) (q j (k + 1)) P, smul_neg, smul_neg]
    by_cases hk : (k == 0) = true
    · rw [if_pos hk]
      abel
    · rw [if_neg hk]
      abel
  simp only [e, Finset.sum_add_distrib]
  unfold lattice
  congr 1
  · refine Finset.sum_congr rfl fun j _ => ?_
    exact across_sum n (Γ j) fun k => seg σ (q j k) (q (j + 1) k) P
  · rw [Finset.sum_comm]
    refine Finset.sum_congr rfl fun k _ => ?_
    exact along_sum N (fun j => Γ j k) fun j => seg σ (q j k) (q j (k + 1)) P

theorem ring_flip (σ Γ : ℝ) (l : Bool) (a b c d P : Vec3) :
    ring σ Γ l (b, a, d, c) P = ring σ (-Γ) l (a, b, c, d) P := by
  simp only [ring]
  rw [C332_reverse σ a b P, C332_reverse σ d a P, C332_reverse σ c d P, C332_reverse σ b c P]
  cases l
  · simp only [smul_neg, neg_smul, Bool.false_eq_true, if_false, neg_neg]
    abel
  · simp only [smul_neg, neg_smul, if_true, smul_zero, neg_zero, neg_neg]
    abel

/-- The wake induces what the filaments between its panels induce: along the span the differences of the circulation of
neighbouring stations, along the wake the changes from one time step to the next, and nothing from the blades.  The sense is
that of the rotation. -/
theorem C333_lattice (w : Shape) (hrot : w.rot = 1 ∨ w.rot = -1) (σ : ℝ) (n i : ℕ) (P : Vec3) :
    induced w σ n i P = ∑ b ∈ Finset.range w.B,
      lattice σ (w.Nr - 1) n (w.grid i b) (fun j k => -w.rot * w.gamma i b j k) P := by
  unfold induced
  refine Finset.sum_congr rfl fun b _ => ?_
  rw [← rings_lattice]
  refine Finset.sum_congr rfl fun j _ => Finset.sum_congr rfl fun k _ => ?_
  rcases hrot with h | h
  · have : ¬ w.rot = -1 := by rw [h]; norm_num
    simp only [Shape.corners]
    rw [if_neg this, h, ring_flip]
    congr 1
    ring
  · simp only [Shape.corners]
    rw [if_pos h, h]
    congr 1
    ring

example : induced demo 0.11 5 2 ⟨1, 0, 3⟩ = ∑ b ∈ Finset.range 2,
    lattice 0.11 (demo.Nr - 1) 5 (demo.grid 2 b) (fun j k => -demo.rot * demo.gamma 2 b j k) ⟨1, 0, 3⟩ :=
  C333_lattice demo (by simp [demo]) 0.11 5 2 ⟨1, 0, 3⟩

/-- A blade with the same circulation at all stations and times trails one vortex from the root and one from the tip. -/
theorem C333_uniform (σ : ℝ) (N n : ℕ) (hn : 0 < n) (q : ℕ → ℕ → Vec3) (Γ : ℝ) (P : Vec3) :
    lattice σ N n q (fun _ _ => Γ) P =
      -(Γ • ∑ j ∈ Finset.range N, seg σ (q j n) (q (j + 1) n) P)
      + Γ • (∑ k ∈ Finset.range n, seg σ (q N k) (q N (k + 1)) P) - Γ • ∑ k ∈ Finset.range n, seg σ (q 0 k) (q 0 (k + 1)) P := by
  unfold lattice
  have h1 : ∀ j, ∑ k ∈ Finset.range n, ((if k + 1 < n then Γ else 0) - Γ) • seg σ (q j (k + 1)) (q (j + 1) (k + 1)) P =
      -(Γ • seg σ (q j n) (q (j + 1) n) P) := by
    intro j
    obtain ⟨m, rfl⟩ : ∃ m, n = m + 1 := ⟨n - 1, by omega⟩
    rw [Finset.sum_range_succ, Finset.sum_eq_zero]
    · simp
    · intro k hk
      rw [if_pos (by have := Finset.mem_range.1 hk; omega), sub_self, zero_smul]
  have h2 : ∀ k, ∑ j ∈ Finset.range (N + 1), ((if 0 < j then Γ else 0) - (if j < N then Γ else 0)) • seg σ (q j k) (q j (k + 1)) P =
      Γ • seg σ (q N k) (q N (k + 1)) P - Γ • seg σ (q 0 k) (q 0 (k + 1)) P := by
    intro k
    have := along_sum N (fun _ => Γ) fun j => seg σ (q j k) (q j (k + 1)) P
    rw [← this, Finset.sum_range_sub (fun j => Γ • seg σ (q j k) (q j (k + 1)) P)]
  simp only [h1, h2, Finset.sum_sub_distrib, Finset.sum_neg_distrib, ← Finset.smul_sum]
  abel

example : lattice 0.11 2 3 (fun j k => ⟨k, j, 0⟩) (fun _ _ => 5) ⟨0, 0, 1⟩ =
      -((5 : ℝ) • ∑ j ∈ Finset.range 2, seg 0.11 ⟨(3 : ℕ), j, 0⟩ ⟨(3 : ℕ), (j + 1 : ℕ), 0⟩ ⟨0, 0, 1⟩)
      + (5 : ℝ) • (∑ k ∈ Finset.range 3, seg 0.11 ⟨k, (2 : ℕ), 0⟩ ⟨(k + 1 : ℕ), (2 : ℕ), 0⟩ ⟨0, 0, 1⟩)
      - (5 : ℝ) • ∑ k ∈ Finset.range 3, seg 0.11 ⟨k, (0 : ℕ), 0⟩ ⟨(k + 1 : ℕ), (0 : ℕ), 0⟩ ⟨0, 0, 1⟩ :=
  C333_uniform 0.11 2 3 (by norm_num) (fun j k => ⟨k, j, 0⟩) 5 ⟨0, 0, 1⟩

/-- The wake of a rotor moved sideways or up induces at the moved point what it induced before. -/
theorem C333_moved (w : Shape) (σ : ℝ) (n i : ℕ) (P : Vec3) (y z : ℝ) :
    induced { w with origin := ⟨w.origin.x, w.origin.y + y, w.origin.z + z⟩ } σ n i (P + ⟨0, y, z⟩) = induced w σ n i P := by
  unfold induced
  refine Finset.sum_congr rfl fun b _ => Finset.sum_congr rfl fun j _ => Finset.sum_congr rfl fun k _ => ?_
  have hg : ({ w with origin := ⟨w.origin.x, w.origin.y + y, w.origin.z + z⟩ } : Shape).gamma i b j k = w.gamma i b j k := rfl
  have hc : ({ w with origin := ⟨w.origin.x, w.origin.y + y, w.origin.z + z⟩ } : Shape).corners i b j k =
      ((w.corners i b j k).1 + ⟨0, y, z⟩, (w.corners i b j k).2.1 + ⟨0, y, z⟩, (w.corners i b j k).2.2.1 + ⟨0, y, z⟩,
        (w.corners i b j k).2.2.2 + ⟨0, y, z⟩) := by
    simp only [Shape.corners]
    by_cases h : w.rot = -1
    · rw [if_pos h, if_pos h]
      simp only [C331_moved_partial]
    · rw [if_neg h, if_neg h]
      simp only [C331_moved_partial]
  rw [hg, hc]
  simp only [ring, C332_moved]

/-! ### C334: velocity at the blades -/

/-- The tangential velocity is the component of the induced velocity along the motion of the blade: `θ` is the angle through
which the rotor has turned. -/
theorem C334_tangential (rot r v z θ : ℝ) :
    ∃ dy dz : ℝ, HasDerivAt (fun θ => r * sin (-rot * θ)) dy θ ∧ HasDerivAt (fun θ => r * cos (-rot * θ)) dz θ ∧
      r * tangential rot (-rot * θ) v z = v * dy + z * dz := by
  have h0 : HasDerivAt (fun θ : ℝ => -rot * θ) (-rot) θ := by
    simpa using (hasDerivAt_id θ).const_mul (-rot)
  refine ⟨_, _, (h0.sin).const_mul r, (h0.cos).const_mul r, ?_⟩
  unfold tangential
  ring

/-- A velocity along the blade has no tangential part, one along its motion is all tangential. -/
theorem C334_directions (rot ψ u : ℝ) (hrot : rot = 1 ∨ rot = -1) :
    tangential rot ψ (u * sin ψ) (u * cos ψ) = 0 ∧ tangential rot ψ (-rot * (u * cos ψ)) (rot * (u * sin ψ)) = u := by
  unfold tangential
  have h := sin_sq_add_cos_sq ψ
  refine ⟨by ring, ?_⟩
  rcases hrot with r | r <;> rw [r] <;> linear_combination u * h

/-- The angle of the blade used for the velocities is that of the blade in the wake, when the wake starts without offset. -/
theorem C334_angle_partial (w : Shape) (ho : w.offset = 0) (i : ℕ) : inflowAngle w i = w.panelAngle i 0 0 := by
  simp only [inflowAngle, Shape.panelAngle, Shape.start, Shape.age, Shape.bladeAngle, ho]
  push_cast
  ring

example : inflowAngle demo 3 = demo.panelAngle 3 0 0 := C334_angle_partial demo rfl 3

/-- With an offset of one time step the angle differs from that of the blade, since the step is taken for one station too
many. -/
theorem C334_angle_counterexample : ¬ ∀ (w : Shape) (i : ℕ), w.ω₁ ≠ 0 → 0 < w.Na → inflowAngle w i = w.panelAngle i 0 0 := by
  intro h
  have h1 := h { demo with offset := 1 } 0 (by norm_num [demo]) (by norm_num [demo])
  simp only [inflowAngle, Shape.panelAngle, Shape.start, Shape.age, Shape.bladeAngle, Shape.dt, demo] at h1
  norm_num at h1
  linarith [pi_pos]

/-- Velocities that vary linearly along the blade are recovered at every station from those at the middles. -/
theorem C334_linear (Nr : ℕ) (hN : 3 ≤ Nr) (r : ℕ → ℝ) (hr : ∀ j, r j < r (j + 1)) (a b : ℝ) (j : ℕ) :
    atStation Nr r (fun k => a + b * mid r k) j = a + b * r j := by
  have hm : ∀ k, mid r k < mid r (k + 1) := by
    intro k
    unfold mid
    linarith [hr k, hr (k + 1)]
  simp only [atStation]
  obtain ⟨k, hk⟩ : ∃ k, min (max j 1) (Nr - 2) = k + 1 := ⟨min (max j 1) (Nr - 2) - 1, by omega⟩
  rw [hk, Nat.add_sub_cancel]
  have hne : mid r (k + 1) - mid r k ≠ 0 := (sub_pos.2 (hm k)).ne'
  have e : (a + b * mid r (k + 1) - (a + b * mid r k)) / (mid r (k + 1) - mid r k) = b := by
    rw [div_eq_iff hne]
    ring
  rw [e]
  ring

example : atStation 4 (fun j => (j : ℝ)) (fun k => 2 + 3 * mid (fun j => (j : ℝ)) k) 3 = 2 + 3 * ((3 : ℕ) : ℝ) :=
  C334_linear 4 (by norm_num) (fun j => (j : ℝ)) (fun j => by push_cast; linarith) 2 3 3

/-- Between the first and the last middle the velocity at a station lies between those at the neighbouring middles. -/
theorem C334_between (Nr : ℕ) (r : ℕ → ℝ) (hr : ∀ j, r j < r (j + 1)) (u : ℕ → ℝ) (j : ℕ) (h1 : 1 ≤ j) (h2 : j ≤ Nr - 2) :
    min (u (j - 1)) (u j) ≤ atStation Nr r u j ∧ atStation Nr r u j ≤ max (u (j - 1)) (u j) := by
  obtain ⟨k, rfl⟩ : ∃ k, j = k + 1 := ⟨j - 1, by omega⟩
  have hk : min (max (k + 1) 1) (Nr - 2) = k + 1 := by omega
  simp only [atStation, hk, Nat.add_sub_cancel]
  have hm : 0 < mid r (k + 1) - mid r k := by
    unfold mid
    linarith [hr k, hr (k + 1)]
  have ht0 : 0 ≤ (r (k + 1) - mid r k) / (mid r (k + 1) - mid r k) := by
    apply div_nonneg _ hm.le
    unfold mid
    linarith [hr k]
  have ht1 : (r (k + 1) - mid r k) / (mid r (k + 1) - mid r k) ≤ 1 := by
    rw [div_le_one hm]
    unfold mid
    linarith [hr (k + 1)]
  have e : u k + (u (k + 1) - u k) / (mid r (k + 1) - mid r k) * (r (k + 1) - mid r k) =
      u k + (u (k + 1) - u k) * ((r (k + 1) - mid r k) / (mid r (k + 1) - mid r k)) := by ring
  rw [e]
  generalize (r (k + 1) - mid r k) / (mid r (k + 1) - mid r k) = t at *
  constructor
  · rcases le_total (u k) (u (k + 1)) with h | h
    · rw [min_eq_left h]; nlinarith
    · rw [min_eq_right h]; nlinarith
  · rcases le_total (u k) (u (k + 1)) with h | h
    · rw [max_eq_right h]; nlinarith
    · rw [max_eq_left h]; nlinarith

example : min (2 : ℝ) 5 ≤ atStation 4 (fun j => (j : ℝ)) (fun k => if k = 0 then 2 else 5) 1 :=
  (C334_between 4 (fun j => (j : ℝ)) (fun j => by push_cast; linarith) (fun k => if k = 0 then 2 else 5) 1 (by norm_num) (by norm_num)).1

/-! ### C335: convergence -/

section loop
variable {D V : Type} (step : D → V × D) (diff : D → D → ℝ) (tol : ℝ)

/-- Specification: the disc velocities of the iteration. -/
def iterates (d : D) : ℕ → D
  | 0 => d
  | n + 1 => (step (iterates d n)).2

theorem iterates_succ (d : D) (n : ℕ) : iterates step d (n + 1) = iterates step (step d).2 n := by
  induction n with
  | zero => rfl
  | succ n ih => rw [iterates, ih, iterates]

theorem turns_spec : ∀ (n : ℕ) (d : D),
    let t := turns step diff tol n d
    1 ≤ t.2.2 ∧ t.2.2 ≤ max 1 n ∧ t.2.1 = iterates step d t.2.2 ∧ t.1 = (step (iterates step d (t.2.2 - 1))).1 ∧
      (t.2.2 < n → ¬ diff t.2.1 (iterates step d (t.2.2 - 1)) > tol) ∧
      (∀ m, 1 ≤ m → m < t.2.2 → diff (iterates step d m) (iterates step d (m - 1)) > tol)
  | 0, d => by
    refine ⟨le_refl _, by simp [turns], rfl, rfl, by simp, fun m h1 h2 => ?_⟩
    simp only [turns] at h2; omega
  | 1, d => by
    refine ⟨le_refl _, by simp [turns], rfl, rfl, by simp [turns], fun m h1 h2 => ?_⟩
    simp only [turns] at h2; omega
  | n + 2, d => by
    by_cases h : diff (step d).2 d > tol
    · have ih := turns_spec (n + 1) (step d).2
      simp only at ih
      have e : turns step diff tol (n + 2) d = ((turns step diff tol (n + 1) (step d).2).1, (turns step diff tol (n + 1) (step d).2).2.1,
          (turns step diff tol (n + 1) (step d).2).2.2 + 1) := by
        simp only [turns]
        rw [if_pos h]
      rw [e]
      obtain ⟨i1, i2, i3, i4, i5, i6⟩ := ih
      generalize turns step diff tol (n + 1) (step d).2 = t at *
      obtain ⟨p, hp⟩ : ∃ p, t.2.2 = p + 1 := ⟨t.2.2 - 1, by omega⟩
      simp only [hp, Nat.add_sub_cancel] at *
      refine ⟨by omega, by omega, ?_, ?_, ?_, ?_⟩
      · rw [i3, iterates_succ step d (p + 1)]
      · rw [i4, iterates_succ]
      · intro hlt
        rw [iterates_succ]
        exact i5 (by omega)
      · intro m h1 h2
        rcases Nat.eq_or_lt_of_le h1 with rfl | h1'
        · exact h
        · obtain ⟨l, rfl⟩ : ∃ l, m = l + 2 := ⟨m - 2, by omega⟩
          have := i6 (l + 1) (by omega) (by omega)
          rw [iterates_succ, show l + 2 - 1 = l + 1 by omega, iterates_succ step d l]
          simpa using this
    · have e : turns step diff tol (n + 2) d = ((step d).1, (step d).2, 1) := by
        simp only [turns]
        rw [if_neg h]
      rw [e]
      refine ⟨le_refl _, by simp, rfl, rfl, fun _ => h, fun m h1 h2 => ?_⟩
      simp only at h2
      omega

/-- The wake is the one of the iteration after at most the allowed number of turns; the velocities are those of the last
turn; the iteration stops at the first turn that changes the disc by no more than the tolerance, and unless it does so the
allowed number of turns is used up. -/
theorem C335_converged_partial (ht : tol < 1) (imax : ℕ) (d : D) :
    ∃ v d' n, converge step diff tol true imax d = some (v, d', n) ∧ 1 ≤ n ∧ n ≤ max 1 imax ∧ d' = iterates step d n ∧
      v = (step (iterates step d (n - 1))).1 ∧ (n < imax → diff d' (iterates step d (n - 1)) ≤ tol) ∧
      ∀ m, 1 ≤ m → m < n → tol < diff (iterates step d m) (iterates step d (m - 1)) := by
  have h := turns_spec step diff tol imax d
  simp only at h
  obtain ⟨h1, h2, h3, h4, h5, h6⟩ := h
  refine ⟨(turns step diff tol imax d).1, (turns step diff tol imax d).2.1, (turns step diff tol imax d).2.2, ?_, h1, h2, h3, h4,
    fun hn => not_lt.1 (h5 hn), h6⟩
  unfold converge
  rw [if_pos ht]
  rfl

example : ∃ v d' n, converge (fun x : ℝ => (x, x / 2)) (fun x y => |x - y|) 0.01 true 10 1 = some (v, d', n) ∧ 1 ≤ n ∧ n ≤ max 1 10 ∧
    d' = iterates (fun x : ℝ => (x, x / 2)) 1 n ∧ v = (iterates (fun x : ℝ => (x, x / 2)) 1 (n - 1)) ∧
    (n < 10 → |d' - iterates (fun x : ℝ => (x, x / 2)) 1 (n - 1)| ≤ 0.01) ∧
      ∀ m, 1 ≤ m → m < n → 0.01 < |iterates (fun x : ℝ => (x, x / 2)) 1 m - iterates (fun x : ℝ => (x, x / 2)) 1 (m - 1)| :=
  C335_converged_partial (fun x : ℝ => (x, x / 2)) (fun x y => |x - y|) 0.01 (by norm_num) 10 1

/-- A fully prescribed wake is evaluated once, and the returned shape is made of the velocities it induced. -/
theorem C335_prescribed (ht : tol < 1) (imax : ℕ) (d : D) :
    converge step diff tol false imax d = some ((step d).1, (step d).2, 1) := by
  unfold converge
  rw [if_pos ht]
  rfl

/-- A tolerance of one or more makes the evaluation fail. -/
theorem C335_tolerance_counterexample :
    ¬ ∀ (tol : ℝ), 0 < tol → ∀ d : ℝ, (converge (fun x : ℝ => (x, x / 2)) (fun x y => |x - y|) tol true 10 d).isSome := by
  intro h
  have := h 1 (by norm_num) 0
  unfold converge at this
  rw [if_neg (lt_irrefl _)] at this
  simp at this

end loop

/-! ### C336: wakes of identical rotors -/

/-- The names of the arrays of a wake: corners of the panels, circulation, trailing edges, quarter chords and evaluation
points. -/
def wakeNames : List String :=
  ["XA1", "YA1", "ZA1", "XA2", "YA2", "ZA2", "XB1", "YB1", "ZB1", "XB2", "YB2", "ZB2", "GAMMA", "Xblades_te", "Yblades_te",
    "Zblades_te", "Xblades_c_4", "Yblades_c_4", "Zblades_c_4", "Xblades_cp", "Yblades_cp", "Zblades_cp"]

/-- Specification: the displacement of a coordinate array, by the first letter of its name. -/
noncomputable def displacement (o : Vec3) (name : String) : ℝ :=
  match name.toList.head? with
  | some 'X' => o.x
  | some 'Y' => o.y
  | some 'Z' => o.z
  | _ => 0

theorem moveOne_eq (o : Vec3) (mem : ℕ → ℝ) (a : String × ℕ) (h : a.1 ∈ wakeNames) :
    moveOne o mem a = Function.update mem a.2 (mem a.2 + displacement o a.1) := by
  obtain ⟨name, buf⟩ := a
  simp only [wakeNames, List.mem_cons, List.not_mem_nil, or_false] at h
  rcases h with h | h | h | h | h | h | h | h | h | h | h | h | h | h | h | h | h | h | h | h | h | h <;> subst h <;>
    simp [moveOne, offsetOf, displacement]

theorem moveAll (o : Vec3) : ∀ (l : List (String × ℕ)) (mem : ℕ → ℝ), (l.map Prod.snd).Nodup → (∀ a ∈ l, a.1 ∈ wakeNames) →
    (∀ a ∈ l, (l.foldl (moveOne o) mem) a.2 = mem a.2 + displacement o a.1) ∧
      ∀ i, i ∉ l.map Prod.snd → (l.foldl (moveOne o) mem) i = mem i
  | [], mem, _, _ => by simp
  | a :: l, mem, hn, hw => by
    rw [List.map_cons, List.nodup_cons] at hn
    have ih := moveAll o l (moveOne o mem a) hn.2 fun b hb => hw b (List.mem_cons_of_mem _ hb)
    rw [moveOne_eq o mem a (hw a List.mem_cons_self)] at ih
    simp only [List.foldl_cons]
    rw [moveOne_eq o mem a (hw a List.mem_cons_self)]
    refine ⟨fun b hb => ?_, fun i hi => ?_⟩
    · rcases List.mem_cons.1 hb with rfl | hb
      · rw [ih.2 _ hn.1, Function.update_self]
      · rw [ih.1 b hb, Function.update_of_ne]
        intro e
        exact hn.1 (e ▸ List.mem_map_of_mem hb)
    · rw [List.map_cons, List.mem_cons, not_or] at hi
      rw [ih.2 i hi.2, Function.update_of_ne hi.1]

/-- A wake whose arrays do not share memory, as a deep copy has them, is moved by the offset: each coordinate once, and the
circulation not at all. -/
theorem C336_copied_partial (o : Vec3) (a : Arrays) (hn : ((a.top ++ a.reshaped).map Prod.snd).Nodup)
    (hw : ∀ x ∈ a.top ++ a.reshaped, x.1 ∈ wakeNames) :
    (∀ x ∈ a.top ++ a.reshaped, (shift o a).mem x.2 = a.mem x.2 + displacement o x.1) ∧
      (∀ i, i ∉ (a.top ++ a.reshaped).map Prod.snd → (shift o a).mem i = a.mem i) ∧
      (shift o a).top = a.top ∧ (shift o a).reshaped = a.reshaped :=
  ⟨(moveAll o _ a.mem hn hw).1, (moveAll o _ a.mem hn hw).2, rfl, rfl⟩

example : (shift ⟨1, 2, 3⟩ ⟨[("YA1", 0), ("GAMMA", 1)], [("YA1", 2), ("Zblades_te", 3)], fun _ => 5⟩).mem 2 = 5 + 2 :=
  (C336_copied_partial ⟨1, 2, 3⟩ ⟨[("YA1", 0), ("GAMMA", 1)], [("YA1", 2), ("Zblades_te", 3)], fun _ => 5⟩ (by decide)
    (by simp [wakeNames])).1 ("YA1", 2) (by simp)

/-- The wake just made shares its arrays with the reshaped ones, and moving it moves it twice as far. -/
theorem C336_fresh_counterexample :
    ¬ ∀ (o : Vec3) (a : Arrays), (∀ x ∈ a.top ++ a.reshaped, x.1 ∈ wakeNames) →
      ∀ x ∈ a.top ++ a.reshaped, (shift o a).mem x.2 = a.mem x.2 + displacement o x.1 := by
  intro h
  have := h ⟨1, 0, 0⟩ ⟨[("XA1", 0)], [("XA1", 0)], fun _ => 0⟩ (by simp [wakeNames]) ("XA1", 0) (by simp)
  simp [shift, moveOne, offsetOf, displacement] at this

/-- The wake copied from an identical propeller abreast is the one the propeller would have made itself. -/
theorem C336_propellers_partial (w : Shape) (p : Vec3) (hx : p.x = w.origin.x) (i b j k : ℕ) :
    w.grid i b j k + copyOffset p w.origin = ({ w with origin := p } : Shape).grid i b j k := by
  have h := C331_moved_partial w (p.y - w.origin.y) (p.z - w.origin.z) i b j k
  have e : (⟨w.origin.x, w.origin.y + (p.y - w.origin.y), w.origin.z + (p.z - w.origin.z)⟩ : Vec3) = p := by
    ext <;> simp [hx]
  have e2 : copyOffset p w.origin = ⟨0, p.y - w.origin.y, p.z - w.origin.z⟩ := by
    ext <;> simp [copyOffset, hx]
  rw [e] at h
  rw [e2, ← h]

/-- The copied wakes of the lift rotors of a lift and cruise vehicle do not start at their rotors: they are moved by the
distance between the forward propellers. -/
theorem C336_lift_counterexample : ¬ ∀ r lift p prop : Vec3, lift + liftOffset r lift p prop = r := by
  intro h
  have := congrArg Vec3.y (h ⟨0, 5, 0⟩ ⟨0, 1, 0⟩ ⟨0, 2, 0⟩ ⟨0, 2, 0⟩)
  simp [liftOffset] at this

/-! ### C337: slipstream over a wing -/

/-- Specification: the panels of a wing, given its symmetry and the panels of its semispans. -/
def panelsOf (w : Bool × ℕ × ℕ) : ℕ := if w.1 then w.2.1 + w.2.2 else w.2.1

/-- Specification: the wing that a panel of the vehicle belongs to; the panels of the wings follow each other. -/
def owner : List (Bool × ℕ × ℕ) → ℕ → Option ℕ
  | [], _ => none
  | w :: ws, cp => if cp < panelsOf w then some 0 else (owner ws (cp - panelsOf w)).map (· + 1)

/-- The panels of the semispans, as stored with the vehicle. -/
def semispans (ws : List (Bool × ℕ × ℕ)) : List ℕ := ws.flatMap fun w => if w.1 then [w.2.1, w.2.2] else [w.2.1]

theorem semispans_length (ws : List (Bool × ℕ × ℕ)) : (semispans ws).length = ws.length + (ws.map Prod.fst).count true := by
  induction ws with
  | nil => rfl
  | cons w ws ih =>
    obtain ⟨s, a, b⟩ := w
    simp only [semispans, List.flatMap_cons, List.length_append, List.map_cons] at ih ⊢
    rw [ih]
    cases s <;> simp <;> omega

theorem semispans_sum (ws : List (Bool × ℕ × ℕ)) : (semispans ws).sum = (ws.map panelsOf).sum := by
  induction ws with
  | nil => rfl
  | cons w ws ih =>
    obtain ⟨s, a, b⟩ := w
    simp only [semispans, List.flatMap_cons, List.sum_append, List.map_cons, List.sum_cons] at ih ⊢
    rw [ih]
    cases s <;> simp [panelsOf]

theorem panelRange_eq (pre post : List (Bool × ℕ × ℕ)) (w : Bool × ℕ × ℕ) :
    panelRange ((pre ++ w :: post).map Prod.fst) (semispans (pre ++ w :: post)) pre.length =
      some ((pre.map panelsOf).sum, (pre.map panelsOf).sum + panelsOf w) := by
  have hg : ((pre ++ w :: post).map Prod.fst)[pre.length]? = some w.1 := by
    simp
  have ht : ((pre ++ w :: post).map Prod.fst).take pre.length = pre.map Prod.fst := by
    simp
  have hs : semispans (pre ++ w :: post) = semispans pre ++ (semispans [w] ++ semispans post) := by
    simp [semispans]
  have hl := semispans_length pre
  have hl1 : (semispans [w]).length = 1 + (if w.1 then 1 else 0) := by
    obtain ⟨s, a, b⟩ := w
    cases s <;> simp [semispans]
  simp only [panelRange, hg, ht]
  rw [← hl, hs, add_assoc, ← hl1]
  have h1 : (semispans pre ++ (semispans [w] ++ semispans post)).take (semispans pre).length = semispans pre := by simp
  have h2 : (semispans pre ++ (semispans [w] ++ semispans post)).take ((semispans pre).length + (semispans [w]).length) =
      semispans pre ++ semispans [w] := by
    rw [← List.append_assoc, ← List.length_append, List.take_left']
    rfl
  rw [if_pos (by simp only [List.length_append]; omega), h1, h2, List.sum_append, semispans_sum, semispans_sum]
  simp

theorem owner_iff (pre post : List (Bool × ℕ × ℕ)) (w : Bool × ℕ × ℕ) (cp : ℕ) :
    owner (pre ++ w :: post) cp = some pre.length ↔
      (pre.map panelsOf).sum ≤ cp ∧ cp < (pre.map panelsOf).sum + panelsOf w := by
  induction pre generalizing cp with
  | nil =>
    simp only [List.nil_append, owner, List.length_nil, List.map_nil, List.sum_nil]
    split_ifs with h
    · simp [h]
    · simp only [Option.map_eq_some_iff]
      constructor
      · rintro ⟨a, -, ha⟩
        omega
      · intro h2
        omega
  | cons x pre ih =>
    simp only [List.cons_append, owner, List.length_cons, List.map_cons, List.sum_cons]
    split_ifs with h
    · constructor
      · intro h2
        simp at h2
      · intro h2
        omega
    · rw [Option.map_eq_some_iff]
      constructor
      · rintro ⟨a, ha, hb⟩
        have : a = pre.length := by omega
        rw [this, ih] at ha
        omega
      · intro h2
        exact ⟨pre.length, (ih _).2 (by omega), rfl⟩

/-- The points taken for a wing are the panels of this wing, of both its sides when it is symmetric. -/
theorem C337_own (ws : List (Bool × ℕ × ℕ)) (idx : ℕ) (h : idx < ws.length) :
    ∃ a b, panelRange (ws.map Prod.fst) (semispans ws) idx = some (a, b) ∧
      ∀ cp, a ≤ cp ∧ cp < b ↔ owner ws cp = some idx := by
  have e : ws = ws.take idx ++ ws[idx] :: ws.drop (idx + 1) := by simp
  have hl : (ws.take idx).length = idx := by simp; omega
  have h1 := panelRange_eq (ws.take idx) (ws.drop (idx + 1)) ws[idx]
  have h2 := owner_iff (ws.take idx) (ws.drop (idx + 1)) ws[idx]
  rw [← e, hl] at h1
  rw [← e, hl] at h2
  exact ⟨_, _, h1, fun cp => (h2 cp).symm⟩

example : ∃ a b, panelRange [true, false, true] [6, 6, 4, 2, 2] 1 = some (a, b) ∧
    ∀ cp, a ≤ cp ∧ cp < b ↔ owner [(true, 6, 6), (false, 4, 0), (true, 2, 2)] cp = some 1 :=
  C337_own [(true, 6, 6), (false, 4, 0), (true, 2, 2)] 1 (by simp)

/-- Without a choice of the wing, the wake acts on the last main wing (on the last wing without any) and nowhere else. -/
theorem C337_slipstream_partial (ws : List (Bool × ℕ × ℕ)) (mains : List Bool) (hl : mains.length = ws.length) (h0 : ws ≠ [])
    (v : ℕ → Fin 3 → ℝ) :
    ∃ idx < ws.length, (mains[idx]? = some true ∧ (∀ i, idx < i → mains[i]? ≠ some true) ∨
        (∀ i : ℕ, mains[i]? ≠ some true) ∧ idx = ws.length - 1) ∧
      ∀ cp, slipAt false mains (ws.map Prod.fst) (semispans ws) v cp = some (if owner ws cp = some idx then v cp else 0) := by
  have hpos : 0 < ws.length := List.length_pos_of_ne_nil h0
  obtain ⟨idx, hidx, hs, hprop⟩ : ∃ idx < ws.length, slipWing false mains = some idx ∧
      (mains[idx]? = some true ∧ (∀ i, idx < i → mains[i]? ≠ some true) ∨ (∀ i : ℕ, mains[i]? ≠ some true) ∧ idx = ws.length - 1) := by
    have key : ∀ n, ∀ l, l = (List.range n).filter (fun i => mains[i]? == some true) →
        (l = [] ∧ ∀ i < n, mains[i]? ≠ some true) ∨
        ∃ idx < n, l.getLast? = some idx ∧ mains[idx]? = some true ∧ ∀ i, idx < i → i < n → mains[i]? ≠ some true := by
      intro n
      induction n with
      | zero => intro l hl; left; simpa using hl
      | succ n ih =>
        intro l hl
        rw [List.range_succ, List.filter_append] at hl
        by_cases hn : mains[n]? = some true
        · right
          refine ⟨n, by omega, ?_, hn, fun i h1 h2 => by omega⟩
          rw [hl]
          simp [hn]
        · have : List.filter (fun i => mains[i]? == some true) [n] = [] := by simp [hn]
          rw [this, List.append_nil] at hl
          rcases ih l hl with ⟨h1, h2⟩ | ⟨idx, h1, h2, h3, h4⟩
          · left
            refine ⟨h1, fun i hi => ?_⟩
            rcases Nat.lt_succ_iff_lt_or_eq.1 hi with h | rfl
            · exact h2 i h
            · exact hn
          · right
            refine ⟨idx, by omega, h2, h3, fun i h5 h6 => ?_⟩
            rcases Nat.lt_succ_iff_lt_or_eq.1 h6 with h | rfl
            · exact h4 i h5 h
            · exact hn
    have out : ∀ i, mains.length ≤ i → mains[i]? ≠ some true := by
      intro i hi
      rw [List.getElem?_eq_none hi]
      simp
    rcases key mains.length _ rfl with ⟨h1, h2⟩ | ⟨idx, h1, h2, h3, h4⟩
    · refine ⟨ws.length - 1, by omega, ?_, Or.inr ⟨fun i => ?_, rfl⟩⟩
      · unfold slipWing
        rw [h1]
        have : mains ≠ [] := by
          intro e
          rw [e] at hl
          simp at hl
          omega
        simp [this, hl]
      · rcases lt_or_ge i mains.length with h | h
        · exact h2 i h
        · exact out i h
    · refine ⟨idx, by omega, ?_, Or.inl ⟨h3, fun i hi => ?_⟩⟩
      · unfold slipWing
        generalize List.filter (fun i => mains[i]? == some true) (List.range mains.length) = l at *
        cases l with
        | nil => simp at h2
        | cons x l => simpa using h2
      · rcases lt_or_ge i mains.length with h | h
        · exact h4 i hi h
        · exact out i h
  refine ⟨idx, hidx, hprop, fun cp => ?_⟩
  obtain ⟨a, b, hr, ho⟩ := C337_own ws idx hidx
  simp only [slipAt, hs, hr]
  congr 1
  by_cases h : owner ws cp = some idx
  · rw [if_pos h, if_pos ((ho cp).2 h)]
  · rw [if_neg h, if_neg (fun h2 => h ((ho cp).1 h2))]

/-- When the wing is chosen by the caller, the evaluation fails. -/
theorem C337_given_counterexample :
    ¬ ∀ (given : Bool) (mains sym : List Bool) (n : List ℕ) (v : ℕ → Fin 3 → ℝ) (cp : ℕ), mains = [true] → sym = [false] → n = [1] →
      (slipAt given mains sym n v cp).isSome := by
  intro h
  have := h true [true] [false] [1] 0 0 rfl rfl rfl
  simp [slipAt, slipWing] at this

/-! ### C338: external inflow -/

theorem external_inside (Ne Na j : ℕ) (hNa : 0 < Na) (hle : Na ≤ Ne) (hj : j < Na) :
    (j : ℝ) * Ne / Na ≤ Ne - 1 := by
  have h1 : (0 : ℝ) < Na := by exact_mod_cast hNa
  have h2 : (Na : ℝ) ≤ Ne := by exact_mod_cast hle
  have h3 : (j : ℝ) + 1 ≤ Na := by exact_mod_cast hj
  rw [div_le_iff₀ h1]
  nlinarith

theorem external_some (Ne Na j : ℕ) (u : ℕ → ℝ) (hNa : 0 < Na) (hlt : Na < Ne) :
    external Ne Na u j = some (if ((⌊(j : ℝ) * Ne / Na⌋₊ : ℕ) : ℝ) = (j : ℝ) * Ne / Na then u ⌊(j : ℝ) * Ne / Na⌋₊
      else u ⌊(j : ℝ) * Ne / Na⌋₊ + (u (⌊(j : ℝ) * Ne / Na⌋₊ + 1) - u ⌊(j : ℝ) * Ne / Na⌋₊) * ((j : ℝ) * Ne / Na - ⌊(j : ℝ) * Ne / Na⌋₊)) := by
  have h1 : (0 : ℝ) < Na := by exact_mod_cast hNa
  have h2 : (Na : ℝ) < Ne := by exact_mod_cast hlt
  have h3 : ((Na - 1 : ℕ) : ℝ) = Na - 1 := by push_cast [Nat.cast_sub (show 1 ≤ Na by omega)]; ring
  have h4 : ((Ne - 1 : ℕ) : ℝ) = Ne - 1 := by push_cast [Nat.cast_sub (show 1 ≤ Ne by omega)]; ring
  simp only [external]
  rw [if_neg (by omega), if_neg]
  rw [not_lt, h3, h4, div_le_div_iff₀ h1 (by linarith)]
  nlinarith [pi_pos]

/-- With at least as many stations in the external inflow as in the rotor the inflow at each station of the rotor is found;
it lies between neighbouring values of the table, and an inflow linear in the angle is reproduced. -/
theorem C338_found_partial (Ne Na j : ℕ) (u : ℕ → ℝ) (hNa : 0 < Na) (hle : Na ≤ Ne) (hj : j < Na) :
    ∃ y, external Ne Na u j = some y ∧
      (∃ k < Ne, ∃ l < Ne, 2 * π * k / Ne ≤ 2 * π * j / Na ∧ 2 * π * j / Na ≤ 2 * π * l / Ne ∧ l ≤ k + 1 ∧
        min (u k) (u l) ≤ y ∧ y ≤ max (u k) (u l)) ∧
      ∀ a b : ℝ, (∀ k, u k = a + b * (2 * π * k / Ne)) → y = a + b * (2 * π * j / Na) := by
  have h1 : (0 : ℝ) < Na := by exact_mod_cast hNa
  have h2 : (Na : ℝ) ≤ Ne := by exact_mod_cast hle
  have hp := pi_pos
  rcases Nat.eq_or_lt_of_le hle with rfl | hlt
  · refine ⟨u j, by simp [external], ⟨j, hj, j, hj, le_refl _, le_refl _, by omega, by simp, by simp⟩, fun a b h => h j⟩
  · rw [external_some Ne Na j u hNa hlt]
    have hin := external_inside Ne Na j hNa hle hj
    have hx0 : 0 ≤ (j : ℝ) * Ne / Na := by positivity
    have ang : (2 * π * j / Na : ℝ) = 2 * π * ((j : ℝ) * Ne / Na) / Ne := by
      have : (Ne : ℝ) ≠ 0 := by linarith
      field_simp
    rw [ang]
    generalize (j : ℝ) * Ne / Na = x at *
    have hk0 := Nat.floor_le hx0
    have hk1 := Nat.lt_floor_add_one x
    generalize ⌊x⌋₊ = k at *
    have hNe : (0 : ℝ) < Ne := by linarith
    have hkN : k < Ne := by
      have : (k : ℝ) < Ne := by linarith
      exact_mod_cast this
    have lef : ∀ s t : ℝ, s ≤ t → 2 * π * s / Ne ≤ 2 * π * t / Ne := by
      intro s t h
      gcongr
    split_ifs with he
    · refine ⟨_, rfl, ⟨k, hkN, k, hkN, lef _ _ he.le, lef _ _ he.ge, by omega, by simp, by simp⟩, fun a b h => ?_⟩
      rw [h k, he]
    · have hlt' : (k : ℝ) < x := lt_of_le_of_ne hk0 he
      have hk2 : k + 1 < Ne := by
        have : (k : ℝ) + 1 < Ne := by linarith
        exact_mod_cast this
      refine ⟨_, rfl, ⟨k, hkN, k + 1, hk2, lef _ _ hk0, lef _ _ (by push_cast; linarith), le_refl _, ?_, ?_⟩, fun a b h => ?_⟩
      · rcases le_total (u k) (u (k + 1)) with h | h
        · rw [min_eq_left h]; nlinarith
        · rw [min_eq_right h]; nlinarith
      · rcases le_total (u k) (u (k + 1)) with h | h
        · rw [max_eq_right h]; nlinarith
        · rw [max_eq_left h]; nlinarith
      · rw [h k, h (k + 1)]
        push_cast
        field_simp
        ring

example : ∃ y, external 8 4 (fun k => 3 + 2 * (2 * π * k / (8 : ℕ))) 1 = some y ∧ y = 3 + 2 * (2 * π * (1 : ℕ) / (4 : ℕ)) := by
  obtain ⟨y, h1, -, h3⟩ := C338_found_partial 8 4 1 (fun k => 3 + 2 * (2 * π * k / (8 : ℕ))) (by norm_num) (by norm_num) (by norm_num)
  exact ⟨y, h1, h3 3 2 fun _ => rfl⟩

/-- A rotor with more stations than the external inflow cannot be evaluated: its last station lies past the end of the
table, which is not closed around the disc. -/
theorem C338_finer_counterexample :
    ¬ ∀ (Ne Na : ℕ) (u : ℕ → ℝ) (j : ℕ), 0 < Ne → j < Na → (external Ne Na u j).isSome := by
  intro h
  have := h 4 8 0 0 (by norm_num) (by norm_num)
  simp only [external] at this
  rw [if_neg (by norm_num), if_pos] at this
  · simp at this
  · have := pi_pos
    norm_num
    linarith


/-- **C334, the offset.** The angle of the blade is ahead of the station's by one step of a circle cut into one part more than
there are stations, for each step of the offset. -/
theorem C334_offset (w : Shape) (hω : w.ω₁ ≠ 0) (hrot : w.rot = 1 ∨ w.rot = -1) (i : ℕ) :
    (-w.rot * inflowAngle w i - i * (2 * π / w.Na)) * (w.Na + 1) = 2 * π * w.offset := by
  have h : (w.Na : ℝ) + 1 ≠ 0 := by positivity
  unfold inflowAngle
  have hr : w.rot * w.rot = 1 := by rcases hrot with r | r <;> rw [r] <;> norm_num
  generalize (i : ℝ) * (2 * π / w.Na) = c
  field_simp
  linear_combination (w.offset * 2 * π + (w.Na + 1) * c) * hr

end Verif.Rotor.Vortex
