import Verif.Num.Spectral
import Mathlib.RingTheory.Polynomial.Chebyshev
import Mathlib.Analysis.SpecialFunctions.Trigonometric.Chebyshev.Basic
import Mathlib.Algebra.Polynomial.Derivative
import Mathlib.Tactic.Linarith
import Mathlib.Tactic.FieldSimp
import Mathlib.Tactic.Ring
import Mathlib.Tactic.NormNum
/-! Helper lemmas for the pseudospectral operators. -/

namespace Verif.Num

open Real Polynomial

theorem specC_ne (n : Nat) (i : Fin (n + 2)) : specC n i ≠ 0 := by
  unfold specC
  apply mul_ne_zero
  · split <;> norm_num
  · exact pow_ne_zero _ (by norm_num)

/-- Off-diagonal entries. -/
theorem specD_off (n : Nat) (x : Fin (n + 2) → ℝ) {i j : Fin (n + 2)} (h : i ≠ j) :
    specD n x i j = specC n i / specC n j / (x i - x j) := by
  simp [specD, specRaw, h, div_eq_mul_inv]

/-- Row sums vanish. -/
theorem specD_row (n : Nat) (x : Fin (n + 2) → ℝ) (i : Fin (n + 2)) : ∑ j, specD n x i j = 0 := by
  unfold specD
  rw [Finset.sum_sub_distrib, Finset.sum_ite_eq]
  simp

/-- Applying the operator only uses differences to the value at the same point. -/
theorem specD_mulVec (n : Nat) (x f : Fin (n + 2) → ℝ) (i : Fin (n + 2)) :
    (specD n x).mulVec f i = ∑ j ∈ Finset.univ.erase i, specC n i / specC n j / (x i - x j) * (f j - f i) := by
  have h1 : (specD n x).mulVec f i = ∑ j, specD n x i j * (f j - f i) := by
    have : ∑ j, specD n x i j * (f j - f i) = ∑ j, specD n x i j * f j - (∑ j, specD n x i j) * f i := by
      rw [Finset.sum_mul, ← Finset.sum_sub_distrib]
      exact Finset.sum_congr rfl (fun j _ => by ring)
    rw [this, specD_row]
    simp [Matrix.mulVec, dotProduct]
  rw [h1, ← Finset.add_sum_erase _ _ (Finset.mem_univ i)]
  simp only [sub_self, mul_zero, zero_add]
  apply Finset.sum_congr rfl
  intro j hj
  rw [specD_off n x (Finset.ne_of_mem_erase hj).symm]

/-- If `f j - f i = (x j - x i) q j`, the operator is a weighted sum of `q`. -/
theorem specD_quot (n : Nat) (x f q : Fin (n + 2) → ℝ) (hx : Function.Injective x) (i : Fin (n + 2))
    (hq : ∀ j, f j - f i = (x j - x i) * q j) (hsum : ∑ j, q j / specC n j = 0) :
    (specD n x).mulVec f i = q i := by
  rw [specD_mulVec]
  have h1 : ∀ j ∈ Finset.univ.erase i, specC n i / specC n j / (x i - x j) * (f j - f i) = -(specC n i) * (q j / specC n j) := by
    intro j hj
    have hne : x i - x j ≠ 0 := sub_ne_zero.2 (fun h => (Finset.ne_of_mem_erase hj) (hx h).symm)
    have hc := specC_ne n j
    rw [hq j]
    field_simp
    ring
  rw [Finset.sum_congr rfl h1, ← Finset.mul_sum]
  rw [← Finset.add_sum_erase _ _ (Finset.mem_univ i)] at hsum
  have : ∑ j ∈ Finset.univ.erase i, q j / specC n j = - (q i / specC n i) := by linarith
  rw [this]
  have hc := specC_ne n i
  field_simp

/-- The alternating trapezoidal sum of cosines vanishes. -/
theorem alt_cos_sum (n m : Nat) (hm : m < n + 1) :
    ∑ j : Fin (n + 2), cos (m * (π * (j : ℕ) / (n + 1 : ℕ))) / specC n j = 0 := by
  set α : ℝ := m * π / (n + 1 : ℕ) with hα
  have hn : ((n + 1 : ℕ) : ℝ) ≠ 0 := by positivity
  have hnα : ((n + 1 : ℕ) : ℝ) * α = m * π := by rw [hα]; field_simp
  have harg : ∀ j : ℕ, (m : ℝ) * (π * (j : ℝ) / ((n + 1 : ℕ) : ℝ)) = j * α := by
    intro j; rw [hα]; ring
  have hhalf : cos (α / 2) ≠ 0 := by
    apply ne_of_gt
    apply cos_pos_of_mem_Ioo
    have h0 : 0 ≤ α := by positivity
    have h1 : α < π := by
      rw [hα, div_lt_iff₀ (by positivity)]
      have : (m : ℝ) < (n + 1 : ℕ) := by exact_mod_cast hm
      nlinarith [Real.pi_pos]
    constructor <;> linarith [Real.pi_pos]
  have e1 : ∑ j : Fin (n + 2), cos (m * (π * (j : ℕ) / (n + 1 : ℕ))) / specC n j
      = ∑ j ∈ Finset.range (n + 2), cos (j * α) / ((if j = 0 ∨ j = n + 1 then 2 else 1) * (-1) ^ j) := by
    rw [← Fin.sum_univ_eq_sum_range (fun j => cos ((j : ℝ) * α) / ((if j = 0 ∨ j = n + 1 then 2 else 1) * (-1) ^ j))]
    exact Finset.sum_congr rfl (fun j _ => by rw [harg]; rfl)
  have partialSum : ∀ k ≤ n, 2 * cos (α / 2) * ∑ j ∈ Finset.range (k + 1), cos (j * α) / ((if j = 0 ∨ j = n + 1 then 2 else 1) * (-1) ^ j)
      = (-1) ^ k * cos (k * α + α / 2) := by
    intro k
    induction k with
    | zero => intro _; simp; ring
    | succ k ih =>
      intro hk
      rw [Finset.sum_range_succ, mul_add, ih (by omega)]
      have hne : ¬ (k + 1 = 0 ∨ k + 1 = n + 1) := by omega
      rw [if_neg hne, one_mul]
      have hp : ((-1 : ℝ) ^ (k + 1)) * (-1) ^ (k + 1) = 1 := by rw [← mul_pow]; norm_num
      have hdiv : cos (((k + 1 : ℕ) : ℝ) * α) / (-1) ^ (k + 1) = (-1) ^ (k + 1) * cos (((k + 1 : ℕ) : ℝ) * α) := by
        rw [div_eq_iff (pow_ne_zero _ (by norm_num))]
        linear_combination -cos (((k + 1 : ℕ) : ℝ) * α) * hp
      rw [hdiv]
      have a1 : (k : ℝ) * α + α / 2 = ((k + 1 : ℕ) : ℝ) * α - α / 2 := by push_cast; ring
      rw [a1, cos_sub, cos_add]
      ring
  rw [e1, Finset.sum_range_succ]
  have hP := partialSum n (le_refl n)
  set S := ∑ j ∈ Finset.range (n + 1), cos (j * α) / ((if j = 0 ∨ j = n + 1 then (2:ℝ) else 1) * (-1) ^ j) with hS
  have hlast : cos (((n + 1 : ℕ) : ℝ) * α) / ((if (n + 1 = 0 ∨ n + 1 = n + 1) then (2:ℝ) else 1) * (-1) ^ (n + 1))
      = (-1) ^ (n + 1) * (-1) ^ m / 2 := by
    rw [if_pos (Or.inr rfl), hnα, cos_nat_mul_pi]
    have hp : ((-1 : ℝ) ^ (n + 1)) * (-1) ^ (n + 1) = 1 := by rw [← mul_pow]; norm_num
    rw [div_eq_iff (mul_ne_zero (by norm_num) (pow_ne_zero _ (by norm_num)))]
    linear_combination -((-1) ^ m) * hp
  rw [hlast]
  have a2 : (n : ℝ) * α + α / 2 = m * π - α / 2 := by
    have : (n : ℝ) * α = ((n + 1 : ℕ) : ℝ) * α - α := by push_cast; ring
    rw [this, hnα]; ring
  rw [a2, cos_sub, cos_nat_mul_pi, sin_nat_mul_pi] at hP
  have : 2 * cos (α / 2) * (S + (-1) ^ (n + 1) * (-1) ^ m / 2) = 0 := by
    rw [mul_add, hP]; ring
  rcases mul_eq_zero.1 this with h | h
  · exact absurd h (mul_ne_zero (by norm_num) hhalf)
  · exact h

theorem specC_inv_sum (n : Nat) : ∑ j : Fin (n + 2), 1 / specC n j = 0 := by
  have := alt_cos_sum n 0 (Nat.succ_pos n)
  simpa using this

/-- The weighted sum of a polynomial in the cosine vanishes for degree below `n+1`. -/
theorem alt_poly_sum (n : Nat) (d : Nat) (hd : d ≤ n + 1) (P : ℝ[X]) (hP : P.degree < d) :
    ∑ j : Fin (n + 2), P.eval (cos (π * (j : ℕ) / (n + 1 : ℕ))) / specC n j = 0 := by
  induction d generalizing P with
  | zero =>
    have : P = 0 := degree_eq_bot.1 (by simpa using hP)
    simp [this]
  | succ d ih =>
    have hT : (Chebyshev.T ℝ d).degree = d := by simp
    have hlead : (Chebyshev.T ℝ (d : ℤ)).coeff d ≠ 0 := by
      have := Polynomial.coeff_ne_zero_of_eq_degree hT
      exact this
    set a := P.coeff d / (Chebyshev.T ℝ (d : ℤ)).coeff d with ha
    set R := P - C a * Chebyshev.T ℝ (d : ℤ) with hR
    have hRd : R.degree < d := by
      rw [degree_lt_iff_coeff_zero]
      intro k hk
      rcases Nat.lt_or_eq_of_le hk with hk | hk
      · rw [hR, coeff_sub, coeff_C_mul]
        have h1 : P.coeff k = 0 := coeff_eq_zero_of_degree_lt (lt_of_lt_of_le hP (by exact_mod_cast hk))
        have h2 : (Chebyshev.T ℝ (d : ℤ)).coeff k = 0 := coeff_eq_zero_of_degree_lt (by rw [hT]; exact_mod_cast hk)
        rw [h1, h2]; ring
      · subst hk
        rw [hR, coeff_sub, coeff_C_mul, ha, div_mul_cancel₀ _ hlead, sub_self]
    have hP' : P = R + C a * Chebyshev.T ℝ (d : ℤ) := by rw [hR]; ring
    have hsplit : ∀ j : Fin (n + 2), P.eval (cos (π * (j : ℕ) / (n + 1 : ℕ))) / specC n j
        = R.eval (cos (π * (j : ℕ) / (n + 1 : ℕ))) / specC n j
          + a * (cos (d * (π * (j : ℕ) / (n + 1 : ℕ))) / specC n j) := by
      intro j
      rw [hP', eval_add, eval_mul, eval_C, Chebyshev.T_real_cos]
      push_cast
      ring
    rw [Finset.sum_congr rfl (fun j _ => hsplit j), Finset.sum_add_distrib, ← Finset.mul_sum,
      ih (by omega) R hRd, alt_cos_sum n d (by omega)]
    ring

theorem chebNode_inj (n : Nat) : Function.Injective (chebNode n) := by
  intro i j h
  unfold chebNode at h
  have hc : cos (π * (i : ℕ) / (n + 1 : ℕ)) = cos (π * (j : ℕ) / (n + 1 : ℕ)) := by linarith
  have hn : (0 : ℝ) < ((n + 1 : ℕ) : ℝ) := by positivity
  have hmem : ∀ k : Fin (n + 2), π * (k : ℕ) / (n + 1 : ℕ) ∈ Set.Icc 0 π := by
    intro k
    have hk : ((k : ℕ) : ℝ) ≤ ((n + 1 : ℕ) : ℝ) := by exact_mod_cast Nat.lt_succ_iff.1 k.isLt
    refine ⟨by positivity, ?_⟩
    rw [div_le_iff₀ hn]
    nlinarith [Real.pi_pos]
  have := injOn_cos (hmem i) (hmem j) hc
  rw [div_left_inj' hn.ne'] at this
  have h2 := mul_left_cancel₀ Real.pi_pos.ne' this
  exact Fin.ext (by exact_mod_cast h2)

theorem linNode_inj (n : Nat) : Function.Injective (linNode n) := by
  intro i j h
  unfold linNode at h
  have hn : (0 : ℝ) < ((n + 1 : ℕ) : ℝ) := by positivity
  rw [div_left_inj' hn.ne'] at h
  exact Fin.ext (by exact_mod_cast h)

/-- Weighted sum of a polynomial at the control points. -/
theorem cheb_poly_sum (n : Nat) (Q : ℝ[X]) (hQ : Q.degree < (n + 1 : ℕ)) :
    ∑ j : Fin (n + 2), Q.eval (chebNode n j) / specC n j = 0 := by
  have hdeg : (Q.comp (C (1 / 2) * (1 - X))).degree < (n + 1 : ℕ) := by
    by_cases hz : Q.comp (C (1 / 2) * (1 - X)) = 0
    · rw [hz, degree_zero]; exact WithBot.bot_lt_coe _
    · rw [degree_eq_natDegree hz]
      have h1 : (C (1 / 2 : ℝ) * (1 - X)).natDegree ≤ 1 := by
        refine le_trans natDegree_mul_le ?_
        simp only [natDegree_C, zero_add]
        refine le_trans (natDegree_sub_le _ _) ?_
        simp
      have h2 : (Q.comp (C (1 / 2) * (1 - X))).natDegree ≤ Q.natDegree := by
        refine le_trans natDegree_comp_le ?_
        nlinarith
      have hQ0 : Q ≠ 0 := by rintro rfl; simp at hz
      rw [degree_eq_natDegree hQ0] at hQ
      have hQ' : Q.natDegree < n + 1 := by exact_mod_cast hQ
      exact_mod_cast lt_of_le_of_lt h2 hQ'
  have h := alt_poly_sum n (n + 1) (le_refl _) _ hdeg
  have e : ∀ j : Fin (n + 2), (Q.comp (C (1 / 2) * (1 - X))).eval (cos (π * (j : ℕ) / (n + 1 : ℕ))) = Q.eval (chebNode n j) := by
    intro j
    rw [eval_comp]
    simp [chebNode]
  simp only [e] at h
  exact h

end Verif.Num
