import Verif.Num.SpectralLemmas
import Mathlib.LinearAlgebra.Lagrange
import Mathlib.LinearAlgebra.Matrix.ToLinearEquiv
import Mathlib.Algebra.Polynomial.Div
/-!
C25, C26, C27 (pseudospectral operators) and C60 (equally spaced points).
-/

namespace Verif.Num

open Real Polynomial

/-! ### C25 -/

/-- **C25, constants.** For any points the operator annihilates constant data. -/
theorem C25_constants (n : Nat) (x : Fin (n + 2) → ℝ) (a : ℝ) (i : Fin (n + 2)) :
    (specD n x).mulVec (fun _ => a) i = 0 := by
  simp [Matrix.mulVec, dotProduct, ← Finset.sum_mul, specD_row]

/-- **C25, identity.** For any distinct points the operator maps the points to ones; with
`C25_constants`, it is exact on linear data. -/
theorem C25_identity (n : Nat) (x : Fin (n + 2) → ℝ) (hx : Function.Injective x) (i : Fin (n + 2)) :
    (specD n x).mulVec x i = 1 :=
  specD_quot n x x (fun _ => 1) hx i (fun j => by ring) (by simpa using specC_inv_sum n)

/-- Both families of points are distinct and run from 0 to 1. -/
theorem C25_nodes (n : Nat) :
    (Function.Injective (chebNode n) ∧ chebNode n 0 = 0 ∧ chebNode n (Fin.last _) = 1) ∧
    (Function.Injective (linNode n) ∧ linNode n 0 = 0 ∧ linNode n (Fin.last _) = 1) := by
  have hn : ((n + 1 : ℕ) : ℝ) ≠ 0 := by positivity
  refine ⟨⟨chebNode_inj n, by simp [chebNode], ?_⟩, ⟨linNode_inj n, by simp [linNode], ?_⟩⟩
  · unfold chebNode
    have : π * ((Fin.last (n + 1) : Fin (n + 2)) : ℕ) / ((n + 1 : ℕ) : ℝ) = π := by
      rw [Fin.val_last]; field_simp
    rw [this, cos_pi]; norm_num
  · unfold linNode
    rw [Fin.val_last]; field_simp

/-- The Chebyshev points increase strictly. -/
theorem C25_nodes_increasing (n : Nat) : StrictMono (chebNode n) ∧ StrictMono (linNode n) := by
  have hn : (0 : ℝ) < ((n + 1 : ℕ) : ℝ) := by positivity
  constructor
  · intro i j hij
    unfold chebNode
    have hlt : ((i : ℕ) : ℝ) < ((j : ℕ) : ℝ) := by exact_mod_cast hij
    have hj : ((j : ℕ) : ℝ) ≤ ((n + 1 : ℕ) : ℝ) := by exact_mod_cast Nat.lt_succ_iff.1 j.isLt
    have := cos_lt_cos_of_nonneg_of_le_pi (x := π * (i : ℕ) / (n + 1 : ℕ)) (y := π * (j : ℕ) / (n + 1 : ℕ))
      (by positivity) (by rw [div_le_iff₀ hn]; nlinarith [Real.pi_pos])
      (by rw [div_lt_div_iff_of_pos_right hn]; exact mul_lt_mul_of_pos_left hlt Real.pi_pos)
    linarith
  · intro i j hij
    unfold linNode
    rw [div_lt_div_iff_of_pos_right hn]
    exact_mod_cast hij

/-! ### C27 -/

/-- **C27.** With `N = n+2` Chebyshev control points the operator differentiates every
polynomial of degree below `N` exactly at every control point. -/
theorem C27_exact (n : Nat) (P : ℝ[X]) (hP : P.degree < (n + 2 : ℕ)) (i : Fin (n + 2)) :
    (specD n (chebNode n)).mulVec (fun j => P.eval (chebNode n j)) i = P.derivative.eval (chebNode n i) := by
  set a := chebNode n i with ha
  have hroot : (P - C (P.eval a)).eval a = 0 := by simp
  obtain ⟨Q, hQ⟩ := dvd_iff_isRoot.2 (show (P - C (P.eval a)).IsRoot a from hroot)
  have hP2 : P = C (P.eval a) + (X - C a) * Q := by rw [← hQ]; ring
  have hder : P.derivative.eval a = Q.eval a := by
    conv_lhs => rw [hP2]
    simp
  have hQdeg : Q.degree < (n + 1 : ℕ) := by
    by_cases hz : Q = 0
    · rw [hz, degree_zero]; exact WithBot.bot_lt_coe _
    · have h1 : (P - C (P.eval a)).degree < (n + 2 : ℕ) := by
        refine lt_of_le_of_lt (degree_sub_le _ _) (max_lt hP ?_)
        exact lt_of_le_of_lt degree_C_le (by exact_mod_cast Nat.succ_pos _)
      rw [hQ, degree_mul, degree_X_sub_C, degree_eq_natDegree hz] at h1
      rw [degree_eq_natDegree hz]
      have h2 : 1 + Q.natDegree < n + 2 := by exact_mod_cast h1
      exact_mod_cast (by omega : Q.natDegree < n + 1)
  rw [hder, ha]
  apply specD_quot n (chebNode n) _ (fun j => Q.eval (chebNode n j)) (chebNode_inj n) i
  · intro j
    have := congrArg (eval (chebNode n j)) hQ
    simp only [eval_sub, eval_C, eval_mul, eval_X] at this
    exact this
  · exact cheb_poly_sum n Q hQdeg

example : ((X : ℝ[X]) ^ 3).degree < ((2 + 2 : ℕ) : WithBot ℕ) := by
  rw [degree_X_pow]; exact_mod_cast (by norm_num : 3 < 4)

/-! ### C26 -/

/-- Differentiation of data only depends on the later rows and columns once the first value is
subtracted. -/
theorem specD_succ (n : Nat) (x f : Fin (n + 2) → ℝ) (i : Fin (n + 1)) :
    (specD n x).mulVec f i.succ = (specSub n x).mulVec (fun j => f j.succ - f 0) i := by
  have h : (specD n x).mulVec f i.succ = ∑ j, specD n x i.succ j * (f j - f 0) := by
    have : ∑ j, specD n x i.succ j * (f j - f 0) = ∑ j, specD n x i.succ j * f j - (∑ j, specD n x i.succ j) * f 0 := by
      rw [Finset.sum_mul, ← Finset.sum_sub_distrib]
      exact Finset.sum_congr rfl (fun j _ => by ring)
    rw [this, specD_row]
    simp [Matrix.mulVec, dotProduct]
  rw [h, Fin.sum_univ_succ]
  simp [Matrix.mulVec, dotProduct, specSub]

/-- **C26, existence.** For Chebyshev points the matrix to be inverted is never singular: the
integration operator exists for every number of points. -/
theorem C26_chebyshev_exists (n : Nat) : (specI n (chebNode n)).isSome := by
  have hu : IsUnit (specSub n (chebNode n)) := by
    rw [Matrix.isUnit_iff_isUnit_det, isUnit_iff_ne_zero]
    intro hdet
    obtain ⟨v, hv0, hv⟩ := Matrix.exists_mulVec_eq_zero_iff.2 hdet
    -- interpolate the data (0, v)
    let f : Fin (n + 2) → ℝ := Fin.cons 0 v
    let P := Lagrange.interpolate Finset.univ (chebNode n) f
    have hinj : Set.InjOn (chebNode n) (Finset.univ : Finset (Fin (n + 2))) := (chebNode_inj n).injOn
    have hPdeg : P.degree < (n + 2 : ℕ) := by
      have := Lagrange.degree_interpolate_lt f hinj
      rw [Finset.card_univ, Fintype.card_fin] at this
      exact this
    have hPev : ∀ j, P.eval (chebNode n j) = f j := fun j =>
      Lagrange.eval_interpolate_at_node f hinj (Finset.mem_univ j)
    have hder : ∀ i : Fin (n + 1), P.derivative.eval (chebNode n i.succ) = 0 := by
      intro i
      rw [← C27_exact n P hPdeg i.succ, specD_succ]
      simp only [hPev]
      have : (fun j : Fin (n + 1) => f j.succ - f 0) = v := by
        funext j; simp [f]
      rw [this, hv]; rfl
    have hP'deg : P.derivative.degree < (Finset.univ : Finset (Fin (n + 1))).card := by
      rw [Finset.card_univ, Fintype.card_fin]
      by_cases hz : P = 0
      · simp only [hz, derivative_zero, degree_zero]; exact WithBot.bot_lt_coe _
      · have h1 := degree_derivative_lt hz
        rw [degree_eq_natDegree hz] at hPdeg h1
        have h2 : P.natDegree < n + 2 := by exact_mod_cast hPdeg
        exact lt_of_lt_of_le h1 (by exact_mod_cast Nat.lt_succ_iff.1 h2)
    have hP'0 : P.derivative = 0 := by
      apply Polynomial.eq_zero_of_degree_lt_of_eval_index_eq_zero (s := Finset.univ)
        (v := fun i : Fin (n + 1) => chebNode n i.succ)
      · intro a _ b _ hab
        exact Fin.succ_injective _ (chebNode_inj n hab)
      · exact hP'deg
      · intro i _; exact hder i
    have hconst : P.natDegree = 0 := Polynomial.derivative_eq_zero.1 hP'0
    obtain ⟨a, ha⟩ := Polynomial.natDegree_eq_zero.1 hconst
    have ha0 : a = 0 := by
      have := hPev 0
      rw [← ha] at this
      simpa [f] using this
    apply hv0
    funext j
    have := hPev j.succ
    rw [← ha, ha0] at this
    simpa [f] using this.symm
  unfold specI
  rw [if_pos hu]; rfl

/-- **C26, first point.** Whenever the integration operator exists, for whatever points, its
result at the first control point is zero. -/
theorem C26_first (n : Nat) (x g : Fin (n + 2) → ℝ) (I : Matrix (Fin (n + 2)) (Fin (n + 2)) ℝ)
    (h : specI n x = some I) : I.mulVec g 0 = 0 := by
  unfold specI at h
  split at h
  · injection h with h; subst h
    simp [Matrix.mulVec, dotProduct]
  · cases h

theorem specI_succ {n : Nat} {x : Fin (n + 2) → ℝ} {I : Matrix (Fin (n + 2)) (Fin (n + 2)) ℝ}
    (h : specI n x = some I) (g : Fin (n + 2) → ℝ) (i : Fin (n + 1)) :
    IsUnit (specSub n x) ∧ I.mulVec g i.succ = ((specSub n x)⁻¹).mulVec (fun j => g j.succ) i := by
  unfold specI at h
  split at h
  · rename_i hu
    injection h with h; subst h
    refine ⟨hu, ?_⟩
    simp [Matrix.mulVec, dotProduct, Fin.sum_univ_succ]
  · cases h

/-- **C26, integrating a derivative.** `I (D f) = f - f[0]` for every data vector. -/
theorem C26_integrate_derivative (n : Nat) (x f : Fin (n + 2) → ℝ) (I : Matrix (Fin (n + 2)) (Fin (n + 2)) ℝ)
    (h : specI n x = some I) (i : Fin (n + 2)) :
    I.mulVec ((specD n x).mulVec f) i = f i - f 0 := by
  refine Fin.cases ?_ (fun i => ?_) i
  · rw [C26_first n x _ I h]; ring
  · obtain ⟨hu, h2⟩ := specI_succ h ((specD n x).mulVec f) i
    rw [h2]
    have : (fun j : Fin (n + 1) => (specD n x).mulVec f j.succ) = (specSub n x).mulVec (fun j => f j.succ - f 0) := by
      funext j; exact specD_succ n x f j
    rw [this, Matrix.mulVec_mulVec, Matrix.nonsing_inv_mul _ ((Matrix.isUnit_iff_isUnit_det _).1 hu), Matrix.one_mulVec]

/-- **C26, differentiating an integral.** `D (I g) = g` at all points after the first. -/
theorem C26_derivative_integral (n : Nat) (x g : Fin (n + 2) → ℝ) (I : Matrix (Fin (n + 2)) (Fin (n + 2)) ℝ)
    (h : specI n x = some I) (i : Fin (n + 1)) :
    (specD n x).mulVec (I.mulVec g) i.succ = g i.succ := by
  rw [specD_succ]
  have hu := (specI_succ h g i).1
  have : (fun j : Fin (n + 1) => I.mulVec g j.succ - I.mulVec g 0) = ((specSub n x)⁻¹).mulVec (fun j => g j.succ) := by
    funext j
    rw [C26_first n x g I h, (specI_succ h g j).2, sub_zero]
  rw [this, Matrix.mulVec_mulVec, Matrix.mul_nonsing_inv _ ((Matrix.isUnit_iff_isUnit_det _).1 hu), Matrix.one_mulVec]

/-- **C26 with a segment's time scaling** (the operators are divided and multiplied by the
duration, Missions/Segments/Common/Numerics.py:62-93): with duration `T ≠ 0` and initial value
`y0`, the integrated rate starts at `y0` and its derivative is the rate at later points. -/
theorem C26_time_scaled (n : Nat) (x g : Fin (n + 2) → ℝ) (I : Matrix (Fin (n + 2)) (Fin (n + 2)) ℝ)
    (h : specI n x = some I) (T y0 : ℝ) (hT : T ≠ 0) :
    let y := fun i => y0 + (T • I).mulVec g i
    y 0 = y0 ∧ ∀ i : Fin (n + 1), (T⁻¹ • specD n x).mulVec y i.succ = g i.succ := by
  intro y
  constructor
  · show y0 + (T • I).mulVec g 0 = y0
    rw [Matrix.smul_mulVec, Pi.smul_apply, C26_first n x g I h]; simp
  · intro i
    rw [Matrix.smul_mulVec, Pi.smul_apply]
    have hy : y = (fun _ => y0) + T • I.mulVec g := by
      funext j; simp [y, Matrix.smul_mulVec]
    rw [hy, Matrix.mulVec_add, Pi.add_apply, C25_constants, Matrix.mulVec_smul, Pi.smul_apply,
      C26_derivative_integral n x g I h i]
    simp [hT]

/-- **C26, exact integrals.** With Chebyshev points the operator integrates the derivative of
any polynomial of degree below `N` exactly. -/
theorem C26_exact_integral (n : Nat) (I : Matrix (Fin (n + 2)) (Fin (n + 2)) ℝ)
    (h : specI n (chebNode n) = some I) (P : ℝ[X]) (hP : P.degree < (n + 2 : ℕ)) (i : Fin (n + 2)) :
    I.mulVec (fun j => P.derivative.eval (chebNode n j)) i = P.eval (chebNode n i) - P.eval 0 := by
  have h2 := C26_integrate_derivative n (chebNode n) (fun j => P.eval (chebNode n j)) I h i
  have : (specD n (chebNode n)).mulVec (fun j => P.eval (chebNode n j)) = fun j => P.derivative.eval (chebNode n j) := by
    funext j; exact C27_exact n P hP j
  rw [this] at h2
  have h0 : chebNode n 0 = 0 := (C25_nodes n).1.2.1
  rw [h2, h0]

/-! ### C60: equally spaced points -/

/-- **C60, partial.** `linear_data` is exact on linear data. (Missing: higher degrees, where it
is false.) -/
theorem C60_linear_partial (n : Nat) (a b : ℝ) (i : Fin (n + 2)) :
    (specD n (linNode n)).mulVec (fun j => a + b * linNode n j) i = b := by
  have hf : (fun j => a + b * linNode n j) = (fun _ => a) + b • linNode n := by
    funext j; simp
  rw [hf, Matrix.mulVec_add, Pi.add_apply, C25_constants, Matrix.mulVec_smul, Pi.smul_apply,
    C25_identity n _ (linNode_inj n)]
  simp

/-- **C60 is false of the code**: with four equally spaced points the "derivative" of `x²` at 0
comes out as 1/3 (the weights are those of Chebyshev points). -/
theorem C60_counterexample :
    (specD 2 (linNode 2)).mulVec (fun j => linNode 2 j ^ 2) 0 = 1 / 3 := by
  rw [specD_mulVec]
  have : (Finset.univ.erase (0 : Fin 4)) = {1, 2, 3} := by decide
  rw [this]
  rw [Finset.sum_insert (by decide), Finset.sum_insert (by decide), Finset.sum_singleton]
  simp only [specC, linNode]
  norm_num [Fin.val_two]

end Verif.Num
