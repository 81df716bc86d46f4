import Verif.Aero.LiftingLine
import Mathlib.LinearAlgebra.Matrix.NonsingularInverse
import Mathlib.LinearAlgebra.Matrix.ToLinearEquiv
import Mathlib.Tactic.Linarith
import Mathlib.Tactic.FieldSimp
import Mathlib.Algebra.BigOperators.Field
/-
Properties C258-C261 of the model in `LiftingLine.lean`.
-/

namespace Verif.Aero

open Finset Real

/-! ### Discrete orthogonality of the sines -/

/-- Sum of cosines over the stations, for a multiple that is not a full turn. -/
theorem sum_cos_stations (N m : Nat) (h0 : 0 < m) (h1 : m < 2 * (N + 1)) :
    ∑ i : Fin N, cos ((m : ℝ) * llTheta i) = -(1 + (-1) ^ m) / 2 := by
  have hr : (0 : ℝ) < (N : ℝ) + 1 := by positivity
  set x : ℝ := (m : ℝ) * π / (2 * ((N : ℝ) + 1)) with hx
  have hx0 : 0 < x := by have := pi_pos; positivity
  have hx1 : x < π := by
    rw [hx, div_lt_iff₀ (by positivity)]
    have : (m : ℝ) < 2 * ((N : ℝ) + 1) := by exact_mod_cast h1
    nlinarith [pi_pos]
  have hs : 0 < sin x := sin_pos_of_pos_of_lt_pi hx0 hx1
  have hth : ∀ i : Nat, (m : ℝ) * (((i : ℝ) + 1) * π / ((N : ℝ) + 1)) = 2 * ((i : ℝ) + 1) * x := by
    intro i; rw [hx]; field_simp
  have tele : ∀ n : Nat, 2 * sin x * ∑ i ∈ range n, cos (2 * ((i : ℝ) + 1) * x) = sin ((2 * (n : ℝ) + 1) * x) - sin x := by
    intro n
    induction n with
    | zero => simp
    | succ n ih =>
      rw [sum_range_succ, mul_add, ih]
      have e1 : (2 * ((n + 1 : ℕ) : ℝ) + 1) * x = 2 * ((n : ℝ) + 1) * x + x := by push_cast; ring
      have e2 : (2 * (n : ℝ) + 1) * x = 2 * ((n : ℝ) + 1) * x - x := by ring
      rw [e1, e2, sin_add, sin_sub]; ring
  have hsum : ∑ i : Fin N, cos ((m : ℝ) * llTheta i) = ∑ i ∈ range N, cos (2 * ((i : ℝ) + 1) * x) := by
    rw [← Fin.sum_univ_eq_sum_range (fun i => cos (2 * ((i : ℝ) + 1) * x)) N]
    refine sum_congr rfl fun i _ => ?_
    rw [llTheta, hth]
  have hend : sin ((2 * (N : ℝ) + 1) * x) = -(-1) ^ m * sin x := by
    have : (2 * (N : ℝ) + 1) * x = (m : ℝ) * π - x := by rw [hx]; field_simp; ring
    rw [this, sin_sub, sin_nat_mul_pi, cos_nat_mul_pi]; ring
  have := tele N
  rw [hend, ← hsum] at this
  have h2 : (2 * sin x) * (∑ i : Fin N, cos ((m : ℝ) * llTheta i)) = (2 * sin x) * (-(1 + (-1) ^ m) / 2) := by
    rw [this]; ring
  exact mul_left_cancel₀ (by positivity) h2

/-- The sine of number `j` at station `i`. -/
noncomputable def llS {N : Nat} (i j : Fin N) : ℝ := sin (((j : ℝ) + 1) * llTheta i)

theorem sin_orthogonal {N : Nat} (j l : Fin N) :
    ∑ i : Fin N, llS i j * llS i l = if j = l then ((N : ℝ) + 1) / 2 else 0 := by
  have prod : ∀ a b : ℝ, sin a * sin b = (cos (a - b) - cos (a + b)) / 2 := by
    intro a b; rw [cos_sub, cos_add]; ring
  have hplus : ∀ i : Fin N, ((j : ℝ) + 1) * llTheta i + ((l : ℝ) + 1) * llTheta i = (((j : ℕ) + l + 2 : ℕ) : ℝ) * llTheta i := by
    intro i; push_cast; ring
  have hP : ∑ i : Fin N, cos (((j : ℝ) + 1) * llTheta i + ((l : ℝ) + 1) * llTheta i) = -(1 + (-1) ^ ((j : ℕ) + l + 2)) / 2 := by
    simp only [hplus]
    exact sum_cos_stations N _ (by omega) (by have := j.isLt; have := l.isLt; omega)
  simp only [llS, prod]
  rw [← sum_div, sum_sub_distrib, hP]
  split_ifs with h
  · subst h
    have : ∀ i : Fin N, cos (((j : ℝ) + 1) * llTheta i - ((j : ℝ) + 1) * llTheta i) = 1 := by intro i; simp
    simp only [this]
    have e : (-1 : ℝ) ^ ((j : ℕ) + j + 2) = 1 := by
      rw [show (j : ℕ) + j + 2 = 2 * (j + 1) by ring, pow_mul]; simp
    rw [e]; simp
  · have hM : ∑ i : Fin N, cos (((j : ℝ) + 1) * llTheta i - ((l : ℝ) + 1) * llTheta i) = -(1 + (-1) ^ ((j : ℕ) + l + 2)) / 2 := by
      rcases lt_or_gt_of_ne (fun e => h (Fin.ext e) : (j : ℕ) ≠ l) with hlt | hlt
      · have hm : ∀ i : Fin N, cos (((j : ℝ) + 1) * llTheta i - ((l : ℝ) + 1) * llTheta i) = cos ((((l : ℕ) - j : ℕ) : ℝ) * llTheta i) := by
          intro i; rw [Nat.cast_sub hlt.le, ← cos_neg]; congr 1; ring
        simp only [hm]
        rw [sum_cos_stations N _ (by omega) (by have := l.isLt; omega)]
        congr 3
        rw [show (j : ℕ) + l + 2 = (l - j) + 2 * (j + 1) by omega, pow_add, pow_mul]; simp
      · have hm : ∀ i : Fin N, cos (((j : ℝ) + 1) * llTheta i - ((l : ℝ) + 1) * llTheta i) = cos ((((j : ℕ) - l : ℕ) : ℝ) * llTheta i) := by
          intro i; rw [Nat.cast_sub hlt.le]; congr 1; ring
        simp only [hm]
        rw [sum_cos_stations N _ (by omega) (by have := j.isLt; omega)]
        congr 3
        rw [show (j : ℕ) + l + 2 = (j - l) + 2 * (l + 1) by omega, pow_add, pow_mul]; simp
    rw [hM]; ring

theorem llTheta_pos {N : Nat} (i : Fin N) : 0 < llTheta i ∧ llTheta i < π := by
  have hr : (0 : ℝ) < (N : ℝ) + 1 := by positivity
  have hi : (i : ℝ) + 1 < (N : ℝ) + 1 := by
    have := i.isLt
    have : (i : ℝ) < N := by exact_mod_cast this
    linarith
  unfold llTheta
  refine ⟨by have := pi_pos; positivity, ?_⟩
  rw [div_lt_iff₀ hr]
  nlinarith [pi_pos]

theorem llSin_pos {N : Nat} (i : Fin N) : 0 < sin (llTheta i) := sin_pos_of_pos_of_lt_pi (llTheta_pos i).1 (llTheta_pos i).2

/-! ### The energy of a circulation -/

/-- Values at the stations of the coefficients. -/
noncomputable def llV {N : Nat} (A : Fin N → ℝ) (i : Fin N) : ℝ := ∑ j, llS i j * A j

theorem circulation_iff {N : Nat} (k ageo : Fin N → ℝ) (alpha : ℝ) (A : Fin N → ℝ) :
    IsCirculation k ageo alpha A ↔
    ∀ i, sin (llTheta i) * llV A i + k i * ∑ j : Fin N, llS i j * (((j : ℝ) + 1) * A j) = k i * sin (llTheta i) * (alpha + ageo i) := by
  refine forall_congr' fun i => ?_
  rw [sub_zero]
  have : ∑ j : Fin N, sin (((j : ℝ) + 1) * llTheta i) * (sin (llTheta i) + ((j : ℝ) + 1) * k i) * A j =
      sin (llTheta i) * llV A i + k i * ∑ j : Fin N, llS i j * (((j : ℝ) + 1) * A j) := by
    rw [llV, mul_sum, mul_sum, ← sum_add_distrib]
    exact sum_congr rfl fun j _ => by rw [llS]; ring
  rw [this]

/-- Sum over the stations of products of two sine series. -/
theorem parseval {N : Nat} (A B : Fin N → ℝ) :
    ∑ i, llV A i * llV B i = ((N : ℝ) + 1) / 2 * ∑ j, A j * B j := by
  have : ∀ i, llV A i * llV B i = ∑ j, ∑ l, A j * B l * (llS i j * llS i l) := by
    intro i
    rw [llV, llV, sum_mul_sum]
    exact sum_congr rfl fun j _ => sum_congr rfl fun l _ => by ring
  simp only [this]
  rw [sum_comm, mul_sum]
  refine sum_congr rfl fun j _ => ?_
  rw [sum_comm]
  simp only [← mul_sum, sin_orthogonal]
  simp only [mul_ite, mul_zero, sum_ite_eq, mem_univ, if_true]
  ring

/-- Energy identity of the lifting line equations. -/
theorem energy {N : Nat} (k ageo : Fin N → ℝ) (hk : ∀ i, 0 < k i) (alpha : ℝ) (A : Fin N → ℝ) (h : IsCirculation k ageo alpha A) :
    ∑ i, sin (llTheta i) / k i * llV A i ^ 2 + ((N : ℝ) + 1) / 2 * ∑ j : Fin N, ((j : ℝ) + 1) * A j ^ 2
      = ∑ i, sin (llTheta i) * (alpha + ageo i) * llV A i := by
  have hp := parseval A fun j : Fin N => ((j : ℝ) + 1) * A j
  have e : ∑ j : Fin N, ((j : ℝ) + 1) * A j ^ 2 = ∑ j : Fin N, A j * (((j : ℝ) + 1) * A j) := sum_congr rfl fun j _ => by ring
  rw [e, ← hp, ← sum_add_distrib]
  refine sum_congr rfl fun i _ => ?_
  have hi := (circulation_iff k ageo alpha A).1 h i
  have hki := (hk i).ne'
  have hV : llV (fun j : Fin N => ((j : ℝ) + 1) * A j) i = ∑ j : Fin N, llS i j * (((j : ℝ) + 1) * A j) := rfl
  rw [hV]
  generalize (∑ j : Fin N, llS i j * (((j : ℝ) + 1) * A j)) = W at hi ⊢
  generalize llV A i = V at hi ⊢
  generalize sin (llTheta i) = s at hi ⊢
  field_simp
  linear_combination V * hi

theorem circulation_unique {N : Nat} (k ageo : Fin N → ℝ) (hk : ∀ i, 0 < k i) (alpha : ℝ) (A B : Fin N → ℝ)
    (hA : IsCirculation k ageo alpha A) (hB : IsCirculation k ageo alpha B) : A = B := by
  have hD : IsCirculation k (fun _ => 0) 0 (fun j => A j - B j) := by
    intro i
    have h1 := hA i
    have h2 := hB i
    simp only [add_zero, sub_zero, mul_zero]
    have : ∀ j : Fin N, sin (((j : ℝ) + 1) * llTheta i) * (sin (llTheta i) + ((j : ℝ) + 1) * k i) * (A j - B j)
      = sin (((j : ℝ) + 1) * llTheta i) * (sin (llTheta i) + ((j : ℝ) + 1) * k i) * A j
        - sin (((j : ℝ) + 1) * llTheta i) * (sin (llTheta i) + ((j : ℝ) + 1) * k i) * B j := fun j => by ring
    simp only [this, sum_sub_distrib]
    rw [h1, h2]; ring
  have he := energy k _ hk 0 _ hD
  simp only [add_zero, mul_zero, zero_mul, sum_const_zero] at he
  have hn1 : 0 ≤ ∑ i, sin (llTheta i) / k i * llV (fun j => A j - B j) i ^ 2 :=
    sum_nonneg fun i _ => mul_nonneg (div_nonneg (llSin_pos i).le (hk i).le) (sq_nonneg _)
  have hn2 : 0 ≤ ∑ j : Fin N, ((j : ℝ) + 1) * (A j - B j) ^ 2 := sum_nonneg fun j _ => by positivity
  have hr : (0 : ℝ) < ((N : ℝ) + 1) / 2 := by positivity
  have h0 : ∑ j : Fin N, ((j : ℝ) + 1) * (A j - B j) ^ 2 = 0 := by nlinarith
  ext j
  have := (sum_eq_zero_iff_of_nonneg fun j _ => by positivity).1 h0 j (mem_univ j)
  have h3 : (A j - B j) ^ 2 = 0 := by
    rcases mul_eq_zero.1 this with h | h
    · exact absurd h (by positivity)
    · exact h
  nlinarith [pow_eq_zero_iff (two_ne_zero) |>.1 h3]

/-! ### C258 -/

/-- C258: for every wing of positive chord, twist, number of stations and angle of attack, the lifting line
equations have exactly one solution. -/
theorem C258_solvable {N : Nat} (k ageo : Fin N → ℝ) (hk : ∀ i, 0 < k i) (alpha : ℝ) :
    ∃! A : Fin N → ℝ, IsCirculation k ageo alpha A := by
  let M : Matrix (Fin N) (Fin N) ℝ := fun i j => sin (((j : ℝ) + 1) * llTheta i) * (sin (llTheta i) + ((j : ℝ) + 1) * k i)
  have hinj : Function.Injective M.mulVec := by
    intro A B hAB
    have hD : IsCirculation k (fun _ => 0) 0 (fun j => A j - B j) := by
      intro i
      have h1 : M.mulVec A i = M.mulVec B i := by rw [hAB]
      simp only [Matrix.mulVec, dotProduct, M] at h1
      simp only [add_zero, sub_zero, mul_zero, mul_sub, sum_sub_distrib]
      rw [h1]; ring
    have h0 : IsCirculation k (fun _ => 0) 0 (fun _ : Fin N => 0) := by intro i; simp
    have := circulation_unique k _ hk 0 _ _ hD h0
    ext j
    have h2 : A j - B j = 0 := congrFun this j
    linarith
  have hu : IsUnit M := Matrix.mulVec_injective_iff_isUnit.1 hinj
  have hsurj := Matrix.mulVec_surjective_iff_isUnit.2 hu
  obtain ⟨A, hA⟩ := hsurj fun i => k i * sin (llTheta i) * (alpha + ageo i - 0)
  refine ⟨A, fun i => congrFun hA i, fun B hB => ?_⟩
  exact circulation_unique k ageo hk alpha B A hB fun i => congrFun hA i

/-- C258: lift is an affine function of the angle of attack, proportional to it on a wing without twist. -/
theorem C258_affine {N : Nat} (w : ℝ) (k ageo : Fin (N + 1) → ℝ) (hk : ∀ i, 0 < k i) :
    ∃ c0 ca, (∀ alpha A, IsCirculation k ageo alpha A → llLift w (A 0) = c0 + ca * alpha) ∧ ((∀ i, ageo i = 0) → c0 = 0) := by
  obtain ⟨A0, h0, -⟩ := C258_solvable k ageo hk 0
  obtain ⟨A1, h1, -⟩ := C258_solvable k (fun _ => 0) hk 1
  refine ⟨llLift w (A0 0), llLift w (A1 0), fun alpha A hA => ?_, fun hz => ?_⟩
  · have hs : IsCirculation k ageo alpha fun j => A0 j + alpha * A1 j := by
      intro i
      have e0 := h0 i
      have e1 := h1 i
      have : ∀ j : Fin (N + 1), sin (((j : ℝ) + 1) * llTheta i) * (sin (llTheta i) + ((j : ℝ) + 1) * k i) * (A0 j + alpha * A1 j)
        = sin (((j : ℝ) + 1) * llTheta i) * (sin (llTheta i) + ((j : ℝ) + 1) * k i) * A0 j
          + alpha * (sin (((j : ℝ) + 1) * llTheta i) * (sin (llTheta i) + ((j : ℝ) + 1) * k i) * A1 j) := fun j => by ring
      simp only [this, sum_add_distrib, ← mul_sum]
      rw [e0, e1]; ring
    rw [circulation_unique k ageo hk alpha A _ hA hs]
    simp only [llLift]; ring
  · have hz' : IsCirculation k ageo 0 fun _ => 0 := by intro i; simp [hz i]
    rw [circulation_unique k ageo hk 0 A0 _ h0 hz']
    simp [llLift]

/-- C258: lift of an untwisted wing grows with the angle of attack, at no more than `π` times the aspect
ratio per radian. -/
theorem C258_slope {N : Nat} (w : ℝ) (hw : 0 < w) (k : Fin (N + 1) → ℝ) (hk : ∀ i, 0 < k i) (A : Fin (N + 1) → ℝ)
    (h : IsCirculation k (fun _ => 0) 1 A) : 0 < llLift w (A 0) ∧ llLift w (A 0) ≤ π * w := by
  have he := energy k _ hk 1 A h
  have hone : ∀ i : Fin (N + 1), sin (llTheta i) = llV (fun j => if j = 0 then 1 else 0) i := by
    intro i
    rw [llV]
    simp [llS]
  have hr : ∑ i : Fin (N + 1), sin (llTheta i) * (1 + 0) * llV A i = (((N + 1 : ℕ) : ℝ) + 1) / 2 * A 0 := by
    have := parseval (fun j : Fin (N + 1) => if j = 0 then (1 : ℝ) else 0) A
    simp only [← hone] at this
    simp only [add_zero, mul_one]
    rw [this]; simp
  rw [hr] at he
  have hn1 : 0 ≤ ∑ i, sin (llTheta i) / k i * llV A i ^ 2 :=
    sum_nonneg fun i _ => mul_nonneg (div_nonneg (llSin_pos i).le (hk i).le) (sq_nonneg _)
  have hge : A 0 ^ 2 ≤ ∑ j : Fin (N + 1), ((j : ℝ) + 1) * A j ^ 2 := by
    have := single_le_sum (f := fun j : Fin (N + 1) => ((j : ℝ) + 1) * A j ^ 2) (fun j _ => by positivity) (mem_univ 0)
    simpa using this
  have hc : (0 : ℝ) < (((N + 1 : ℕ) : ℝ) + 1) / 2 := by positivity
  have hle : A 0 ^ 2 ≤ A 0 := by
    by_contra hlt
    have hlt := not_le.1 hlt
    nlinarith
  have hne : A 0 ≠ 0 := by
    intro h0
    rw [h0, mul_zero] at he
    have hn2 : 0 ≤ ∑ j : Fin (N + 1), ((j : ℝ) + 1) * A j ^ 2 := sum_nonneg fun j _ => by positivity
    have h2 : ∑ j : Fin (N + 1), ((j : ℝ) + 1) * A j ^ 2 = 0 := by nlinarith
    have hA : A = fun _ => 0 := by
      ext j
      have := (sum_eq_zero_iff_of_nonneg fun j _ => by positivity).1 h2 j (mem_univ j)
      rcases mul_eq_zero.1 this with h' | h'
      · exact absurd h' (by positivity)
      · exact pow_eq_zero_iff (two_ne_zero) |>.1 h'
    have h1 := h 0
    rw [hA] at h1
    simp only [mul_zero, sum_const_zero, add_zero, sub_zero, mul_one] at h1
    exact (mul_pos (hk 0) (llSin_pos 0)).ne h1
  have hpos : 0 < A 0 := lt_of_le_of_ne (le_trans (sq_nonneg _) hle) (Ne.symm hne)
  have hle1 : A 0 ≤ 1 := by nlinarith
  have := pi_pos
  simp only [llLift]
  exact ⟨by positivity, by nlinarith [mul_pos this hw]⟩

/-- The hypotheses hold: one station on a rectangular wing of aspect ratio 8. -/
example : ∀ i : Fin 3, 0 < (fun _ : Fin 3 => llK 8 1) i := by
  intro; unfold llK; have := pi_pos; positivity

/-- C258: a vertical surface has no lift and no drag. -/
theorem C258_vertical {N : Nat} (w : LLWing) (h : w.vertical = true) (A : Fin (N + 1) → ℝ) : liftingLine w A = (0, 0) := by
  simp [liftingLine, h]

/-! ### C259 -/

theorem circulation_neg {N : Nat} (k : Fin N → ℝ) (alpha : ℝ) (A : Fin N → ℝ) (h : IsCirculation k (fun _ => 0) alpha A) :
    IsCirculation k (fun _ => 0) (-alpha) fun j => -A j := by
  intro i
  have := h i
  simp only [mul_neg, sum_neg_distrib, this]; ring

theorem llCumsum_neg {N : Nat} (f : Fin N → ℝ) (i : Fin N) : llCumsum (fun j => -f j) i = -llCumsum f i := by
  unfold llCumsum
  rw [← sum_neg_distrib]
  exact sum_congr rfl fun j _ => by split_ifs <;> simp

theorem llDrag_neg {N : Nat} (b w : ℝ) (c A : Fin N → ℝ) : llDrag b w c (fun j => -A j) = -llDrag b w c A := by
  unfold llDrag
  rw [← sum_neg_distrib]
  refine sum_congr rfl fun i _ => ?_
  have h1 : llCl b c (fun j => -A j) i = -llCl b c A i := by
    unfold llCl
    have : (fun j : Fin N => 4 * -A j * sin (((j : ℝ) + 1) * llTheta j)) = fun j => -(4 * A j * sin (((j : ℝ) + 1) * llTheta j)) := by
      ext j; ring
    rw [this, llCumsum_neg]; ring
  have h2 : llAlphaI (fun j => -A j) i = llAlphaI A i := by
    unfold llAlphaI
    congr 1
    ext j
    rw [mul_neg, sin_neg]; ring
  rw [h1, h2]; ring

/-- Specification.  The induced drag of a sine series of circulation. -/
noncomputable def inducedDragOf {N : Nat} (w : ℝ) (A : Fin N → ℝ) : ℝ := π * w * ∑ j : Fin N, ((j : ℝ) + 1) * A j ^ 2

/-- C259 holds at zero angle of attack of an untwisted wing: no lift, no drag. -/
theorem C259_zero_partial {N : Nat} (b w : ℝ) (c k : Fin N → ℝ) (hk : ∀ i, 0 < k i) (A : Fin N → ℝ)
    (h : IsCirculation k (fun _ => 0) 0 A) : llDrag b w c A = 0 ∧ inducedDragOf w A = 0 := by
  have h0 : IsCirculation k (fun _ => 0) 0 fun _ => 0 := by intro i; simp
  rw [circulation_unique k _ hk 0 A _ h h0]
  simp [llDrag, llCl, llCumsum, inducedDragOf]

/-- The induced drag of an untwisted wing changes sign with the angle of attack: it cannot be the positive
quadratic form of the theory on both sides. -/
theorem C259_sign_counterexample {N : Nat} (b w : ℝ) (hw : 0 < w) (c k : Fin (N + 1) → ℝ) (hk : ∀ i, 0 < k i) (A B : Fin (N + 1) → ℝ)
    (alpha : ℝ) (ha : alpha ≠ 0)
    (hA : IsCirculation k (fun _ => 0) alpha A) (hB : IsCirculation k (fun _ => 0) (-alpha) B) :
    llDrag b w c B = -llDrag b w c A ∧ (llDrag b w c A ≠ inducedDragOf w A ∨ llDrag b w c B ≠ inducedDragOf w B) := by
  have e : B = fun j => -A j := circulation_unique k _ hk (-alpha) B _ hB (circulation_neg k alpha A hA)
  have hd : llDrag b w c B = -llDrag b w c A := by rw [e, llDrag_neg]
  refine ⟨hd, ?_⟩
  by_contra hcon
  rw [not_or, not_not, not_not] at hcon
  obtain ⟨h1, h2⟩ := hcon
  have hn : inducedDragOf w B = inducedDragOf w A := by rw [e]; simp [inducedDragOf]
  have hz : inducedDragOf w A = 0 := by linarith
  have hs : ∑ j : Fin (N + 1), ((j : ℝ) + 1) * A j ^ 2 = 0 := by
    rcases mul_eq_zero.1 hz with h | h
    · exact absurd h (mul_pos pi_pos hw).ne'
    · exact h
  have hA0 : A = fun _ => 0 := by
    ext j
    have := (sum_eq_zero_iff_of_nonneg fun j _ => by positivity).1 hs j (mem_univ j)
    rcases mul_eq_zero.1 this with h' | h'
    · exact absurd h' (by positivity)
    · exact pow_eq_zero_iff (two_ne_zero) |>.1 h'
  have h3 := hA 0
  rw [hA0] at h3
  simp only [mul_zero, sum_const_zero, add_zero, sub_zero] at h3
  exact (mul_ne_zero (mul_pos (hk 0) (llSin_pos 0)).ne' ha) h3.symm

/-- With one station on a rectangular wing the drag is that of the theory times the aspect ratio times the sine
of the coefficient. -/
theorem C259_one_station_counterexample (c w a : ℝ) (hc : 0 < c) :
    llDrag (N := 1) (w * c) w (fun _ => c) (fun _ => a) = inducedDragOf (N := 1) w (fun _ => a) * (w * sin a) := by
  have ht : llTheta (0 : Fin 1) = π / 2 := by unfold llTheta; norm_num
  simp only [llDrag, llCl, llAlphaI, llCumsum, llEtam, inducedDragOf, univ_unique, sum_singleton, Fin.default_eq_zero, Fin.isValue, ht]
  norm_num
  field_simp

/-! ### C260 -/

/-- C260: the chord of a wing without segments goes linearly from the root chord to the tip chord. -/
theorem C260_chord_partial (w : LLWing) (eta : ℝ) (hr : 0 < w.chordRoot) (ht : w.taper = w.chordTip / w.chordRoot) :
    (llPlain w eta).1 = (1 - eta) * w.chordRoot + eta * w.chordTip := by
  simp only [llPlain]; rw [ht]; field_simp; ring

/-- Root and tip twist are exchanged: the angle at the root is the tip twist. -/
theorem C260_twist_counterexample (w : LLWing) (h : w.twistRoot ≠ w.twistTip) :
    (llPlain w 0).2 = w.twistTip ∧ (llPlain w 0).2 ≠ w.twistRoot ∧ (llPlain w 1).2 = w.twistRoot := by
  refine ⟨by simp [llPlain], by simp [llPlain, h.symm], by simp [llPlain]⟩

theorem llSegments_keeps (w : LLWing) (eta : ℝ) (acc : ℝ × ℝ) : ∀ l : List LLSeg, (∀ s ∈ l, eta ≤ s.x) → (∃ s, l.getLast? = some s ∧ s.x = 1) →
    llSegments w eta l acc = some acc
  | [], _, h => by simp at h
  | [s], _, h => by simp only [List.getLast?_singleton, Option.some.injEq] at h; obtain ⟨s', rfl, h⟩ := h; simp [llSegments, h]
  | s :: s' :: rest, hx, h => by
    rw [llSegments, if_neg (fun hc => absurd hc.1 (not_lt.2 (hx s (by simp))))]
    exact llSegments_keeps w eta acc (s' :: rest) (fun t ht => hx t (by simp [ht])) (by simpa using h)

/-- C260: between two neighbouring segments of a wing whose last segment is at the tip, chord and
twist are interpolated between those two. -/
theorem C260_segments_partial (w : LLWing) (eta : ℝ) (s s' : LLSeg) (h1 : s.x < eta) (h2 : eta < s'.x) (post : List LLSeg)
    (hpost : ∀ t ∈ post, s'.x ≤ t.x) (hlast : ∃ t, (s' :: post).getLast? = some t ∧ t.x = 1) :
    ∀ (pre : List LLSeg) (acc : ℝ × ℝ),
    llSegments w eta (pre ++ s :: s' :: post) acc = some
      ((((s'.x - eta) * s.l + (eta - s.x) * s'.l) / (s'.x - s.x)) * w.chordRoot,
        ((s'.x - eta) * s.t + (eta - s.x) * s'.t) / (s'.x - s.x))
  | [], acc => by
    rw [List.nil_append, llSegments, if_pos ⟨h1, h2⟩]
    rw [llSegments_keeps w eta _ (s' :: post) (by
      intro t ht
      rcases List.mem_cons.1 ht with rfl | ht
      · exact h2.le
      · exact h2.le.trans (hpost t ht)) hlast]
    have hne : s'.x - s.x ≠ 0 := by linarith
    congr 2
    · congr 1; field_simp; ring
    · field_simp; ring
  | [p], acc => by
    rw [List.singleton_append, llSegments]
    exact C260_segments_partial w eta s s' h1 h2 post hpost hlast [] _
  | p :: q :: pre, acc => by
    rw [List.cons_append, List.cons_append, llSegments]
    exact C260_segments_partial w eta s s' h1 h2 post hpost hlast (q :: pre) _

example : ∃ s s' : LLSeg, s.x < 1 / 2 ∧ 1 / 2 < s'.x ∧ ∃ t, [s'].getLast? = some t ∧ t.x = 1 :=
  ⟨⟨0, 1, 0⟩, ⟨1, 1 / 2, 0⟩, by norm_num, by norm_num, _, rfl, rfl⟩

/-- A wing whose last segment does not end at the tip fails. -/
theorem C260_last_counterexample (w : LLWing) (eta : ℝ) (s : LLSeg) (hs : s.x ≠ 1) : ∀ (l : List LLSeg),
    llGeometry w (l ++ [s]) eta = none := by
  have key : ∀ (l : List LLSeg) acc, llSegments w eta (l ++ [s]) acc = none := by
    intro l
    induction l with
    | nil => intro acc; simp [llSegments, hs]
    | cons a l ih =>
      intro acc
      cases l with
      | nil => simp only [List.cons_append, List.nil_append, llSegments]; rw [if_neg hs]
      | cons b l => simp only [List.cons_append, llSegments]; exact ih _
  intro l
  simp [llGeometry, key]

/-- A station exactly at the boundary of two segments gets chord and twist of the root. -/
theorem C260_boundary_counterexample (w : LLWing) (x l t l' t' : ℝ) :
    llGeometry w [⟨0, 1, w.twistRoot⟩, ⟨x, l, t⟩, ⟨1, l', t'⟩] x = some (w.chordRoot, w.twistRoot) := by
  simp [llGeometry, llSegments]

/-! ### C261 -/

/-- C261: the coefficients of the aircraft are those of the wings weighted with their areas. -/
theorem C261_total (sref : ℝ) (wings : List ((ℝ × ℝ) × ℝ)) :
    llTotal sref wings = ((wings.map fun w => w.1.1 * w.2).sum / sref, (wings.map fun w => w.1.2 * w.2).sum / sref) := by
  have key : ∀ (l : List ((ℝ × ℝ) × ℝ)) (t : ℝ × ℝ),
      l.foldl (fun t w => (t.1 + w.1.1 * w.2 / sref, t.2 + w.1.2 * w.2 / sref)) t
        = (t.1 + (l.map fun w => w.1.1 * w.2).sum / sref, t.2 + (l.map fun w => w.1.2 * w.2).sum / sref) := by
    intro l
    induction l with
    | nil => intro t; simp
    | cons w l ih => intro t; rw [List.foldl_cons, ih]; simp only [List.map_cons, List.sum_cons, add_div]; congr 1 <;> ring
  rw [llTotal, key]; simp

/-- C261: the line fitted to training data that lie on a line is that line, so the lift surrogate of the
aircraft is the lifting line's lift at every angle. -/
theorem C261_line_partial {m : Nat} (x y : Fin m → ℝ) (f : ℝ → ℝ) (h : IsLineFit x y f) (c0 ca : ℝ) (hy : ∀ i, y i = c0 + ca * x i)
    (i j : Fin m) (hij : x i ≠ x j) (t : ℝ) : f t = c0 + ca * t := by
  obtain ⟨⟨a, b, hf⟩, hmin⟩ := h
  have h0 : sumSq x y f = 0 := by
    refine le_antisymm ?_ (sum_nonneg fun i _ => sq_nonneg _)
    refine (hmin ca c0).trans (le_of_eq ?_)
    exact sum_eq_zero fun i _ => by rw [hy]; ring
  have hz : ∀ i, f (x i) = y i := by
    intro i
    have := (sum_eq_zero_iff_of_nonneg fun i _ => sq_nonneg _).1 h0 i (mem_univ i)
    have := pow_eq_zero_iff (two_ne_zero) |>.1 this
    linarith
  have e1 := hz i
  have e2 := hz j
  rw [hf, hy] at e1 e2
  have : (a - ca) * (x i - x j) = 0 := by linarith
  rcases mul_eq_zero.1 this with h | h
  · have ha : a = ca := by linarith
    subst ha
    rw [hf]; linarith
  · exact absurd (by linarith) hij

example : (fun i : Fin 2 => (i : ℝ)) 0 ≠ (fun i : Fin 2 => (i : ℝ)) 1 := by norm_num

/-- The training data of all wings are those of the last. -/
theorem C261_shared_counterexample (a b : String) (x y : ℝ) (hxy : x ≠ y) :
    llTrained [(a, x), (b, y)] a = some y ∧ llTrained [(a, x), (b, y)] a ≠ some x := by
  simp [llTrained, hxy.symm]

/-- One wing keeps its data. -/
theorem C261_single_partial (a : String) (x : ℝ) : llTrained [(a, x)] a = some x := by simp [llTrained]

/-- The drag surrogate of a wing is fitted to its lift: where the lift is on a line the surrogate gives the lift for
the drag. -/
theorem C261_drag_counterexample (lift drag : Fin 3 → ℝ) (cl cd : ℝ → ℝ) (c0 ca : ℝ)
    (h : IsWingSurrogate (fun i : Fin 3 => (i : ℝ)) lift drag cl cd) (hl : ∀ i, lift i = c0 + ca * (i : ℝ)) (t : ℝ) :
    cd t = c0 + ca * t := by
  obtain ⟨-, ⟨a, b, c, hf⟩, hmin⟩ := h
  have h0 : sumSq (fun i : Fin 3 => (i : ℝ)) lift cd = 0 := by
    refine le_antisymm ?_ (sum_nonneg fun i _ => sq_nonneg _)
    refine (hmin 0 ca c0).trans (le_of_eq ?_)
    exact sum_eq_zero fun i _ => by rw [hl]; ring
  have hz : ∀ i : Fin 3, cd (i : ℝ) = lift i := by
    intro i
    have := (sum_eq_zero_iff_of_nonneg fun i _ => sq_nonneg _).1 h0 i (mem_univ i)
    have := pow_eq_zero_iff (two_ne_zero) |>.1 this
    linarith
  have e0 := hz 0
  have e1 := hz 1
  have e2 := hz 2
  rw [hf, hl] at e0 e1 e2
  norm_num at e0 e1 e2
  rw [hf]
  have ha : a = 0 := by linarith
  have hb : b = ca := by linarith
  rw [ha, hb]; linarith

end Verif.Aero
