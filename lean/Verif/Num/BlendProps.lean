import Verif.Num.Blend
import Mathlib.Analysis.Calculus.Deriv.Pow
import Mathlib.Analysis.Calculus.Deriv.Add
import Mathlib.Analysis.Calculus.Deriv.Mul
import Mathlib.Tactic.Linarith
import Mathlib.Tactic.FieldSimp
import Mathlib.Tactic.Ring
import Mathlib.Tactic.NormNum
import Mathlib.Tactic.Positivity
/-! C29 (cubic spline blending) and C30 (soft_max). -/

namespace Verif.Num

open Real

/-! ### C29 -/

/-- The polynomial piece. -/
theorem blend_inside {xs xe x : ℝ} (h : xs < xe) (h1 : xs ≤ x) (h2 : x ≤ xe) :
    blend xs xe x = 2 * eta xs xe x ^ 3 - 3 * eta xs xe x ^ 2 + 1 := by
  have hp : 0 < xe - xs := by linarith
  have e0 : 0 ≤ eta xs xe x := div_nonneg (by linarith) hp.le
  have e1 : eta xs xe x ≤ 1 := by unfold eta; rw [div_le_one hp]; linarith
  unfold blend
  simp only [not_lt.2 e0, if_false, not_lt.2 e1]
  ring

/-- **C29, before the start** (and at it) the weight is 1; **after the end** (and at it) 0. -/
theorem C29_outside {xs xe x : ℝ} (h : xs < xe) : (x ≤ xs → blend xs xe x = 1) ∧ (xe ≤ x → blend xs xe x = 0) := by
  have hp : 0 < xe - xs := by linarith
  constructor
  · intro hx
    rcases eq_or_lt_of_le hx with rfl | hx
    · rw [blend_inside h le_rfl h.le]; simp [eta]
    · have e0 : eta xs xe x < 0 := div_neg_of_neg_of_pos (by linarith) hp
      unfold blend
      simp only [e0, if_true]
      rw [if_neg (by linarith)]
  · intro hx
    rcases eq_or_lt_of_le hx with rfl | hx
    · rw [blend_inside h h.le le_rfl]
      have : eta xs xe xe = 1 := div_self hp.ne'
      rw [this]; norm_num
    · have e1 : 1 < eta xs xe x := by unfold eta; rw [lt_div_iff₀ hp]; linarith
      unfold blend
      simp only [gt_iff_lt, e1, if_true]

/-- **C29, range.** The weight always lies in [0,1]. -/
theorem C29_range {xs xe : ℝ} (h : xs < xe) (x : ℝ) : 0 ≤ blend xs xe x ∧ blend xs xe x ≤ 1 := by
  have hp : 0 < xe - xs := by linarith
  rcases le_or_gt x xs with h1 | h1
  · rw [(C29_outside h).1 h1]; norm_num
  rcases le_or_gt xe x with h2 | h2
  · rw [(C29_outside h).2 h2]; norm_num
  rw [blend_inside h h1.le h2.le]
  have e0 : 0 ≤ eta xs xe x := div_nonneg (by linarith) hp.le
  have e1 : eta xs xe x ≤ 1 := by unfold eta; rw [div_le_one hp]; linarith
  generalize eta xs xe x = e at *
  constructor
  · have : 2 * e ^ 3 - 3 * e ^ 2 + 1 = (1 - e) ^ 2 * (1 + 2 * e) := by ring
    rw [this]; positivity
  · have : 0 ≤ e ^ 2 * (3 - 2 * e) := mul_nonneg (sq_nonneg _) (by linarith)
    nlinarith

/-- **C29, monotone.** The weight never increases. -/
theorem C29_antitone {xs xe : ℝ} (h : xs < xe) : Antitone (blend xs xe) := by
  have hp : 0 < xe - xs := by linarith
  intro x y hxy
  rcases le_or_gt x xs with h1 | h1
  · rw [(C29_outside h).1 h1]; exact (C29_range h y).2
  rcases le_or_gt xe y with h2 | h2
  · rw [(C29_outside h).2 h2]; exact (C29_range h x).1
  rw [blend_inside h h1.le (by linarith), blend_inside h (by linarith) h2.le]
  have e0 : 0 ≤ eta xs xe x := div_nonneg (by linarith) hp.le
  have e1 : eta xs xe y ≤ 1 := by unfold eta; rw [div_le_one hp]; linarith
  have e2 : eta xs xe x ≤ eta xs xe y := by
    unfold eta; exact div_le_div_of_nonneg_right (by linarith) hp.le
  generalize eta xs xe x = a at *
  generalize eta xs xe y = b at *
  have key : (2 * a ^ 3 - 3 * a ^ 2 + 1) - (2 * b ^ 3 - 3 * b ^ 2 + 1)
      = (b - a) * (3 * (a + b) - 2 * (a ^ 2 + a * b + b ^ 2)) := by ring
  have h3 : 0 ≤ 3 * (a + b) - 2 * (a ^ 2 + a * b + b ^ 2) := by nlinarith
  have := mul_nonneg (sub_nonneg.2 e2) h3
  linarith

/-- **C29, smoothness.** The weight has a derivative everywhere: `6η(η-1)/(xe-xs)` inside and 0
outside, in particular 0 at both ends. -/
theorem C29_derivative {xs xe : ℝ} (h : xs < xe) (x : ℝ) :
    HasDerivAt (blend xs xe)
      (if xs ≤ x ∧ x ≤ xe then 6 * eta xs xe x * (eta xs xe x - 1) / (xe - xs) else 0) x := by
  have hp : 0 < xe - xs := by linarith
  -- derivative of the polynomial piece
  have hpoly : ∀ z, HasDerivAt (fun t => 2 * eta xs xe t ^ 3 - 3 * eta xs xe t ^ 2 + 1)
      (6 * eta xs xe z * (eta xs xe z - 1) / (xe - xs)) z := by
    intro z
    have he : HasDerivAt (eta xs xe) (1 / (xe - xs)) z :=
      ((hasDerivAt_id z).sub_const xs).div_const (xe - xs)
    have h3 := ((he.pow 3).const_mul 2).sub ((he.pow 2).const_mul 3)
    have h4 := h3.add_const 1
    refine h4.congr_deriv ?_
    push_cast
    field_simp
    ring
  have hone : ∀ z, HasDerivAt (fun _ : ℝ => (1 : ℝ)) 0 z := fun z => hasDerivAt_const z 1
  have hzero : ∀ z, HasDerivAt (fun _ : ℝ => (0 : ℝ)) 0 z := fun z => hasDerivAt_const z 0
  rcases lt_trichotomy x xs with hx | hx | hx
  · rw [if_neg (by rintro ⟨h1, _⟩; linarith)]
    refine (hone x).congr_of_eventuallyEq ?_
    filter_upwards [eventually_lt_nhds hx] with z hz
    exact (C29_outside h).1 hz.le
  · subst hx
    rw [if_pos ⟨le_rfl, h.le⟩]
    have e0 : eta x xe x = 0 := by simp [eta]
    have hd : 6 * eta x xe x * (eta x xe x - 1) / (xe - x) = 0 := by rw [e0]; simp
    rw [hd]
    have hl : HasDerivWithinAt (blend x xe) 0 (Set.Iic x) x := by
      refine ((hone x).hasDerivWithinAt).congr (fun z hz => (C29_outside h).1 hz) ((C29_outside h).1 le_rfl)
    have hr : HasDerivWithinAt (blend x xe) 0 (Set.Ici x) x := by
      have := (hpoly x)
      rw [hd] at this
      refine (this.hasDerivWithinAt (s := Set.Ici x)).congr_of_eventuallyEq ?_ (blend_inside h le_rfl h.le)
      filter_upwards [self_mem_nhdsWithin, mem_nhdsWithin_of_mem_nhds (eventually_lt_nhds h)] with z hz1 hz2
      exact blend_inside h hz1 (le_of_lt hz2)
    have := hl.union hr
    rwa [Set.Iic_union_Ici, hasDerivWithinAt_univ] at this
  · rcases lt_trichotomy x xe with hx2 | hx2 | hx2
    · rw [if_pos ⟨hx.le, hx2.le⟩]
      refine (hpoly x).congr_of_eventuallyEq ?_
      filter_upwards [eventually_gt_nhds hx, eventually_lt_nhds hx2] with z h1 h2
      exact blend_inside h h1.le h2.le
    · subst hx2
      rw [if_pos ⟨h.le, le_rfl⟩]
      have e1 : eta xs x x = 1 := div_self hp.ne'
      have hd : 6 * eta xs x x * (eta xs x x - 1) / (x - xs) = 0 := by rw [e1]; simp
      rw [hd]
      have hr : HasDerivWithinAt (blend xs x) 0 (Set.Ici x) x :=
        ((hzero x).hasDerivWithinAt).congr (fun z hz => (C29_outside h).2 hz) ((C29_outside h).2 le_rfl)
      have hl : HasDerivWithinAt (blend xs x) 0 (Set.Iic x) x := by
        have := (hpoly x)
        rw [hd] at this
        refine (this.hasDerivWithinAt (s := Set.Iic x)).congr_of_eventuallyEq ?_ (blend_inside h h.le le_rfl)
        filter_upwards [self_mem_nhdsWithin, mem_nhdsWithin_of_mem_nhds (eventually_gt_nhds h)] with z hz1 hz2
        exact blend_inside h (le_of_lt hz2) hz1
      have := hl.union hr
      rwa [Set.Iic_union_Ici, hasDerivWithinAt_univ] at this
    · rw [if_neg (by rintro ⟨_, h1⟩; linarith)]
      refine (hzero x).congr_of_eventuallyEq ?_
      filter_upwards [eventually_gt_nhds hx2] with z hz
      exact (C29_outside h).2 hz.le

/-- **C29, zero slope at both ends.** -/
theorem C29_flat_ends {xs xe : ℝ} (h : xs < xe) :
    HasDerivAt (blend xs xe) 0 xs ∧ HasDerivAt (blend xs xe) 0 xe := by
  have hp : xe - xs ≠ 0 := (sub_pos.2 h).ne'
  have h1 := C29_derivative h xs
  have h2 := C29_derivative h xe
  rw [if_pos ⟨le_rfl, h.le⟩] at h1
  rw [if_pos ⟨h.le, le_rfl⟩] at h2
  have e0 : eta xs xe xs = 0 := by simp [eta]
  have e1 : eta xs xe xe = 1 := div_self hp
  rw [e0] at h1
  rw [e1] at h2
  simp at h1 h2
  exact ⟨h1, h2⟩

/-- **C29, continuity.** -/
theorem C29_continuous {xs xe : ℝ} (h : xs < xe) : Continuous (blend xs xe) :=
  continuous_iff_continuousAt.2 fun x => (C29_derivative h x).continuousAt

example : blend 1 3 2 = 1 / 2 := by
  rw [blend_inside (by norm_num) (by norm_num) (by norm_num)]; norm_num [eta]

/-! ### C30 -/

/-- `soft_max` is the logarithm of the sum of exponentials. -/
theorem softMax_eq (a b : ℝ) : softMax a b = log (exp a + exp b) := by
  unfold softMax
  simp only
  have key : ∀ u v : ℝ, u + log (1 + exp (v - u)) = log (exp u + exp v) := by
    intro u v
    have h1 : exp u + exp v = exp u * (1 + exp (v - u)) := by
      rw [mul_add, mul_one, ← exp_add]; congr 2; ring
    rw [h1, log_mul (exp_pos u).ne' (by positivity), log_exp]
  rcases le_total a b with h | h
  · rw [max_eq_right h, min_eq_left h, key, add_comm]
  · rw [max_eq_left h, min_eq_right h, key]

/-- **C30, lower bound**: strictly above the maximum. -/
theorem C30_ge_max (a b : ℝ) : max a b < softMax a b := by
  unfold softMax
  have : 0 < log (1 + exp (min a b - max a b)) := log_pos (by linarith [exp_pos (min a b - max a b)])
  linarith

/-- **C30, upper bound**: by at most log 2. -/
theorem C30_le_max_add (a b : ℝ) : softMax a b ≤ max a b + log 2 := by
  unfold softMax
  have h1 : exp (min a b - max a b) ≤ 1 := by
    rw [exp_le_one_iff]; linarith [min_le_max (a := a) (b := b)]
  have : log (1 + exp (min a b - max a b)) ≤ log 2 := log_le_log (by positivity) (by linarith)
  linarith

/-- **C30, the bound is attained exactly for equal arguments.** -/
theorem C30_sharp (a b : ℝ) : softMax a b = max a b + log 2 ↔ a = b := by
  constructor
  · intro h
    unfold softMax at h
    have h2 : log (1 + exp (min a b - max a b)) = log 2 := by linarith
    have h3 : 1 + exp (min a b - max a b) = 2 := log_injOn_pos (Set.mem_Ioi.2 (by positivity)) (Set.mem_Ioi.2 (by norm_num)) h2
    have h4 : exp (min a b - max a b) = 1 := by linarith
    rw [exp_eq_one_iff] at h4
    have h5 : min a b = max a b := by linarith
    exact le_antisymm (le_trans (le_max_left a b) (h5 ▸ min_le_right a b)) (le_trans (le_max_right a b) (h5 ▸ min_le_left a b))
  · rintro rfl
    unfold softMax
    simp; norm_num

/-- **C30, symmetric.** -/
theorem C30_symmetric (a b : ℝ) : softMax a b = softMax b a := by
  unfold softMax; rw [max_comm, min_comm]

/-- **C30, monotone** in both arguments. -/
theorem C30_monotone {a a' b b' : ℝ} (ha : a ≤ a') (hb : b ≤ b') : softMax a b ≤ softMax a' b' := by
  rw [softMax_eq, softMax_eq]
  exact log_le_log (by positivity) (add_le_add (exp_le_exp.2 ha) (exp_le_exp.2 hb))

end Verif.Num
