import Verif.Airfoil.HeadStart
import Mathlib.Tactic.Linarith
import Mathlib.Tactic.FieldSimp
import Mathlib.Tactic.NormNum
import Mathlib.Analysis.Convex.SpecificFunctions.Basic
/-
Property C439: the start of the turbulent layer.
-/

namespace Verif.Airfoil

/-- A broken power compared through whole powers. -/
theorem rpow_lt_of_pow (x c : ℝ) (p q : ℕ) (hx : 0 < x) (hc : 0 < c) (hq : 0 < q) (h : x ^ p < c ^ q) : x ^ ((p : ℝ) / q) < c := by
  have hq' : (q : ℝ) ≠ 0 := by positivity
  refine lt_of_pow_lt_pow_left₀ q hc.le ?_
  rw [← Real.rpow_natCast, ← Real.rpow_mul hx.le, div_mul_cancel₀ _ hq', Real.rpow_natCast]
  exact h

theorem lt_rpow_of_pow (x c : ℝ) (p q : ℕ) (hx : 0 < x) (hq : 0 < q) (h : c ^ q < x ^ p) : c < x ^ ((p : ℝ) / q) := by
  have hq' : (q : ℝ) ≠ 0 := by positivity
  have hp := Real.rpow_pos_of_pos hx ((p : ℝ) / q)
  refine lt_of_pow_lt_pow_left₀ q hp.le ?_
  rw [← Real.rpow_natCast (x ^ _), ← Real.rpow_mul hx.le, div_mul_cancel₀ _ hq', Real.rpow_natCast]
  exact h

/-- Bounds of a broken power of a number above one between neighbouring fractions. -/
theorem rpow_lt_of_le (x c a : ℝ) (p q : ℕ) (hx : 1 ≤ x) (hc : 0 < c) (hq : 0 < q) (ha : a ≤ (p : ℝ) / q) (h : x ^ p < c ^ q) : x ^ a < c :=
  (Real.rpow_le_rpow_of_exponent_le hx ha).trans_lt (rpow_lt_of_pow x c p q (by linarith) hc hq h)

theorem lt_rpow_of_le (x c a : ℝ) (p q : ℕ) (hx : 1 ≤ x) (hq : 0 < q) (ha : (p : ℝ) / q ≤ a) (h : c ^ q < x ^ p) : c < x ^ a :=
  (lt_rpow_of_pow x c p q (by linarith) hq h).trans_le (Real.rpow_le_rpow_of_exponent_le hx ha)

theorem thin_eq (h : ℝ) (h1 : 1.1 < h) (h2 : h ≤ 1.6) : headH1 h = .val (3.3 + 0.8234 * (h - 1.1) ^ (-1.287 : ℝ)) := by
  unfold headH1
  rw [if_neg (by linarith), if_neg (by linarith), if_neg (by linarith)]

theorem thick_eq (h : ℝ) (h2 : 1.6 < h) : headH1 h = .val (3.3 + 1.5501 * (h - 0.6778) ^ (-3.064 : ℝ)) := by
  unfold headH1
  rw [if_pos h2]

/-- Up to 1.6 the entrainment shape factor is above 5.3. -/
theorem thin_above (h : ℝ) (h1 : 1.1 < h) (h2 : h ≤ 1.6) : 2 < 0.8234 * (h - 1.1) ^ (-1.287 : ℝ) := by
  have hv : 0 < h - 1.1 := by linarith
  have e : (0.5 : ℝ) ^ (-1.287 : ℝ) ≤ (h - 1.1) ^ (-1.287 : ℝ) :=
    Real.rpow_le_rpow_of_nonpos hv (by linarith) (by norm_num)
  have e2 : (0.5 : ℝ) ^ (-1.287 : ℝ) = 2 ^ (1.287 : ℝ) := by
    rw [show (0.5 : ℝ) = 2⁻¹ by norm_num, Real.inv_rpow (by norm_num), ← Real.rpow_neg (by norm_num)]
    norm_num
  have e3 := lt_rpow_of_le 2 2.435 1.287 9 7 (by norm_num) (by norm_num) (by norm_num) (by norm_num)
  rw [← e2] at e3
  linarith

/-- Beyond 1.6 it is below 5.3. -/
theorem thick_below (h : ℝ) (h2 : 1.6 < h) : 1.5501 * (h - 0.6778) ^ (-3.064 : ℝ) < 2 := by
  have e : (h - 0.6778) ^ (-3.064 : ℝ) < (0.9222 : ℝ) ^ (-3.064 : ℝ) :=
    Real.rpow_lt_rpow_of_neg (by norm_num) (by linarith) (by norm_num)
  have e2 : (0.9222 : ℝ) ^ (-3.064 : ℝ) = (1 / 0.9222) ^ (3.064 : ℝ) := by
    rw [one_div, Real.inv_rpow (by norm_num), ← Real.rpow_neg (by norm_num)]
  have e3 := rpow_lt_of_le (1 / 0.9222) 1.285 3.064 46 15 (by norm_num) (by norm_num) (by norm_num) (by norm_num) (by norm_num)
  rw [← e2] at e3
  linarith

/-- **C439, start.** Whatever the shape factor of the laminar layer, other than 1.1, the turbulent layer starts with a number: the one of the definition
below 1.1, above it one larger than 3.3. -/
theorem C439_start_partial (del delStar theta : ℝ) (hθ : 0 < theta) (hne : delStar ≠ 1.1 * theta) :
    ∃ x, headStart del delStar theta = .val x ∧ (delStar < 1.1 * theta → x * theta = del - delStar) ∧ (1.1 * theta < delStar → 3.3 < x) := by
  rcases lt_or_gt_of_ne hne with h | h
  · have h1 : delStar / theta < 1.1 := by rwa [div_lt_iff₀ hθ]
    refine ⟨(del - delStar) / theta, ?_, fun _ => by field_simp, fun h' => absurd h' (by linarith)⟩
    unfold headStart headH1
    rw [if_neg (by linarith), if_pos h1]
  · have h1 : 1.1 < delStar / theta := by rwa [lt_div_iff₀ hθ]
    rcases le_or_gt (delStar / theta) 1.6 with h2 | h2
    · refine ⟨_, by unfold headStart; rw [thin_eq _ h1 h2], fun h' => absurd h' (by linarith), fun _ => ?_⟩
      linarith [thin_above _ h1 h2]
    · refine ⟨_, by unfold headStart; rw [thick_eq _ h2], fun h' => absurd h' (by linarith), fun _ => ?_⟩
      have := Real.rpow_pos_of_pos (show (0 : ℝ) < delStar / theta - 0.6778 by linarith) (-3.064)
      linarith

/-- **C439, refuted.** At a shape factor of 1.1 the layer starts with an infinite value. -/
theorem C439_limit_counterexample : headStart 0.01 0.0011 0.001 = .inf := by
  unfold headStart headH1
  rw [if_neg (by norm_num), if_neg (by norm_num), if_pos (by norm_num)]

/-- **C439, falls.** The entrainment shape factor falls strictly as the shape factor grows, through the change of formulas. -/
theorem C439_falls (a b x y : ℝ) (ha : 1.1 < a) (hab : a < b) (hx : headH1 a = .val x) (hy : headH1 b = .val y) : y < x := by
  rcases le_or_gt b 1.6 with h2 | h2
  · rw [thin_eq a ha (by linarith)] at hx
    rw [thin_eq b (by linarith) h2] at hy
    cases hx; cases hy
    have := Real.rpow_lt_rpow_of_neg (show (0 : ℝ) < a - 1.1 by linarith) (show a - 1.1 < b - 1.1 by linarith) (by norm_num : (-1.287 : ℝ) < 0)
    linarith
  · rw [thick_eq b h2] at hy
    cases hy
    rcases le_or_gt a 1.6 with h1 | h1
    · rw [thin_eq a ha h1] at hx
      cases hx
      linarith [thin_above a ha h1, thick_below b h2]
    · rw [thick_eq a h1] at hx
      cases hx
      have := Real.rpow_lt_rpow_of_neg (show (0 : ℝ) < a - 0.6778 by linarith) (show a - 0.6778 < b - 0.6778 by linarith)
        (by norm_num : (-3.064 : ℝ) < 0)
      linarith

/-- There and back on the thin side. -/
theorem back_thin (v : ℝ) (h0 : 0 < v) (h1 : v ≤ 0.5) : |0.86 * (0.8234 * v ^ (-1.287 : ℝ)) ^ (-0.777 : ℝ) - v| ≤ 0.002 := by
  have hp := Real.rpow_pos_of_pos h0 (-1.287)
  rw [Real.mul_rpow (by norm_num) hp.le, ← Real.rpow_mul h0.le]
  have e2 : (0.8234 : ℝ) ^ (-0.777 : ℝ) = (1 / 0.8234) ^ (0.777 : ℝ) := by
    rw [one_div, Real.inv_rpow (by norm_num), ← Real.rpow_neg (by norm_num)]
  have l := lt_rpow_of_le (1 / 0.8234) 1.1615 0.777 31 40 (by norm_num) (by norm_num) (by norm_num) (by norm_num)
  have u := rpow_lt_of_le (1 / 0.8234) 1.1645 0.777 7 9 (by norm_num) (by norm_num) (by norm_num) (by norm_num) (by norm_num)
  rw [← e2] at l u
  have e3 : (-1.287 * -0.777 : ℝ) = 0.999999 := by norm_num
  rw [e3]
  have up : v ^ (0.999999 : ℝ) ≤ 1 + 0.999999 * (v - 1) := by
    have := _root_.rpow_one_add_le_one_add_mul_self (show -1 ≤ v - 1 by linarith) (show (0 : ℝ) ≤ 0.999999 by norm_num) (by norm_num)
    simpa using this
  have lo : v ≤ v ^ (0.999999 : ℝ) := by
    conv_lhs => rw [← Real.rpow_one v]
    exact Real.rpow_le_rpow_of_exponent_ge h0 (by linarith) (by norm_num)
  generalize v ^ (0.999999 : ℝ) = w at *
  generalize (0.8234 : ℝ) ^ (-0.777 : ℝ) = c at *
  rw [abs_le]
  constructor <;> nlinarith

/-- There and back on the thick side. -/
theorem back_thick (v : ℝ) (h0 : 0.9222 < v) (h1 : v ≤ 9.3222) :
    |1.1536 * (1.5501 * v ^ (-3.064 : ℝ)) ^ (-0.326 : ℝ) - v| ≤ 0.01 * (v + 0.6778) := by
  have hv : 0 < v := by linarith
  have hp := Real.rpow_pos_of_pos hv (-3.064)
  rw [Real.mul_rpow (by norm_num) hp.le, ← Real.rpow_mul hv.le]
  have e2 : (1.5501 : ℝ) ^ (-0.326 : ℝ) = ((1.5501 : ℝ) ^ (0.326 : ℝ))⁻¹ := Real.rpow_neg (by norm_num) _
  have u := rpow_lt_of_le 1.5501 1.1539 0.326 15 46 (by norm_num) (by norm_num) (by norm_num) (by norm_num) (by norm_num)
  have l := lt_rpow_of_le 1.5501 1.1533 0.326 14 43 (by norm_num) (by norm_num) (by norm_num) (by norm_num)
  have e3 : (-3.064 * -0.326 : ℝ) = 0.998864 := by norm_num
  rw [e3]
  have up : v ^ (0.998864 : ℝ) ≤ 1 + 0.998864 * (v - 1) := by
    have := _root_.rpow_one_add_le_one_add_mul_self (show -1 ≤ v - 1 by linarith) (show (0 : ℝ) ≤ 0.998864 by norm_num) (by norm_num)
    simpa using this
  have lo : v * (1 - 0.001136 * (v - 1)) ≤ v ^ (0.998864 : ℝ) := by
    have e : v ^ (0.998864 : ℝ) = v * v ^ (-0.001136 : ℝ) := by
      rw [← Real.rpow_one_add' hv.le (by norm_num)]
      norm_num
    rw [e]
    refine mul_le_mul_of_nonneg_left ?_ hv.le
    rw [Real.rpow_def_of_pos hv]
    have a1 := Real.add_one_le_exp (Real.log v * -0.001136)
    have a2 := Real.log_le_sub_one_of_pos hv
    nlinarith
  rw [e2]
  generalize v ^ (0.998864 : ℝ) = w at *
  generalize (1.5501 : ℝ) ^ (0.326 : ℝ) = c at *
  have hc : 0 < c := by linarith
  have hw : 0 ≤ w := by nlinarith
  have k1 : 1.1536 * (c⁻¹ * w) ≤ 1.0003 * w := by
    rw [← mul_assoc]
    refine mul_le_mul_of_nonneg_right ?_ hw
    rw [← div_eq_mul_inv, div_le_iff₀ hc]
    linarith
  have k2 : 0.9997 * w ≤ 1.1536 * (c⁻¹ * w) := by
    rw [← mul_assoc]
    refine mul_le_mul_of_nonneg_right ?_ hw
    rw [← div_eq_mul_inv, le_div_iff₀ hc]
    linarith
  rw [abs_le]
  constructor
  · nlinarith
  · nlinarith

/-- **C439, there and back.** The entrainment shape factor gives the shape factor back, to one percent. -/
theorem C439_back (h : ℝ) (h0 : 1.1 < h) (h1 : h ≤ 10) :
    ∃ x h', headH1 h = .val x ∧ headH x = some h' ∧ |h' - h| ≤ 0.01 * h := by
  rcases le_or_gt h 1.6 with h2 | h2
  · have ha := thin_above h h0 h2
    refine ⟨_, _, thin_eq h h0 h2, by unfold headH; rw [if_pos (by linarith)], ?_⟩
    have hb := back_thin (h - 1.1) (by linarith) (by linarith)
    rw [show (3.3 : ℝ) + 0.8234 * (h - 1.1) ^ (-1.287 : ℝ) - 3.3 = 0.8234 * (h - 1.1) ^ (-1.287 : ℝ) by ring]
    rw [show ∀ z : ℝ, 1.1 + z - h = z - (h - 1.1) by intro z; ring]
    linarith
  · have hb' := thick_below h h2
    have hp := Real.rpow_pos_of_pos (show (0 : ℝ) < h - 0.6778 by linarith) (-3.064)
    refine ⟨_, _, thick_eq h h2, by unfold headH; rw [if_neg (by linarith), if_neg (by linarith), if_neg (by intro h'; linarith)], ?_⟩
    have hb := back_thick (h - 0.6778) (by linarith) (by linarith)
    rw [show (3.3 : ℝ) + 1.5501 * (h - 0.6778) ^ (-3.064 : ℝ) - 3.3 = 1.5501 * (h - 0.6778) ^ (-3.064 : ℝ) by ring]
    rw [show ∀ z : ℝ, 0.6778 + z - h = z - (h - 0.6778) by intro z; ring]
    linarith

/-- A laminar layer of the shape factor 2.6. -/
example : ∃ x h', headH1 2.6 = .val x ∧ headH x = some h' ∧ |h' - 2.6| ≤ 0.01 * 2.6 := C439_back 2.6 (by norm_num) (by norm_num)

end Verif.Airfoil
