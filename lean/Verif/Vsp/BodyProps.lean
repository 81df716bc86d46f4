import Verif.Vsp.Body
import Verif.Vsp.WingProps
import Mathlib.Analysis.SpecialFunctions.Trigonometric.Bounds

/-!
Properties of the OpenVSP interface for fuselages, nacelles and propellers (C319 to C324).
-/

namespace Verif.Vsp

open Real
open scoped Classical

/-! ### C319: heights and lengths read for a fuselage -/

/-- Some two successive sections bracket the location. -/
def Brackets (l : List FSec) (loc : ℝ) (p q : FSec) : Prop :=
  [p, q] <:+: l ∧ p.x < loc ∧ loc ≤ q.x

/-- **C319**: between the first and the last section the height is that on the straight line between two
successive sections around the location; elsewhere reading fails. -/
theorem C319_height (l : List FSec) (loc : ℝ) :
    (∀ h, fuseHeight l loc = some h → ∃ p q, Brackets l loc p q ∧
      (h - p.height) * (q.x - p.x) = (q.height - p.height) * (loc - p.x) ∧
      min p.height q.height ≤ h ∧ h ≤ max p.height q.height) ∧
    (fuseHeight l loc = none ↔ ¬ ∃ p q, Brackets l loc p q) := by
  induction l with
  | nil =>
    simp only [fuseHeight]
    refine ⟨by simp, by simp [Brackets]⟩
  | cons p rest ih =>
    cases rest with
    | nil =>
      simp only [fuseHeight]
      refine ⟨by simp, ?_⟩
      simp only [true_iff]
      rintro ⟨a, b, h, -⟩
      have := h.length_le
      simp at this
    | cons q rest =>
      rw [fuseHeight]
      split_ifs with hb
      · obtain ⟨h1, h2⟩ := hb
        have hpos : 0 < q.x - p.x := by linarith
        have hB : Brackets (p :: q :: rest) loc p q := ⟨⟨[], rest, rfl⟩, h2, h1⟩
        refine ⟨?_, by simp only [false_iff, not_not]; exact ⟨p, q, hB⟩⟩
        intro h hh
        have hh : (loc - p.x) * ((q.height - p.height) / (q.x - p.x)) + p.height = h := by
          simpa using hh
        refine ⟨p, q, hB, ?_, ?_⟩
        · rw [← hh]; field_simp; ring
        · set f := (loc - p.x) / (q.x - p.x) with hf
          have hf0 : 0 ≤ f := div_nonneg (by linarith) hpos.le
          have hf1 : f ≤ 1 := (div_le_one hpos).mpr (by linarith)
          have e : h = p.height + f * (q.height - p.height) := by rw [← hh, hf]; ring
          rcases le_total p.height q.height with hl | hl
          · rw [min_eq_left hl, max_eq_right hl]; constructor <;> nlinarith
          · rw [min_eq_right hl, max_eq_left hl]; constructor <;> nlinarith
      · have key : ∀ a b : FSec, Brackets (q :: rest) loc a b ↔ Brackets (p :: q :: rest) loc a b := by
          intro a b
          constructor
          · rintro ⟨h, h1, h2⟩
            exact ⟨h.trans (List.infix_cons (List.infix_refl _)), h1, h2⟩
          · rintro ⟨h, h1, h2⟩
            refine ⟨?_, h1, h2⟩
            rcases List.infix_cons_iff.mp h with h | h
            · exfalso
              have h3 := List.cons_prefix_cons.mp h
              obtain ⟨rfl, h4⟩ := h3
              obtain ⟨rfl, -⟩ := List.cons_prefix_cons.mp h4
              exact hb ⟨h2, h1⟩
            · exact h
        simpa only [key] using ih

/-- **C319**: with an OpenVSP model in metres, the lengths of the segments of a fuselage that starts at 0
and ends at 1 add up to its length. -/
theorem C319_lengths_partial (length : ℝ) (x : ℕ → ℝ) (n : ℕ) (hn : 0 < n) (h0 : x 0 = 0)
    (h1 : x (n - 1) = 1) : ∑ i ∈ Finset.range n, segLength 1 length x n i = length * 1 := by
  obtain ⟨m, rfl⟩ := Nat.exists_eq_succ_of_ne_zero hn.ne'
  rw [Finset.sum_range_succ]
  have : ∀ i ∈ Finset.range m, segLength 1 length x (m + 1) i = length * x (i + 1) - length * x i := by
    intro i hi
    rw [Finset.mem_range] at hi
    unfold segLength
    rw [if_pos (by omega)]; ring
  have hl : segLength 1 length x (m + 1) m = 0 := by
    unfold segLength
    rw [if_neg (by simp)]
  simp only [Nat.succ_eq_add_one] at *
  rw [Finset.sum_congr rfl this, Finset.sum_range_sub (fun i => length * x i), hl, h0]
  simp only [Nat.add_sub_cancel] at h1
  rw [h1]; ring

/-- **C319**, refuted for other units: with the model in feet the segment lengths are converted twice and
add up to 0.3048 times the length read. -/
theorem C319_lengths_counterexample (length : ℝ) (x : ℕ → ℝ) (n : ℕ) (hn : 0 < n) (h0 : x 0 = 0)
    (h1 : x (n - 1) = 1) : ∑ i ∈ Finset.range n, segLength 0.3048 length x n i =
      0.3048 * (length * 0.3048) := by
  have := C319_lengths_partial length x n hn h0 h1
  have e : ∀ i, segLength 0.3048 length x n i = 0.3048 ^ 2 * segLength 1 length x n i := by
    intro i; unfold segLength; split_ifs <;> ring
  simp only [e]
  rw [← Finset.mul_sum, this]; ring

/-- Four sections; the height at a quarter of the length. -/
example : fuseHeight [⟨0, 0⟩, ⟨0.2, 3⟩, ⟨0.6, 4⟩, ⟨1, 0⟩] 0.25 = some 3.125 := by
  norm_num [fuseHeight]

/-! ### C320: section angles -/

/-- **C320**: the written angle is zero exactly for a level line and has the sign of the slope, for slopes
below `π/2`. -/
theorem C320_sign_partial (rise run : ℝ) (h1 : -(π / 2) < rise / run) (h2 : rise / run < π / 2) :
    (sectionAngle rise run = 0 ↔ rise / run = 0) ∧ (0 < sectionAngle rise run ↔ 0 < rise / run) := by
  have hu := unitDeg_pos
  have key : 0 < sectionAngle rise run ↔ 0 < rise / run := by
    unfold sectionAngle
    constructor
    · intro h
      by_contra hcon
      push Not at hcon
      have := tan_nonpos_of_nonpos_of_neg_pi_div_two_le hcon h1.le
      have : tan (rise / run) / unitDeg ≤ 0 := div_nonpos_of_nonpos_of_nonneg this hu.le
      linarith
    · intro h
      exact div_pos (tan_pos_of_pos_of_lt_pi_div_two h h2) hu
  refine ⟨?_, key⟩
  constructor
  · intro h
    by_contra hcon
    rcases lt_or_gt_of_ne hcon with hn | hp
    · have := tan_neg_of_neg_of_pi_div_two_lt hn h1
      unfold sectionAngle at h
      have : tan (rise / run) / unitDeg < 0 := div_neg_of_neg_of_pos this hu
      linarith
    · exact absurd (key.mpr hp) (by rw [h]; simp)
  · intro h; unfold sectionAngle; rw [h]; simp

/-- **C320**: the angle at the top is zero exactly where the upper edges of the two sections are equally high, and positive exactly where the upper edge rises
aft, below slopes of `π/2`. -/
theorem C320_top_partial (length x0 z0 h0 x2 z2 h2 : ℝ) (hx : 0 < (x2 - x0) * length)
    (hs : |(z2 * length + h2 / 2) - (z0 * length + h0 / 2)| < π / 2 * ((x2 - x0) * length)) :
    (topAngle length x0 z0 h0 x2 z2 h2 = 0 ↔ z2 * length + h2 / 2 = z0 * length + h0 / 2) ∧
      (0 < topAngle length x0 z0 h0 x2 z2 h2 ↔ z0 * length + h0 / 2 < z2 * length + h2 / 2) := by
  have e1 : (h2 / 2 + z2 * length) - (h0 / 2 + z0 * length) = (z2 * length + h2 / 2) - (z0 * length + h0 / 2) := by ring
  have e2 : x2 * length - x0 * length = (x2 - x0) * length := by ring
  obtain ⟨ha, hb⟩ := abs_lt.1 hs
  unfold topAngle
  rw [e1, e2]
  obtain ⟨p1, p2⟩ := C320_sign_partial ((z2 * length + h2 / 2) - (z0 * length + h0 / 2)) ((x2 - x0) * length)
    (by rw [lt_div_iff₀ hx]; linarith) (by rw [div_lt_iff₀ hx]; linarith)
  rw [p1, p2]
  constructor
  · rw [div_eq_zero_iff, sub_eq_zero]
    constructor
    · rintro (h | h)
      · exact h
      · exact absurd h hx.ne'
    · exact Or.inl
  · rw [div_pos_iff_of_pos_right hx, sub_pos]

/-- A level top over a section that grows downwards. -/
example : topAngle 10 0.2 0 2 0.4 (-0.05) 3 = 0 := by
  refine (C320_top_partial 10 0.2 0 2 0.4 (-0.05) 3 (by norm_num) ?_).1.2 (by norm_num)
  have := pi_gt_three
  rw [show ((-0.05 : ℝ) * 10 + 3 / 2) - (0 * 10 + 2 / 2) = 0 by norm_num, abs_zero]
  positivity

/-- **C320**, refuted: the angle written for a rising line is larger than its angle to the axis. -/
theorem C320_counterexample (rise run : ℝ) (h0 : 0 < rise / run) (h1 : rise / run < π / 2) :
    arctan (rise / run) / unitDeg < sectionAngle rise run := by
  unfold sectionAngle
  rw [div_lt_div_iff_of_pos_right unitDeg_pos]
  have h2 : rise / run < tan (rise / run) := lt_tan h0 h1
  have h3 : arctan (rise / run) < rise / run := by
    rcases lt_or_ge (arctan (rise / run)) (rise / run) with h | h
    · exact h
    · exfalso
      have ha := arctan_lt_pi_div_two (rise / run)
      have hp : 0 < arctan (rise / run) := arctan_pos.mpr h0
      have := lt_tan hp ha
      rw [tan_arctan] at this
      linarith
  linarith

/-- A line that rises by 1 over 1: 45 degrees, written as more than 57. -/
example : (180 / π : ℝ) < sectionAngle 1 1 := by
  have h := lt_tan (x := (1 : ℝ)) one_pos (by have := pi_gt_three; linarith)
  unfold sectionAngle unitDeg
  rw [div_one, div_div_eq_mul_div]
  have := pi_pos
  rw [div_lt_div_iff_of_pos_right this]
  linarith

/-! ### C321: fuel tanks in a fuselage -/

theorem findU_spec (x : ℝ → ℝ) (t tol L : ℝ) (k : ℕ) : ∀ lo hi : ℝ, lo ≤ hi → 0 ≤ lo → hi ≤ 1 →
    (∀ u v, 0 ≤ u → u ≤ v → v ≤ 1 → |x v - x u| ≤ L * (v - u)) → x lo ≤ t → t ≤ x hi →
    L * (hi - lo) ≤ 2 ^ (k + 1) * tol →
    ∃ u, findU x t tol (k + 1) lo hi = some u ∧ lo ≤ u ∧ u ≤ hi ∧ |x u - t| ≤ tol := by
  induction k with
  | zero =>
    intro lo hi hle h0 h1 hL hlo hhi hk
    rw [zero_add, pow_one] at hk
    have hb : |t - x ((hi + lo) / 2)| ≤ tol := by
      have a := abs_le.mp (hL lo ((hi + lo) / 2) h0 (by linarith) (by linarith))
      have b := abs_le.mp (hL ((hi + lo) / 2) hi (by linarith) (by linarith) h1)
      have : L * ((hi + lo) / 2 - lo) ≤ tol := by nlinarith
      have : L * (hi - (hi + lo) / 2) ≤ tol := by nlinarith
      rw [abs_le]; constructor <;> linarith [a.1, a.2, b.1, b.2]
    refine ⟨(hi + lo) / 2, ?_, by linarith, by linarith, by rw [abs_sub_comm]; exact hb⟩
    simp only [findU]
    rw [if_pos hb]
  | succ k ih =>
    intro lo hi hle h0 h1 hL hlo hhi hk
    rw [findU]
    split_ifs with h2 h3
    · exact ⟨_, rfl, by linarith, by linarith, by rw [abs_sub_comm]; exact h2⟩
    · obtain ⟨u, hu1, hu2, hu3, hu4⟩ := ih ((hi + lo) / 2) hi (by linarith) (by linarith) h1 hL
        (by linarith) hhi (by rw [pow_succ] at hk; nlinarith)
      exact ⟨u, hu1, by linarith, hu3, hu4⟩
    · obtain ⟨u, hu1, hu2, hu3, hu4⟩ := ih lo ((hi + lo) / 2) (by linarith) h0 (by linarith) hL hlo
        (by linarith) (by rw [pow_succ] at hk; nlinarith)
      exact ⟨u, hu1, hu2, by linarith, hu4⟩

/-- **C321**: on a fuselage whose nose is at 0 and whose surface does not jump, the bisection ends and each
end of a tank is within a millimetre of the asked fraction of the length. -/
theorem C321_tank_partial (x : ℝ → ℝ) (L : ℝ)
    (hL : ∀ u v, 0 ≤ u → u ≤ v → v ≤ 1 → |x v - x u| ≤ L * (v - u)) (h0 : x 0 = 0) (h1 : 0 ≤ x 1)
    (p : ℝ) (hp0 : 0 ≤ p) (hp1 : p ≤ 1) :
    ∃ fuel u, tankU x p fuel = some u ∧ 0 ≤ u ∧ u ≤ 1 ∧ |x u - (x 0 + p * (x 1 - x 0))| ≤ 1 / 1000 := by
  obtain ⟨k, hk⟩ := pow_unbounded_of_one_lt (L * 1000) (one_lt_two (α := ℝ))
  obtain ⟨u, hu1, hu2, hu3, hu4⟩ := findU_spec x ((x 1 - x 0) * p) (1 / 1000) L k 0 1 zero_le_one le_rfl
    le_rfl hL (by rw [h0]; nlinarith) (by rw [h0]; nlinarith) (by rw [pow_succ]; have := pow_pos (two_pos (α := ℝ)) k; linarith)
  refine ⟨k + 1, u, hu1, hu2, hu3, ?_⟩
  rw [show x 0 + p * (x 1 - x 0) = (x 1 - x 0) * p by rw [h0]; ring]
  exact hu4

/-- The bisection never ends for a target in front of the nose. -/
theorem findU_diverges (x : ℝ → ℝ) (t tol : ℝ) (h : ∀ u, 0 ≤ u → u ≤ 1 → t + tol < x u) (ht : 0 ≤ tol)
    (fuel : ℕ) : ∀ lo hi : ℝ, 0 ≤ lo → lo ≤ hi → hi ≤ 1 → findU x t tol fuel lo hi = none := by
  induction fuel with
  | zero => intro lo hi _ _ _; rfl
  | succ k ih =>
    intro lo hi h0 hle h1
    have hm := h ((hi + lo) / 2) (by linarith) (by linarith)
    rw [findU]
    rw [if_neg, if_neg (by linarith)]
    · exact ih lo _ h0 (by linarith) (by linarith)
    · rw [not_le, abs_of_neg (by linarith)]; linarith

/-- **C321**, refuted: the target does not count from the nose: with the nose of a 20 m fuselage at 10 m,
placing the front of a tank at a quarter of the length does not end. -/
theorem C321_nose_counterexample (fuel : ℕ) : tankU (fun u => 10 + 20 * u) (1 / 4) fuel = none := by
  unfold tankU
  apply findU_diverges _ _ _ _ (by norm_num) fuel 0 1 le_rfl zero_le_one le_rfl
  intro u h0 _
  norm_num; linarith

/-- A cone of 20 m. -/
example : (∀ u v : ℝ, 0 ≤ u → u ≤ v → v ≤ 1 → |(20 * v) - (20 * u)| ≤ 20 * (v - u)) ∧
    (20 * (0 : ℝ)) = 0 := by
  refine ⟨?_, by norm_num⟩
  intro u v _ h _
  rw [← mul_sub, abs_of_nonneg (by nlinarith)]

/-! ### C322: fineness -/

theorem maskedMin_some (mask : ℕ → Prop) (g : ℕ → ℝ) (m k : ℕ) (hk : k < m) (hm : mask k) :
    ∃ v, maskedMin mask g m = some v ∧ (∃ j, j < m ∧ mask j ∧ g j = v) ∧
      ∀ j, j < m → mask j → v ≤ g j := by
  have hne : ((Finset.range m).filter fun k => mask k).Nonempty := ⟨k, by simp [hk, hm]⟩
  refine ⟨_, by unfold maskedMin; rw [dif_pos hne], ?_, ?_⟩
  · obtain ⟨j, hj, he⟩ := Finset.exists_mem_eq_inf' hne g
    simp only [Finset.mem_filter, Finset.mem_range] at hj
    exact ⟨j, hj.1, hj.2, he.symm⟩
  · intro j hj hmj
    exact Finset.inf'_le g (by simp [hj, hmj])

/-- **C322**: for sections from 0 to 1 in order, the nose and the tail are read, and neither is longer than
half of the fuselage. -/
theorem C322_halves (total : ℝ) (x len d : ℕ → ℝ) (m : ℕ) (hm : 0 < m) (ht : 0 ≤ total)
    (hx : ∀ i j, i ≤ j → j ≤ m → x i ≤ x j) (h0 : x 0 = 0) (h1 : x m = 1) :
    ∃ nose tail, noseLength total x len d m = some nose ∧ tailLength total x len d m = some tail ∧
      0 ≤ nose ∧ nose ≤ total / 2 ∧ 0 ≤ tail ∧ tail ≤ total / 2 := by
  obtain ⟨v, hv, ⟨j, hj1, hj2, hj3⟩, -⟩ := maskedMin_some (fun k => x k ≤ 1 / 2) (gradient len d) m 0 hm
    (by rw [h0]; norm_num)
  obtain ⟨w, hw, ⟨i, hi1, hi2, hi3⟩, -⟩ := maskedMin_some (fun k => 1 / 2 ≤ x (k + 1))
    (fun k => -gradient len d k) m (m - 1) (by omega)
    (by rw [show m - 1 + 1 = m by omega, h1]; norm_num)
  have hn : ∃ k, firstIdx (fun k => decide (gradient len d k = v)) m = some k ∧ k ≤ j := by
    cases hl : firstIdx (fun k => decide (gradient len d k = v)) m with
    | none =>
      rw [firstIdx_none] at hl
      exact absurd hj3 (by simpa using hl j hj1)
    | some k =>
      refine ⟨k, rfl, ?_⟩
      obtain ⟨-, -, h3⟩ := firstIdx_spec _ _ _ hl
      by_contra hcon
      exact absurd hj3 (by simpa using h3 j (by omega))
  have hl : ∃ k, lastIdx (fun k => decide (-gradient len d k = w)) m = some k ∧ i ≤ k ∧ k < m := by
    cases hl : lastIdx (fun k => decide (-gradient len d k = w)) m with
    | none =>
      rw [lastIdx_none] at hl
      exact absurd hi3 (by simpa using hl i hi1)
    | some k =>
      obtain ⟨h2, -, h3⟩ := lastIdx_spec _ _ _ hl
      refine ⟨k, rfl, ?_, h2⟩
      by_contra hcon
      exact absurd hi3 (by simpa using h3 i (by omega) hi1)
  obtain ⟨k, hk1, hk2⟩ := hn
  obtain ⟨l, hl1, hl2, hl3⟩ := hl
  have a1 := hx k j hk2 (by omega)
  have a2 := hx 0 k (by omega) (by omega)
  have b1 := hx (i + 1) (l + 1) (by omega) (by omega)
  have b2 := hx (l + 1) m (by omega) le_rfl
  rw [h0] at a2
  rw [h1] at b2
  refine ⟨(x k - x 0) * total, (1 - x (l + 1)) * total, ?_, ?_, ?_, ?_, ?_, ?_⟩
  · unfold noseLength; rw [hv]
    show (do let k ← firstIdx (fun k => decide (gradient len d k = v)) m; some ((x k - x 0) * total)) = _
    rw [hk1]; rfl
  · unfold tailLength; rw [hw]
    show (do let k ← lastIdx (fun k => decide (-gradient len d k = w)) m
             some ((1 - x (k + 1)) * total)) = _
    rw [hl1]; rfl
  · rw [h0]; nlinarith
  · rw [h0]; nlinarith
  · nlinarith
  · nlinarith

/-- **C322**: a body whose sections grow up to section `k` in its front half, then keep their size, and
nowhere shrink in the front half, has its nose end at section `k`. -/
theorem C322_nose (total : ℝ) (x len d : ℕ → ℝ) (m k : ℕ) (hk : k < m) (hxk : x k ≤ 1 / 2)
    (hlen : ∀ j, j < m → 0 < len j) (hgrow : ∀ j, j < k → d j < d (j + 1)) (hcon : d (k + 1) = d k)
    (hfront : ∀ j, j < m → x j ≤ 1 / 2 → d j ≤ d (j + 1)) :
    noseLength total x len d m = some ((x k - x 0) * total) := by
  obtain ⟨v, hv, ⟨j, hj1, hj2, hj3⟩, hmin⟩ := maskedMin_some (fun k => x k ≤ 1 / 2) (gradient len d) m k hk
    hxk
  have hg0 : gradient len d k = 0 := by unfold gradient; rw [hcon]; ring
  have hv0 : v = 0 := by
    apply le_antisymm
    · rw [← hg0]; exact hmin k hk hxk
    · rw [← hj3]; unfold gradient
      exact mul_nonneg (by linarith [hfront j hj1 hj2]) (hlen j hj1).le
  have hfi : firstIdx (fun k => decide (gradient len d k = v)) m = some k := by
    cases hl : firstIdx (fun k => decide (gradient len d k = v)) m with
    | none =>
      rw [firstIdx_none] at hl
      exact absurd (hg0.trans hv0.symm) (by simpa using hl k hk)
    | some i =>
      obtain ⟨h1, h2, h3⟩ := firstIdx_spec _ _ _ hl
      congr 1
      rcases lt_trichotomy i k with h | h | h
      · exfalso
        have h2 : gradient len d i = v := by simpa using h2
        have : 0 < gradient len d i := mul_pos (by linarith [hgrow i h]) (hlen i h1)
        linarith
      · exact h
      · exact absurd (hg0.trans hv0.symm) (by simpa using h3 k h)
  unfold noseLength
  rw [hv]
  show (do let k ← firstIdx (fun k => decide (gradient len d k = v)) m; some ((x k - x 0) * total)) = _
  rw [hfi]; rfl

/-- **C322**: a body that keeps its size up to section `k + 1` in its rear half, then shrinks, and nowhere
grows in the rear half, has its tail begin at section `k + 1`. -/
theorem C322_tail (total : ℝ) (x len d : ℕ → ℝ) (m k : ℕ) (hk : k < m) (hxk : 1 / 2 ≤ x (k + 1))
    (hlen : ∀ j, j < m → 0 < len j) (hshrink : ∀ j, k < j → j < m → d (j + 1) < d j)
    (hcon : d (k + 1) = d k) (hrear : ∀ j, j < m → 1 / 2 ≤ x (j + 1) → d (j + 1) ≤ d j) :
    tailLength total x len d m = some ((1 - x (k + 1)) * total) := by
  obtain ⟨v, hv, ⟨j, hj1, hj2, hj3⟩, hmin⟩ := maskedMin_some (fun k => 1 / 2 ≤ x (k + 1))
    (fun k => -gradient len d k) m k hk hxk
  have hg0 : -gradient len d k = 0 := by unfold gradient; rw [hcon]; ring
  have hv0 : v = 0 := by
    apply le_antisymm
    · rw [← hg0]; exact hmin k hk hxk
    · rw [← hj3]
      have : gradient len d j ≤ 0 := by
        unfold gradient
        exact mul_nonpos_of_nonpos_of_nonneg (by linarith [hrear j hj1 hj2]) (hlen j hj1).le
      linarith
  have hfi : lastIdx (fun k => decide (-gradient len d k = v)) m = some k := by
    cases hl : lastIdx (fun k => decide (-gradient len d k = v)) m with
    | none =>
      rw [lastIdx_none] at hl
      exact absurd (hg0.trans hv0.symm) (by simpa using hl k hk)
    | some i =>
      obtain ⟨h1, h2, h3⟩ := lastIdx_spec _ _ _ hl
      congr 1
      rcases lt_trichotomy i k with h | h | h
      · exact absurd (hg0.trans hv0.symm) (by simpa using h3 k h hk)
      · exact h
      · exfalso
        have h2 : -gradient len d i = v := by simpa using h2
        have : gradient len d i < 0 := by
          unfold gradient
          exact mul_neg_of_neg_of_pos (by linarith [hshrink i h h1]) (hlen i h1)
        linarith
  unfold tailLength
  rw [hv]
  show (do let k ← lastIdx (fun k => decide (-gradient len d k = v)) m
           some ((1 - x (k + 1)) * total)) = _
  rw [hfi]; rfl

/-- Sections at 0, 0.2, 0.7, 1 with diameters 0, 3, 3, 0. -/
example : ∃ x d : ℕ → ℝ, x 1 ≤ 1 / 2 ∧ (1 : ℝ) / 2 ≤ x (1 + 1) ∧ d (1 + 1) = d 1 ∧
    (∀ j, j < 1 → d j < d (j + 1)) ∧ (∀ j, 1 < j → j < 3 → d (j + 1) < d j) := by
  refine ⟨fun i => if i = 0 then 0 else if i = 1 then 0.2 else if i = 2 then 0.7 else 1,
    fun i => if i = 1 ∨ i = 2 then 3 else 0, by norm_num, by norm_num, by norm_num, ?_, ?_⟩
  · intro j hj
    obtain rfl : j = 0 := by omega
    norm_num
  · intro j h1 h2
    obtain rfl : j = 2 := by omega
    norm_num

/-! ### C323: nacelles -/

/-- **C323**: a flow through nacelle without segments or airfoil, written and read back in metres, has its
diameters and length. -/
theorem C323_flow_partial (da : ℝ) (n : Nac) (hf : n.flow = true) :
    let r := readNac 1 (writeNac da n)
    r.diameter = n.diameter ∧ r.inlet = n.inlet ∧ r.length = n.length ∧ r.flow = true := by
  simp only [readNac, writeNac, hf, if_true, decide_true]
  refine ⟨by ring, by ring, by ring, trivial⟩

/-- **C323**, refuted: a closed nacelle keeps its diameter only if its inlet has three fifths of it. -/
theorem C323_closed_counterexample (da : ℝ) (n : Nac) (hf : n.flow = false) :
    ((readNac 1 (writeNac da n)).diameter = n.diameter ↔ n.inlet = 3 / 5 * n.diameter) := by
  have h10 : decide ((1 : ℝ) = 0) = false := by simp
  simp only [readNac, writeNac, hf, Bool.false_eq_true, if_false, h10]
  constructor <;> intro h <;> linarith

/-- **C323**, refuted: the cowling angle read back is the diameter, whatever was written. -/
theorem C323_angle_counterexample (units : ℝ) (b : Bor) :
    (readNac units b).angle = b.diameter * unitDeg ∧
      ∃ b' : Bor, b'.angle ≠ b.angle ∧ (readNac units b').angle = (readNac units b).angle :=
  ⟨rfl, { b with angle := b.angle + 1 }, by simp, rfl⟩

theorem pyRound_nat (k : ℕ) : pyRound (k : ℝ) = k := by
  unfold pyRound
  rw [if_neg (by simp)]
  simp

/-- **C323**, refuted: a 2412 cowling comes back as `241`, a 0012 as `001`. -/
theorem C323_airfoil_counterexample : nacaName 2 4 12 = "241" ∧ nacaName 0 0 12 = "001" := by
  have h12 : pyRound ((12 : ℕ) / 100 * 10 : ℝ) = 1 := by
    have hfl : ⌊((12 : ℕ) / 100 * 10 : ℝ)⌋ = 1 := by rw [Int.floor_eq_iff]; norm_num
    unfold pyRound
    rw [if_neg]
    · rw [round_eq, Int.floor_eq_iff]; norm_num
    · rw [Int.fract, hfl]; norm_num
  have hc : ∀ k : ℕ, pyRound ((k : ℝ) / 100 * 100) = k := by
    intro k; rw [div_mul_cancel₀ _ (by norm_num)]; exact pyRound_nat k
  have hl : ∀ k : ℕ, pyRound ((k : ℝ) / 10 * 10) = k := by
    intro k; rw [div_mul_cancel₀ _ (by norm_num)]; exact pyRound_nat k
  constructor
  · unfold nacaName; rw [h12, hc, hl]; rfl
  · unfold nacaName; rw [h12, hc, hl]; rfl

/-- **C323**, refuted: cowlings of 15 and of 25 percent come back under the same name, halves being rounded to even. -/
theorem C323_half_counterexample (c l : ℕ) : nacaName c l 15 = nacaName c l 25 := by
  have h15 : pyRound ((15 : ℕ) / 100 * 10 : ℝ) = 2 := by
    have hfl : ⌊((15 : ℕ) / 100 * 10 : ℝ)⌋ = 1 := by rw [Int.floor_eq_iff]; norm_num
    unfold pyRound
    rw [if_pos (by rw [Int.fract, hfl]; norm_num), hfl, if_neg (by decide)]
    rfl
  have h25 : pyRound ((25 : ℕ) / 100 * 10 : ℝ) = 2 := by
    have hfl : ⌊((25 : ℕ) / 100 * 10 : ℝ)⌋ = 2 := by rw [Int.floor_eq_iff]; norm_num
    unfold pyRound
    rw [if_pos (by rw [Int.fract, hfl]; norm_num), hfl, if_pos (by decide)]
  unfold nacaName
  rw [h15, h25]

/-- **C323**: the segments of a nacelle that start at 0 and end at 1 come back where they were. -/
theorem C323_stack (length : ℝ) (px : ℕ → ℝ) (n i : ℕ) (hl : length ≠ 0) (hi : i < n) (h0 : px 0 = 0)
    (h1 : px (n - 1) = 1) : stackX length 0 px n i = px i := by
  have key : ∀ j : ℕ, ∑ k ∈ Finset.range (j + 1),
      (if k = 0 then (0 : ℝ) else length * (px k - px (k - 1))) = length * px j := by
    intro j
    induction j with
    | zero => simp [h0]
    | succ j ih =>
      rw [Finset.sum_range_succ, ih, if_neg (by omega)]
      simp only [Nat.add_sub_cancel]; ring
  unfold stackX
  obtain ⟨m, rfl⟩ := Nat.exists_eq_succ_of_ne_zero (show n ≠ 0 by omega)
  simp only [Nat.succ_eq_add_one, Nat.add_sub_cancel] at *
  rw [key, key, h1]; field_simp

/-- **C323**, refuted: a stack of circles of diameter `d` is read as a nacelle of diameter `√2 d`. -/
theorem C323_diameter_counterexample (d : ℝ) (hd : 0 < d) (n : ℕ) :
    stackDiameter (List.replicate (n + 1) (d, d)) = √2 * d := by
  have e : √(d ^ 2 + d ^ 2) = √2 * d := by
    rw [show d ^ 2 + d ^ 2 = 2 * d ^ 2 by ring, sqrt_mul (by norm_num), sqrt_sq hd.le]
  have hp : 0 ≤ √2 * d := by positivity
  have key : ∀ k : ℕ, (List.replicate k (d, d)).foldl (fun d s => max (√(s.1 ^ 2 + s.2 ^ 2)) d)
      (√2 * d) = √2 * d := by
    intro k
    induction k with
    | zero => rfl
    | succ k ih => rw [List.replicate_succ, List.foldl_cons]; simp only; rw [e, max_self, ih]
  unfold stackDiameter
  rw [List.replicate_succ, List.foldl_cons]
  simp only
  rw [e, max_eq_left hp]
  exact key n

/-- A nacelle of 2 m with an inlet of 1.5 m; three segments at 0, 0.4 and 1. -/
example : (⟨2, 1.5, 3, true, 0⟩ : Nac).flow = true ∧
    ∃ px : ℕ → ℝ, px 0 = 0 ∧ px 1 = 0.4 ∧ px (3 - 1) = 1 :=
  ⟨rfl, fun i => if i = 0 then 0 else if i = 1 then 0.4 else 1, by norm_num, by norm_num, by norm_num⟩

/-! ### C324: propellers -/

/-- **C324**: a blade station written and read back in metres has its chord, twist and thickness over
chord, and its radius unless it is the last, which is put at 99 % of the tip radius. -/
theorem C324_station_partial (tip : ℝ) (ht : 0 < tip) (s : Station) (last : Bool) :
    let r := readRow 1 (2 * tip) last (writeRow tip s)
    r.chord = s.chord ∧ r.twist = s.twist ∧ r.tc = s.tc ∧ r.thickness = s.tc * s.chord ∧
      (last = false → r.radius = s.radius) ∧ (last = true → r.radius = 0.99 * tip) := by
  have hu := unitDeg_pos.ne'
  simp only [readRow, writeRow]
  refine ⟨by field_simp, by field_simp, trivial, by field_simp, ?_, ?_⟩
  · intro h; rw [h]; simp; field_simp
  · intro h; rw [h]; simp

/-- **C324**, refuted: the sweep is written in radians and read in degrees: the mid chord of a swept blade
comes back with less than its offset. -/
theorem C324_sweep_counterexample (tip : ℝ) (ht : 0 < tip) (s : Station) (hr : 0 < s.radius)
    (hm : 0 < s.mca) : (readRow 1 (2 * tip) false (writeRow tip s)).mca < s.mca := by
  have hu := unitDeg_pos
  have hu1 : unitDeg < 1 := by
    unfold unitDeg
    have := pi_lt_four
    rw [div_lt_one (by norm_num)]; linarith
  have hrad : s.radius / tip * (2 * tip / 2 * 1) = s.radius := by field_simp
  simp only [readRow, writeRow, Bool.false_eq_true, if_false]
  rw [hrad]
  have ha : 0 < arctan (s.mca / s.radius) := arctan_pos.mpr (div_pos hm hr)
  have hb := arctan_lt_pi_div_two (s.mca / s.radius)
  have hlt : tan (arctan (s.mca / s.radius) * unitDeg) < s.mca / s.radius := by
    have := tan_lt_tan_of_nonneg_of_lt_pi_div_two (x := arctan (s.mca / s.radius) * unitDeg)
      (y := arctan (s.mca / s.radius)) (by positivity) hb (by nlinarith)
    rwa [tan_arctan] at this
  calc tan (arctan (s.mca / s.radius) * unitDeg) * s.radius < s.mca / s.radius * s.radius :=
        mul_lt_mul_of_pos_right hlt hr
    _ = s.mca := by field_simp

/-- **C324**, refuted for other units: with the model in feet the thickness read is less than the chord
times the thickness over chord read beside it. -/
theorem C324_units_counterexample (diameter : ℝ) (last : Bool) (b : BemRow) (hd : 0 < diameter)
    (hc : 0 < b.c) (ht : 0 < b.tc) :
    let r := readRow 0.3048 diameter last b
    r.thickness < r.tc * r.chord := by
  simp only [readRow]
  have : 0 < b.tc * (b.c * (diameter / 2 * 0.3048)) := by positivity
  linarith

/-- A station at 0.5 m of a blade of 1 m. -/
example : (0 : ℝ) < 1 ∧ (0 : ℝ) < (⟨0.5, 0.1, 0.4, 0.05, 0.12, 0.012⟩ : Station).radius ∧
    (0 : ℝ) < (⟨0.5, 0.1, 0.4, 0.05, 0.12, 0.012⟩ : Station).mca := by norm_num

end Verif.Vsp
