import Mathlib.Data.Real.Basic
import Mathlib.Tactic.Linarith
import Mathlib.Tactic.FieldSimp
import Mathlib.Tactic.Ring
import Mathlib.Tactic.NormNum
import Mathlib.Tactic.Positivity
import Mathlib.Analysis.Convex.Function

/-!
`np.interp` on a table with increasing abscissae: the first value to the left of the table, the last
one to its right, a straight line between neighbours.
-/

namespace Verif.Num

/-- `np.interp(x, xp, fp)` for the list of pairs of `xp` and `fp`; an empty table raises an exception in
numpy and is given the value 0 here. -/
noncomputable def npInterp : List (ℝ × ℝ) → ℝ → ℝ
  | [], _ => 0
  | [p], _ => p.2
  | p :: q :: l, x =>
    if x ≤ p.1 then p.2
    else if x < q.1 then p.2 + (q.2 - p.2) / (q.1 - p.1) * (x - p.1)
    else npInterp (q :: l) x

/-- A table with increasing abscissae and values that do not fall. -/
def Rising (l : List (ℝ × ℝ)) : Prop := l.Pairwise fun p q => p.1 < q.1 ∧ p.2 ≤ q.2

theorem line_between {a b c d x : ℝ} (h : a < c) (hbd : b ≤ d) (h1 : a ≤ x) (h2 : x ≤ c) :
    b ≤ b + (d - b) / (c - a) * (x - a) ∧ b + (d - b) / (c - a) * (x - a) ≤ d := by
  have hp : 0 < c - a := by linarith
  have hk : 0 ≤ (d - b) / (c - a) := div_nonneg (by linarith) hp.le
  refine ⟨by nlinarith [mul_nonneg hk (sub_nonneg.2 h1)], ?_⟩
  have : (d - b) / (c - a) * (x - a) ≤ (d - b) / (c - a) * (c - a) := by
    apply mul_le_mul_of_nonneg_left _ hk; linarith
  rw [div_mul_cancel₀ _ hp.ne'] at this
  linarith

theorem npInterp_ge_head (p : ℝ × ℝ) (l : List (ℝ × ℝ)) (h : Rising (p :: l)) (x : ℝ) :
    p.2 ≤ npInterp (p :: l) x := by
  induction l generalizing p with
  | nil => simp [npInterp]
  | cons q l ih =>
    have hq := (List.pairwise_cons.1 h).1 q (by simp)
    simp only [npInterp]
    split_ifs with h1 h2
    · exact le_rfl
    · exact (line_between hq.1 hq.2 (not_le.1 h1).le h2.le).1
    · exact hq.2.trans (ih q (List.pairwise_cons.1 h).2)

theorem npInterp_mono (l : List (ℝ × ℝ)) (h : Rising l) : Monotone (npInterp l) := by
  intro x y hxy
  induction l with
  | nil => simp [npInterp]
  | cons p l ih =>
    cases l with
    | nil => simp [npInterp]
    | cons q l =>
      have hq := (List.pairwise_cons.1 h).1 q (by simp)
      have ht := (List.pairwise_cons.1 h).2
      by_cases h1 : x ≤ p.1
      · calc npInterp (p :: q :: l) x = p.2 := by simp [npInterp, h1]
          _ ≤ _ := npInterp_ge_head _ _ h _
      · have hy1 : ¬ y ≤ p.1 := by push Not at *; linarith
        by_cases h2 : x < q.1
        · by_cases h3 : y < q.1
          · simp only [npInterp, h1, h2, h3, hy1, if_true, if_false]
            have hk : 0 ≤ (q.2 - p.2) / (q.1 - p.1) :=
              div_nonneg (by linarith [hq.2]) (by linarith [hq.1])
            have := mul_le_mul_of_nonneg_left (sub_le_sub_right hxy p.1) hk
            linarith
          · simp only [npInterp, h1, h2, h3, hy1, if_true, if_false]
            exact (line_between hq.1 hq.2 (not_le.1 h1).le h2.le).2.trans (npInterp_ge_head _ _ ht _)
        · have h3 : ¬ y < q.1 := by push Not at *; linarith
          simp only [npInterp, h1, h2, h3, hy1, if_false]
          exact ih ht

/-- Every point of the table is reproduced; only the order of the abscissae is needed. -/
theorem npInterp_node (l : List (ℝ × ℝ)) (h : l.Pairwise fun p q => p.1 < q.1) (p : ℝ × ℝ) (hp : p ∈ l) :
    npInterp l p.1 = p.2 := by
  induction l with
  | nil => simp at hp
  | cons a l ih =>
    cases l with
    | nil => simp at hp; subst hp; simp [npInterp]
    | cons q l =>
      have ha := (List.pairwise_cons.1 h).1
      have ht := (List.pairwise_cons.1 h).2
      rcases List.mem_cons.1 hp with rfl | hp'
      · simp [npInterp]
      · have h1 : ¬ p.1 ≤ a.1 := not_le.2 (ha p hp')
        have h2 : ¬ p.1 < q.1 := by
          rcases List.mem_cons.1 hp' with rfl | hp''
          · exact lt_irrefl _
          · exact not_lt.2 ((List.pairwise_cons.1 ht).1 p hp'').le
        simp only [npInterp, h1, h2, if_false]
        exact ih ht hp'

theorem npInterp_le_last (l : List (ℝ × ℝ)) (h : Rising l) (b x : ℝ) (hb : ∀ p ∈ l, p.2 ≤ b) (hl : l ≠ []) :
    npInterp l x ≤ b := by
  induction l with
  | nil => exact absurd rfl hl
  | cons p l ih =>
    cases l with
    | nil => simpa [npInterp] using hb p (by simp)
    | cons q l =>
      have hq := (List.pairwise_cons.1 h).1 q (by simp)
      simp only [npInterp]
      split_ifs with h1 h2
      · exact hb p (by simp)
      · exact (line_between hq.1 hq.2 (not_le.1 h1).le h2.le).2.trans (hb q (by simp))
      · exact ih (List.pairwise_cons.1 h).2 (fun r hr => hb r (List.mem_cons_of_mem _ hr)) (by simp)

/-- Reading a convex function backwards from a table errs to the left: the function at the place read off
does not exceed the value asked for. -/
theorem npInterp_inverse_convex (f : ℝ → ℝ) (s : Set ℝ) (hf : ConvexOn ℝ s f) (ws : List ℝ)
    (hs : ∀ w ∈ ws, w ∈ s) (hinc : (ws.map fun w => (f w, w)).Pairwise fun p q => p.1 < q.1)
    (y w0 : ℝ) (l : List ℝ) (hws : ws = w0 :: l) (hy : f w0 ≤ y) :
    f (npInterp (ws.map fun w => (f w, w)) y) ≤ y := by
  induction l generalizing ws w0 with
  | nil => subst hws; simpa [npInterp] using hy
  | cons w1 l ih =>
    subst hws
    have hlt : f w0 < f w1 := (List.pairwise_cons.1 hinc).1 (f w1, w1) (by simp)
    simp only [List.map_cons, npInterp]
    split_ifs with h1 h2
    · exact hy
    · have hd : 0 < f w1 - f w0 := by linarith
      obtain ⟨t, ht⟩ : ∃ t, t = (y - f w0) / (f w1 - f w0) := ⟨_, rfl⟩
      have ht0 : 0 ≤ t := by rw [ht]; exact div_nonneg (by linarith) hd.le
      have ht1 : t ≤ 1 := by rw [ht, div_le_one hd]; linarith
      have he : w0 + (w1 - w0) / (f w1 - f w0) * (y - f w0) = (1 - t) • w0 + t • w1 := by
        simp only [smul_eq_mul, ht]; field_simp; ring
      have hc := hf.2 (hs w0 (by simp)) (hs w1 (by simp)) (by linarith : (0:ℝ) ≤ 1 - t) ht0 (by ring)
      rw [he]
      refine hc.trans (le_of_eq ?_)
      have : t * (f w1 - f w0) = y - f w0 := by rw [ht]; field_simp
      simp only [smul_eq_mul]; linarith
    · exact ih (w1 :: l) (fun w hw => hs w (List.mem_cons_of_mem _ hw)) (List.pairwise_cons.1 hinc).2 w1 rfl (not_lt.1 h2)

end Verif.Num
