import Verif.Airfoil.Surfaces
import Mathlib.Data.List.Basic
import Mathlib.Tactic.Linarith
import Mathlib.Tactic.NormNum
import Mathlib.Tactic.IntervalCases
/-
Property C440: every panel of a section gets its own boundary layer.
-/

namespace Verif.Airfoil

/-- The numbers below `n` on which a predicate true from `m` on holds. -/
theorem filter_from (n m : ℕ) (hm : m ≤ n) (p : ℕ → Bool) (hp : ∀ i < n, p i = decide (m ≤ i)) :
    (List.range n).filter p = List.range' m (n - m) ∧ ((List.range n).filter fun i => !p i) = List.range m := by
  obtain ⟨k, rfl⟩ : ∃ k, n = m + k := ⟨n - m, by omega⟩
  have h0 : List.range (m + k) = List.range m ++ List.range' m k := by
    rw [List.range_eq_range', List.range_eq_range', ← List.range'_append_1]
    simp
  have h1 : (List.range m).filter p = [] := by
    rw [List.filter_eq_nil_iff]
    intro a ha
    have := List.mem_range.1 ha
    rw [hp a (by omega)]
    simp; omega
  have h2 : (List.range' m k).filter p = List.range' m k := by
    rw [List.filter_eq_self]
    intro a ha
    have := List.mem_range'_1.1 ha
    rw [hp a (by omega)]
    simp; omega
  have h3 : ((List.range m).filter fun i => !p i) = List.range m := by
    rw [List.filter_eq_self]
    intro a ha
    have := List.mem_range.1 ha
    rw [hp a (by omega)]
    simp; omega
  have h4 : ((List.range' m k).filter fun i => !p i) = [] := by
    rw [List.filter_eq_nil_iff]
    intro a ha
    have := List.mem_range'_1.1 ha
    rw [hp a (by omega)]
    simp; omega
  rw [h0, List.filter_append, List.filter_append, h1, h2, h3, h4]
  simp

/-- **C440, one surface.** Where the criterion is met from some panel on, or nowhere, every panel has its own value: the laminar one before, the turbulent
one from there on. -/
theorem C440_parts_partial {α : Type} (n m : ℕ) (hm : m ≤ n) (met : ℕ → Bool) (lam turb : ℕ → α) (hmet : ∀ i < n, met i = decide (m ≤ i)) :
    joinParts n met lam turb = (List.range n).map fun i => if i < m then lam i else turb i := by
  obtain ⟨h1, h2⟩ := filter_from n m hm met hmet
  unfold joinParts
  rw [h1, h2]
  obtain ⟨k, rfl⟩ : ∃ k, n = m + k := ⟨n - m, by omega⟩
  have h0 : List.range (m + k) = List.range m ++ List.range' m k := by
    rw [List.range_eq_range', List.range_eq_range', ← List.range'_append_1]
    simp
  rw [h0, List.map_append]
  congr 1
  · refine List.map_congr_left fun a ha => ?_
    rw [if_pos (List.mem_range.1 ha)]
  · rw [Nat.add_sub_cancel_left]
    refine List.map_congr_left fun a ha => ?_
    have := List.mem_range'_1.1 ha
    rw [if_neg (by omega)]

/-- **C440, refuted on a surface that turns laminar again.** The last panel, laminar, is recorded on the second, and the turbulent value of the second on
the last. -/
theorem C440_again_counterexample : joinParts 3 (fun i => i == 1) (fun i => (i, "laminar")) (fun i => (i, "turbulent")) =
    [(0, "laminar"), (2, "laminar"), (1, "turbulent")] := by
  simp [joinParts, List.range_succ]

/-- **C440, arc length.** Behind the transition panel the arc length is the one of the panel. -/
theorem C440_arc (x : ℕ → ℝ) (hx : Monotone x) (k j : ℕ) (h : k ≤ j) : turbulentX x k j = x j := by
  unfold turbulentX
  have := hx h
  rw [if_neg (by linarith)]
  ring

/-- The panels that count when the first `s` are left out. -/
theorem counted_from (n s : ℕ) (hs : 0 < s) (hn : s < n) (raw : ℕ → Prop) (hraw : ∀ i < n, raw i ↔ i < s) (j : ℕ) (hj : j < n) :
    counted n raw j = decide (s ≤ j) := by
  classical
  have hmask : ∀ i < n, (decide (raw i) || (decide (0 < i) && decide (raw (i - 1)))) = decide (i < s + 1) := by
    intro i hi
    have a := hraw i hi
    have b := hraw (i - 1) (by omega)
    by_cases h1 : i < s
    · simp [a.2 h1, show i < s + 1 by omega]
    · have h2 : ¬ raw i := fun h => h1 (a.1 h)
      by_cases h3 : i = s
      · have h4 : raw (i - 1) := b.2 (by omega)
        have h6 : 0 < i := by omega
        simp [h4, show i < s + 1 by omega]
        omega
      · have h5 : ¬ raw (i - 1) := fun h => by have := b.1 h; omega
        simp [h2, h5, show ¬ i < s + 1 by omega]
  have hcount : ((List.range n).filter fun i => (decide (raw i) || (decide (0 < i) && decide (raw (i - 1))))).length = s + 1 := by
    have e : ((List.range n).filter fun i => (decide (raw i) || (decide (0 < i) && decide (raw (i - 1))))) =
        (List.range n).filter fun i => !(decide (s + 1 ≤ i)) := by
      refine List.filter_congr fun i hi => ?_
      rw [hmask i (List.mem_range.1 hi)]
      by_cases h : i < s + 1
      · simp [h, show ¬ s + 1 ≤ i by omega]
      · simp [h, show s + 1 ≤ i by omega]
    rw [e, (filter_from n (s + 1) (by omega) (fun i => decide (s + 1 ≤ i)) (fun _ _ => rfl)).2, List.length_range]
  unfold counted
  simp only
  have hc : ((List.range n).filter fun i => (decide (raw i) || (decide (0 < i) && decide (raw (i - 1))))).length - 1 = s := by omega
  by_cases h : j = s
  · rw [if_pos (by rw [h]; exact hc.symm)]
    simp [h]
  · rw [if_neg (fun h' => h (h'.trans hc)), hmask j hj]
    by_cases h2 : j < s + 1
    · simp [h2, show ¬ s ≤ j by omega]
    · simp [h2, show s ≤ j by omega]

/-- What is left of a list when the first `s` places are left out. -/
theorem kept_drop {α : Type} (l : List α) (s k : ℕ) (p : ℕ → Bool) (hp : ∀ j, k ≤ j → j < k + l.length → p j = decide (s + k ≤ j)) :
    ((l.zipIdx k).filter fun q => p q.2).map Prod.fst = l.drop s := by
  induction l generalizing s k with
  | nil => simp
  | cons a l ih =>
    have h0 := hp k le_rfl (by simp)
    rw [List.zipIdx_cons, List.filter_cons]
    rcases s with _ | s
    · have e : p k = true := by rw [h0]; simp
      simp only [e, if_true, List.map_cons, List.drop_zero]
      rw [ih 0 (k + 1) (fun j h1 h2 => by
        rw [hp j (by omega) (by simp only [List.length_cons]; omega)]
        simp; omega)]
      simp
    · have e : p k = false := by rw [h0]; simp
      simp only [e, Bool.false_eq_true, if_false, List.drop_succ_cons]
      exact ih s (k + 1) (fun j h1 h2 => by
        rw [hp j (by omega) (by simp only [List.length_cons]; omega)]
        simp; omega)

/-- **C440, both surfaces.** On a section with the air going forward below and aft above the stagnation point, and standing still on no panel, every panel of
the section gets the value of its own place on its own surface. -/
theorem C440_surfaces_partial {α : Type} (n s : ℕ) (hs : 0 < s) (hn : s < n) (vt : ℕ → ℝ) (hlow : ∀ i < s, vt i < 0) (hup : ∀ i, s ≤ i → i < n → 0 < vt i)
    (bot top : ℕ → α) :
    joinSurfaces n vt ((List.range n).map bot) ((List.range n).map top) =
      some ((List.range n).map fun i => if i < s then bot (n - 1 - i) else top i) := by
  have hl : ∀ j < n, counted n (lowerRaw n vt) j = decide (n - s ≤ j) := by
    refine fun j hj => counted_from n (n - s) (by omega) (by omega) _ (fun i hi => ?_) j hj
    unfold lowerRaw
    constructor
    · intro h
      by_contra hc
      have := hlow (n - 1 - i) (by omega)
      linarith
    · intro h
      exact hup _ (by omega) (by omega)
  have hu : ∀ j < n, counted n (upperRaw vt) j = decide (s ≤ j) := by
    refine fun j hj => counted_from n s hs hn _ (fun i hi => ?_) j hj
    unfold upperRaw
    constructor
    · intro h
      by_contra hc
      have := hup i (by omega) hi
      linarith
    · exact hlow i
  have e1 := kept_drop ((List.range n).map bot) (n - s) 0 (counted n (lowerRaw n vt)) (fun j _ h2 => by
    rw [hl j (by simpa using h2)]; simp)
  have e2 := kept_drop ((List.range n).map top) s 0 (counted n (upperRaw vt)) (fun j _ h2 => by
    rw [hu j (by simpa using h2)]; simp)
  unfold joinSurfaces
  simp only [e1, e2]
  have key : (((List.range n).map bot).drop (n - s)).reverse ++ ((List.range n).map top).drop s =
      (List.range n).map fun i => if i < s then bot (n - 1 - i) else top i := by
    refine List.ext_getElem (by simp) fun i h1 h2 => ?_
    have hi : i < n := by simpa using h2
    by_cases h : i < s
    · rw [List.getElem_append_left (by simp; omega)]
      simp only [List.getElem_reverse, List.getElem_drop, List.getElem_map, List.getElem_range, List.length_drop, List.length_map, List.length_range, h, if_true]
      congr 1
      omega
    · rw [List.getElem_append_right (by simp; omega)]
      simp only [List.getElem_drop, List.getElem_map, List.getElem_range, List.length_drop, List.length_map, List.length_range, List.length_reverse, h, if_false]
      congr 1
      omega
  rw [key, if_pos (by simp)]

/-- **C440, refuted with a panel where the air stands still.** It is on both surfaces and the analysis fails. -/
theorem C440_still_counterexample : joinSurfaces 3 (fun i => (i : ℝ) - 1) [0, 1, 2] [0, 1, 2] = none := by
  have h1 : ∀ j < 3, counted 3 (lowerRaw 3 fun i => (i : ℝ) - 1) j = decide (1 ≤ j) := by
    refine fun j hj => counted_from 3 1 (by norm_num) (by norm_num) _ (fun i hi => ?_) j hj
    unfold lowerRaw
    interval_cases i <;> norm_num
  have h2 : ∀ j < 3, counted 3 (upperRaw fun i => (i : ℝ) - 1) j = decide (1 ≤ j) := by
    refine fun j hj => counted_from 3 1 (by norm_num) (by norm_num) _ (fun i hi => ?_) j hj
    unfold upperRaw
    interval_cases i <;> norm_num
  have e1 := kept_drop [0, 1, 2] 1 0 (counted 3 (lowerRaw 3 fun i => (i : ℝ) - 1)) (fun j _ h => by rw [h1 j (by simpa using h)])
  have e2 := kept_drop [0, 1, 2] 1 0 (counted 3 (upperRaw fun i => (i : ℝ) - 1)) (fun j _ h => by rw [h2 j (by simpa using h)])
  unfold joinSurfaces
  simp only [e1, e2]
  rfl

/-- Two panels below and two above the nose. -/
example : joinSurfaces 4 (fun i => if i < 2 then -1 else 1) ((List.range 4).map fun i => (i, "below")) ((List.range 4).map fun i => (i, "above")) =
    some [(3, "below"), (2, "below"), (2, "above"), (3, "above")] := by
  rw [C440_surfaces_partial 4 2 (by norm_num) (by norm_num) _ (fun i hi => by simp [hi]) (fun i h1 h2 => by
    have : ¬ i < 2 := by omega
    simp [this])]
  rfl

end Verif.Airfoil
