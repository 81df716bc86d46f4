import Verif.Weights.TorsionBox
import Verif.Weights.WebHeightProps

/-!
C469: area and skin of the torsion box of a wing.
-/

namespace Verif.Weights.TorsionBox

/-- Area between a symmetric outline with straight pieces: mean thickness times length, piece by piece. -/
noncomputable def pieces (y : ℝ → ℝ) : List ℝ → ℝ
  | c :: d :: r => (y c + y d) * (d - c) + pieces y (d :: r)
  | _ => 0

/-- Length of one side of the outline. -/
noncomputable def side (y : ℝ → ℝ) : List ℝ → ℝ
  | c :: d :: r => √((d - c) ^ 2 + (y d - y c) ^ 2) + side y (d :: r)
  | _ => 0

theorem crossSum_append (p q : ℝ × ℝ) (m : List (ℝ × ℝ)) : ∀ l : List (ℝ × ℝ),
    crossSum (l ++ [p] ++ q :: m) = crossSum (l ++ [p]) + (q.1 * p.2 - q.2 * p.1) + crossSum (q :: m)
  | [] => by simp [crossSum]
  | [r] => by simp [crossSum]; ring
  | r :: s :: l => by
    have h := crossSum_append p q m (s :: l)
    simp only [List.cons_append, crossSum] at h ⊢
    rw [h]; ring

theorem pathLength_append (p q : ℝ × ℝ) (m : List (ℝ × ℝ)) : ∀ l : List (ℝ × ℝ),
    pathLength (l ++ [p] ++ q :: m) = pathLength (l ++ [p]) + √((q.1 - p.1) ^ 2 + (q.2 - p.2) ^ 2) + pathLength (q :: m)
  | [] => by simp [pathLength]
  | [r] => by simp [pathLength]; ring
  | r :: s :: l => by
    have h := pathLength_append p q m (s :: l)
    simp only [List.cons_append, pathLength] at h ⊢
    rw [h]; ring

section
variable (y : ℝ → ℝ) (xs k : ℝ)

/-- A corner on the upper side. -/
noncomputable def up (c : ℝ) : ℝ × ℝ := ((c - xs) * k, y c * k)

/-- A corner on the lower side. -/
noncomputable def down (c : ℝ) : ℝ × ℝ := ((c - xs) * k, -y c * k)

theorem corners_eq (l : List ℝ) : corners y xs k l = l.reverse.map (up y xs k) ++ l.map (down y xs k) := rfl

theorem cross_up : ∀ (l : List ℝ) (c : ℝ),
    crossSum ((c :: l).reverse.map (up y xs k)) = crossSum ((c :: l).map (down y xs k))
  | [], c => rfl
  | d :: l, c => by
    have ih := cross_up l d
    have h : ((c :: d :: l).reverse.map (up y xs k)) = (l.reverse.map (up y xs k) ++ [up y xs k d]) ++ up y xs k c :: [] := by simp
    have h' : ((d :: l).reverse.map (up y xs k)) = l.reverse.map (up y xs k) ++ [up y xs k d] := by simp
    rw [h, crossSum_append, ← h', ih]
    simp only [List.map_cons, crossSum, up, down]
    ring

theorem length_up : ∀ (l : List ℝ) (c : ℝ),
    pathLength ((c :: l).reverse.map (up y xs k)) = |k| * side y (c :: l)
  | [], c => by simp [pathLength, side]
  | d :: l, c => by
    have ih := length_up l d
    have h : ((c :: d :: l).reverse.map (up y xs k)) = (l.reverse.map (up y xs k) ++ [up y xs k d]) ++ up y xs k c :: [] := by simp
    have h' : ((d :: l).reverse.map (up y xs k)) = l.reverse.map (up y xs k) ++ [up y xs k d] := by simp
    rw [h, pathLength_append, ← h', ih]
    simp only [pathLength, up, side]
    rw [show ((c - xs) * k - (d - xs) * k) ^ 2 + (y c * k - y d * k) ^ 2 = k ^ 2 * ((d - c) ^ 2 + (y d - y c) ^ 2) by ring,
      Real.sqrt_mul (sq_nonneg k), Real.sqrt_sq_eq_abs]
    ring

theorem length_down : ∀ (l : List ℝ) (c : ℝ),
    pathLength ((c :: l).map (down y xs k)) = |k| * side y (c :: l)
  | [], c => by simp [pathLength, side]
  | d :: l, c => by
    have ih := length_down l d
    simp only [List.map_cons] at ih
    simp only [List.map_cons, pathLength, ih, side]
    simp only [down]
    rw [show ((d - xs) * k - (c - xs) * k) ^ 2 + (-y d * k - -y c * k) ^ 2 = k ^ 2 * ((d - c) ^ 2 + (y d - y c) ^ 2) by ring,
      Real.sqrt_mul (sq_nonneg k), Real.sqrt_sq_eq_abs]
    ring

theorem cross_down : ∀ (l : List ℝ) (c : ℝ),
    crossSum ((c :: l).map (down y xs k)) =
      k ^ 2 * (((c :: l).getLast (by simp) - xs) * y ((c :: l).getLast (by simp)) - (c - xs) * y c - pieces y (c :: l))
  | [], c => by simp [crossSum, pieces]
  | d :: l, c => by
    have ih := cross_down l d
    simp only [List.map_cons] at ih
    simp only [List.map_cons, crossSum, ih, pieces, List.getLast_cons_cons]
    simp only [down]
    ring

/-- **C469, area.** The shoelace formula gives the area between the two sides, whatever the stations. -/
theorem C469_area (c : ℝ) (l : List ℝ) : torsionArea y xs k (c :: l) = k ^ 2 * |pieces y (c :: l)| := by
  have hr : (corners y xs k (c :: l)).getLast? = some (down y xs k ((c :: l).getLast (by simp))) := by
    rw [corners_eq, List.getLast?_append_of_ne_nil _ (by simp), List.getLast?_map, List.getLast?_eq_some_getLast (by simp)]
    rfl
  have hs : ∃ m, (c :: l).reverse.map (up y xs k) = up y xs k ((c :: l).getLast (by simp)) :: m := by
    refine ⟨((c :: l).reverse.map (up y xs k)).tail, ?_⟩
    have hne : (c :: l).reverse.map (up y xs k) ≠ [] := by simp
    rw [← List.cons_head_tail hne]
    congr 1
    rw [List.head_map, List.head_reverse]
  obtain ⟨m, hm⟩ := hs
  have h1 : (c :: l).reverse.map (up y xs k) = l.reverse.map (up y xs k) ++ [up y xs k c] := by simp
  have h2 : (c :: l).map (down y xs k) = down y xs k c :: l.map (down y xs k) := rfl
  have h3 := crossSum_append (up y xs k c) (down y xs k c) (l.map (down y xs k)) (l.reverse.map (up y xs k))
  rw [← h1, ← h2, cross_up, cross_down] at h3
  unfold torsionArea shoelace
  rw [hr]
  simp only
  have h4 : crossSum (down y xs k ((c :: l).getLast (by simp)) :: corners y xs k (c :: l)) =
      ((up y xs k ((c :: l).getLast (by simp))).1 * (down y xs k ((c :: l).getLast (by simp))).2
        - (up y xs k ((c :: l).getLast (by simp))).2 * (down y xs k ((c :: l).getLast (by simp))).1)
      + crossSum (corners y xs k (c :: l)) := by
    rw [corners_eq, hm]; rfl
  rw [h4, corners_eq, h3]
  simp only [up, down]
  generalize (c :: l).getLast _ = e
  rw [show ((e - xs) * k * (-y e * k) - y e * k * ((e - xs) * k) +
      (k ^ 2 * ((e - xs) * y e - (c - xs) * y c - pieces y (c :: l)) +
        ((c - xs) * k * (y c * k) - -y c * k * ((c - xs) * k)) +
        k ^ 2 * ((e - xs) * y e - (c - xs) * y c - pieces y (c :: l)))) = (2 * k ^ 2) * -pieces y (c :: l) by ring,
    abs_mul, abs_neg, abs_of_nonneg (by positivity)]
  ring

/-- **C469, skin.** What is taken for the circumference is both sides and the front web; the rear web is not in it. -/
theorem C469_skin_counterexample (c : ℝ) (l : List ℝ) :
    torsionLength y xs k (c :: l) = |k| * (2 * side y (c :: l) + 2 * |y c|) := by
  have h1 : (c :: l).reverse.map (up y xs k) = l.reverse.map (up y xs k) ++ [up y xs k c] := by simp
  have h2 : (c :: l).map (down y xs k) = down y xs k c :: l.map (down y xs k) := rfl
  have h3 := pathLength_append (up y xs k c) (down y xs k c) (l.map (down y xs k)) (l.reverse.map (up y xs k))
  rw [← h1, ← h2, length_up, length_down] at h3
  unfold torsionLength
  rw [corners_eq, h3]
  simp only [up, down]
  rw [show ((c - xs) * k - (c - xs) * k) ^ 2 + (-y c * k - y c * k) ^ 2 = (2 * k * y c) ^ 2 by ring, Real.sqrt_sq_eq_abs,
    abs_mul, abs_mul, abs_two]
  ring

/-- **C469, what holds.** The circumference of the closed box is right exactly where the box closes at the rear. -/
theorem C469_skin_partial (hk : k ≠ 0) (c : ℝ) (l : List ℝ) :
    torsionLength y xs k (c :: l) = |k| * (2 * side y (c :: l) + 2 * |y c| + 2 * |y ((c :: l).getLast (by simp))|) ↔
      y ((c :: l).getLast (by simp)) = 0 := by
  rw [C469_skin_counterexample]
  have hk' : |k| ≠ 0 := abs_ne_zero.2 hk
  constructor
  · intro h
    have := mul_left_cancel₀ hk' h
    have h0 : |y ((c :: l).getLast (by simp))| = 0 := by linarith
    exact abs_eq_zero.1 h0
  · intro h; rw [h, abs_zero]; ring

end

/-- A rectangular box of height two and length three, chord one: the area is six, and the skin eight instead of ten. -/
example : torsionArea (fun _ => 1) 0 1 [0, 1, 3] = 6 ∧ torsionLength (fun _ => 1) 0 1 [0, 1, 3] = 8 ∧
    (2 * side (fun _ => 1) [0, 1, 3] + 2 * |(1 : ℝ)| + 2 * |(1 : ℝ)| = 10) := by
  have h4 : √(4 : ℝ) = 2 := by rw [show (4 : ℝ) = 2 ^ 2 by norm_num, Real.sqrt_sq (by norm_num)]
  have hs : side (fun _ => (1 : ℝ)) [0, 1, 3] = 3 := by
    simp only [side]
    norm_num [h4]
  refine ⟨?_, ?_, ?_⟩
  · rw [C469_area]; norm_num [pieces]
  · rw [C469_skin_counterexample, hs]; norm_num
  · rw [hs]; norm_num

end Verif.Weights.TorsionBox
