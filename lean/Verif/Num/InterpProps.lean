import Verif.Num.Interp
import Mathlib.Tactic.Linarith
import Mathlib.Tactic.FieldSimp
import Mathlib.Tactic.Ring
import Mathlib.Tactic.NormNum
/-! C28: bilinear table lookup. -/

set_option linter.unusedSectionVars false

namespace Verif.Num

variable {K : Type} [Field K] [LinearOrder K] [IsStrictOrderedRing K]

/-! ### Specification -/

/-- A usable axis: at least two points, strictly increasing. -/
def Axis (n : Nat) (xs : Nat → K) : Prop := 2 ≤ n ∧ ∀ i j, i < j → j < n → xs i < xs j

/-- `x` lies in the range of the axis. -/
def InRange (n : Nat) (xs : Nat → K) (x : K) : Prop := xs 0 ≤ x ∧ x ≤ xs (n - 1)

/-! ### Helper lemmas -/

theorem countP_prefix (p : Nat → Bool) (n s : Nat) (h : ∀ i < n, p i = true ↔ i < s) (hs : s ≤ n) :
    (List.range n).countP p = s := by
  induction n generalizing s with
  | zero => simp; omega
  | succ n ih =>
    rw [List.range_succ, List.countP_append]
    have hn := h n (by omega)
    by_cases hsn : n < s
    · rw [ih n (fun i hi => ⟨fun _ => hi, fun _ => (h i (by omega)).2 (by omega)⟩) (le_refl _)]
      simp [hn.2 hsn]; omega
    · have : p n = false := by
        cases hp : p n with
        | false => rfl
        | true => exact absurd (hn.1 hp) hsn
      rw [ih s (fun i hi => h i (by omega)) (by omega)]
      simp [this]

theorem searchRight_spec (n : Nat) (xs : Nat → K) (hax : Axis n xs) (x : K) :
    searchRight n xs x ≤ n ∧ ∀ i < n, xs i ≤ x ↔ i < searchRight n xs x := by
  have key : ∃ s ≤ n, ∀ i < n, xs i ≤ x ↔ i < s := by
    by_cases hall : ∃ i, i < n ∧ x < xs i
    · obtain ⟨hs1, hs2⟩ := Nat.find_spec hall
      refine ⟨Nat.find hall, hs1.le, fun i hi => ⟨fun hxi => ?_, fun hlt => ?_⟩⟩
      · by_contra hge
        rcases Nat.lt_or_eq_of_le (Nat.le_of_not_lt hge) with h | h
        · have := hax.2 _ _ h hi
          linarith
        · rw [← h] at hxi; linarith
      · have := Nat.find_min hall hlt
        by_contra hc
        exact this ⟨hi, not_le.1 hc⟩
    · refine ⟨n, le_refl _, fun i hi => ⟨fun _ => hi, fun _ => ?_⟩⟩
      by_contra hc
      exact hall ⟨i, hi, not_le.1 hc⟩
  obtain ⟨s, hs, hsi⟩ := key
  have : searchRight n xs x = s := countP_prefix _ n s (fun i hi => by simpa using hsi i hi) hs
  rw [this]
  exact ⟨hs, hsi⟩

/-- The selected cell is a cell of the axis, with distinct ends. -/
theorem cell_valid (n : Nat) (xs : Nat → K) (hax : Axis n xs) (x : K) :
    1 ≤ cellIdx n xs x ∧ cellIdx n xs x < n ∧ xs (cellIdx n xs x - 1) < xs (cellIdx n xs x) := by
  have h2 := hax.1
  have h1 : 1 ≤ cellIdx n xs x := by unfold cellIdx; omega
  have h3 : cellIdx n xs x < n := by unfold cellIdx; omega
  exact ⟨h1, h3, hax.2 _ _ (by omega) h3⟩

/-- A query in range lies in the selected cell. -/
theorem cell_contains (n : Nat) (xs : Nat → K) (hax : Axis n xs) (x : K) (hx : InRange n xs x) :
    xs (cellIdx n xs x - 1) ≤ x ∧ x ≤ xs (cellIdx n xs x) := by
  obtain ⟨hs, hi⟩ := searchRight_spec n xs hax x
  have h2 := hax.1
  have hpos : 0 < searchRight n xs x := (hi 0 (by omega)).1 hx.1
  by_cases hfull : searchRight n xs x = n
  · have hc : cellIdx n xs x = n - 1 := by unfold cellIdx; omega
    rw [hc]
    exact ⟨(hi _ (by omega)).2 (by omega), hx.2⟩
  · have hc : cellIdx n xs x = searchRight n xs x := by unfold cellIdx; omega
    rw [hc]
    refine ⟨(hi _ (by omega)).2 (by omega), ?_⟩
    by_contra hcon
    have := (hi (searchRight n xs x) (by omega)).1 (not_le.1 hcon).le
    omega

/-- At a node the node is an end of the selected cell. -/
theorem cell_node (n : Nat) (xs : Nat → K) (hax : Axis n xs) (k : Nat) (hk : k < n) :
    cellIdx n xs (xs k) = k + 1 ∨ (cellIdx n xs (xs k) = k ∧ 1 ≤ k) := by
  obtain ⟨hs, hi⟩ := searchRight_spec n xs hax (xs k)
  have h2 := hax.1
  have hk1 : k < searchRight n xs (xs k) := (hi k hk).1 (le_refl _)
  have hk2 : searchRight n xs (xs k) ≤ k + 1 := by
    by_contra hc
    have := (hi (k + 1) (by omega)).2 (by omega)
    have hlt := hax.2 k (k + 1) (by omega) (by omega)
    linarith
  unfold cellIdx
  omega

/-- Linear weights. -/
theorem weights {a b x : K} (h : a < b) : (b - x) / (b - a) + (x - a) / (b - a) = 1 := by
  have : b - a ≠ 0 := (sub_pos.2 h).ne'
  field_simp
  ring

theorem between {w1 w2 a b lo hi : K} (h1 : 0 ≤ w1) (h2 : 0 ≤ w2) (hs : w1 + w2 = 1) (ha : lo ≤ a ∧ a ≤ hi)
    (hb : lo ≤ b ∧ b ≤ hi) : lo ≤ w1 * a + w2 * b ∧ w1 * a + w2 * b ≤ hi := by
  have e1 : lo = w1 * lo + w2 * lo := by rw [← add_mul, hs, one_mul]
  have e2 : hi = w1 * hi + w2 * hi := by rw [← add_mul, hs, one_mul]
  constructor
  · rw [e1]; exact add_le_add (mul_le_mul_of_nonneg_left ha.1 h1) (mul_le_mul_of_nonneg_left hb.1 h2)
  · rw [e2]; exact add_le_add (mul_le_mul_of_nonneg_left ha.2 h1) (mul_le_mul_of_nonneg_left hb.2 h2)

/-! ### C28 -/

/-- **C28, bilinear data.** If the table agrees with a bilinear function at the four corners of
the cell used, the lookup returns that function's value at the query (inside the grid or
extrapolating). -/
theorem C28_bilinear (g : Grid K) (hx : Axis g.nx g.xs) (hy : Axis g.ny g.ys) (x y a b c d : K)
    (hz : ∀ i j, (i = cellIdx g.nx g.xs x - 1 ∨ i = cellIdx g.nx g.xs x) →
      (j = cellIdx g.ny g.ys y - 1 ∨ j = cellIdx g.ny g.ys y) →
      g.z i j = a + b * g.xs i + c * g.ys j + d * g.xs i * g.ys j) :
    g.raw x y = a + b * x + c * y + d * x * y := by
  obtain ⟨_, _, h1⟩ := cell_valid g.nx g.xs hx x
  obtain ⟨_, _, h2⟩ := cell_valid g.ny g.ys hy y
  unfold Grid.raw
  simp only
  rw [hz _ _ (Or.inl rfl) (Or.inl rfl), hz _ _ (Or.inr rfl) (Or.inl rfl), hz _ _ (Or.inl rfl) (Or.inr rfl),
    hz _ _ (Or.inr rfl) (Or.inr rfl)]
  generalize g.xs (cellIdx g.nx g.xs x) = x2 at *
  generalize g.xs (cellIdx g.nx g.xs x - 1) = x1 at *
  generalize g.ys (cellIdx g.ny g.ys y) = y2 at *
  generalize g.ys (cellIdx g.ny g.ys y - 1) = y1 at *
  have hx0 : x2 - x1 ≠ 0 := (sub_pos.2 h1).ne'
  have hy0 : y2 - y1 ≠ 0 := (sub_pos.2 h2).ne'
  field_simp
  ring

/-- **C28, nodes.** The table is reproduced at every grid node. -/
theorem C28_node (g : Grid K) (hx : Axis g.nx g.xs) (hy : Axis g.ny g.ys) (i j : Nat) (hi : i < g.nx) (hj : j < g.ny)
    (fill : Option K) : g.interp fill (g.xs i) (g.ys j) = g.z i j := by
  have hraw : g.raw (g.xs i) (g.ys j) = g.z i j := by
    obtain ⟨_, _, h1⟩ := cell_valid g.nx g.xs hx (g.xs i)
    obtain ⟨_, _, h2⟩ := cell_valid g.ny g.ys hy (g.ys j)
    have n1 := cell_node g.nx g.xs hx i hi
    have n2 := cell_node g.ny g.ys hy j hj
    have hx0 := (sub_pos.2 h1).ne'
    have hy0 := (sub_pos.2 h2).ne'
    unfold Grid.raw
    simp only
    rcases n1 with e1 | ⟨e1, k1⟩
    · rw [e1] at hx0 ⊢
      rcases n2 with e2 | ⟨e2, k2⟩
      · rw [e2] at hy0 ⊢
        simp only [Nat.add_sub_cancel] at hx0 hy0 ⊢
        field_simp; ring
      · rw [e2] at hy0 ⊢
        simp only [Nat.add_sub_cancel] at hx0 hy0 ⊢
        field_simp; ring
    · rw [e1] at hx0 ⊢
      rcases n2 with e2 | ⟨e2, k2⟩
      · rw [e2] at hy0 ⊢
        simp only [Nat.add_sub_cancel] at hx0 hy0 ⊢
        field_simp; ring
      · rw [e2] at hy0 ⊢
        field_simp; ring
  have mono : ∀ (n : Nat) (xs : Nat → K), Axis n xs → ∀ k < n, xs 0 ≤ xs k ∧ xs k ≤ xs (n - 1) := by
    intro n xs hax k hk
    constructor
    · rcases Nat.eq_zero_or_pos k with h | h
      · rw [h]
      · exact (hax.2 0 k h hk).le
    · rcases Nat.lt_or_eq_of_le (Nat.le_sub_one_of_lt hk) with h | h
      · exact (hax.2 k (n - 1) h (by omega)).le
      · rw [h]
  cases fill with
  | none => exact hraw
  | some v =>
    obtain ⟨a1, a2⟩ := mono _ _ hx i hi
    obtain ⟨b1, b2⟩ := mono _ _ hy j hj
    unfold Grid.interp
    simp only [hraw]
    rw [if_neg]
    rintro (h | h | h | h) <;> linarith

/-- **C28, range.** For a query inside the grid, the result lies between any bounds of the four
corner values of the cell, and the query lies in that cell. -/
theorem C28_between (g : Grid K) (hx : Axis g.nx g.xs) (hy : Axis g.ny g.ys) (x y : K)
    (hxr : InRange g.nx g.xs x) (hyr : InRange g.ny g.ys y) :
    ∃ i j, i + 1 < g.nx ∧ j + 1 < g.ny ∧ (g.xs i ≤ x ∧ x ≤ g.xs (i + 1)) ∧ (g.ys j ≤ y ∧ y ≤ g.ys (j + 1)) ∧
      ∀ lo hi, (∀ a b, (a = i ∨ a = i + 1) → (b = j ∨ b = j + 1) → lo ≤ g.z a b ∧ g.z a b ≤ hi) →
        lo ≤ g.raw x y ∧ g.raw x y ≤ hi := by
  obtain ⟨a1, a2, a3⟩ := cell_valid g.nx g.xs hx x
  obtain ⟨b1, b2, b3⟩ := cell_valid g.ny g.ys hy y
  obtain ⟨c1, c2⟩ := cell_contains g.nx g.xs hx x hxr
  obtain ⟨d1, d2⟩ := cell_contains g.ny g.ys hy y hyr
  have e1 : cellIdx g.nx g.xs x - 1 + 1 = cellIdx g.nx g.xs x := by omega
  have e2 : cellIdx g.ny g.ys y - 1 + 1 = cellIdx g.ny g.ys y := by omega
  refine ⟨cellIdx g.nx g.xs x - 1, cellIdx g.ny g.ys y - 1, by omega, by omega, by rw [e1]; exact ⟨c1, c2⟩,
    by rw [e2]; exact ⟨d1, d2⟩, ?_⟩
  intro lo hi hz
  rw [e1, e2] at hz
  have px : 0 < g.xs (cellIdx g.nx g.xs x) - g.xs (cellIdx g.nx g.xs x - 1) := sub_pos.2 a3
  have py : 0 < g.ys (cellIdx g.ny g.ys y) - g.ys (cellIdx g.ny g.ys y - 1) := sub_pos.2 b3
  unfold Grid.raw
  simp only
  apply between (div_nonneg (by linarith) py.le) (div_nonneg (by linarith) py.le) (weights b3)
  · exact between (div_nonneg (by linarith) px.le) (div_nonneg (by linarith) px.le) (weights a3)
      (hz _ _ (Or.inl rfl) (Or.inl rfl)) (hz _ _ (Or.inr rfl) (Or.inl rfl))
  · exact between (div_nonneg (by linarith) px.le) (div_nonneg (by linarith) px.le) (weights a3)
      (hz _ _ (Or.inl rfl) (Or.inr rfl)) (hz _ _ (Or.inr rfl) (Or.inr rfl))

/-- **C28, fill value.** With a fill value, queries outside the grid return it and queries
inside are unaffected by it. -/
theorem C28_fill (g : Grid K) (v x y : K) :
    (¬ (InRange g.nx g.xs x ∧ InRange g.ny g.ys y) → g.interp (some v) x y = v) ∧
    (InRange g.nx g.xs x ∧ InRange g.ny g.ys y → g.interp (some v) x y = g.interp none x y) := by
  unfold Grid.interp InRange
  simp only
  constructor
  · intro h
    rw [if_pos]
    by_contra hc
    push Not at hc
    exact h ⟨⟨hc.1, hc.2.1⟩, ⟨hc.2.2.1, hc.2.2.2⟩⟩
  · intro h
    rw [if_neg]
    rintro (hc | hc | hc | hc)
    · exact absurd h.1.1 (not_le.2 hc)
    · exact absurd h.1.2 (not_le.2 hc)
    · exact absurd h.2.1 (not_le.2 hc)
    · exact absurd h.2.2 (not_le.2 hc)

/-- **C28, continuity across cells**: on a shared cell edge the neighbouring cells give the same
value, stated as: along a grid line `x = xs k` the result is the linear interpolation of that
line's values alone. -/
theorem C28_grid_line (g : Grid K) (hx : Axis g.nx g.xs) (k : Nat) (hk : k < g.nx) (y : K) :
    g.raw (g.xs k) y =
      let j := cellIdx g.ny g.ys y
      (g.ys j - y) / (g.ys j - g.ys (j - 1)) * g.z k (j - 1) + (y - g.ys (j - 1)) / (g.ys j - g.ys (j - 1)) * g.z k j := by
  obtain ⟨_, _, h1⟩ := cell_valid g.nx g.xs hx (g.xs k)
  have hx0 := (sub_pos.2 h1).ne'
  unfold Grid.raw
  simp only
  rcases cell_node g.nx g.xs hx k hk with e1 | ⟨e1, k1⟩
  · rw [e1] at hx0 ⊢
    simp only [Nat.add_sub_cancel] at hx0 ⊢
    rw [div_self hx0, sub_self, zero_div]; ring
  · rw [e1] at hx0 ⊢
    rw [div_self hx0, sub_self, zero_div]; ring

/-- A 3 × 2 grid. -/
def exGrid : Grid ℚ := { nx := 3, ny := 2, xs := fun i => i, ys := fun j => 2 * j, z := fun i j => i * i + j }

example : Axis exGrid.nx exGrid.xs ∧ Axis exGrid.ny exGrid.ys ∧ InRange exGrid.nx exGrid.xs (3/2) := by
  refine ⟨⟨by decide, ?_⟩, ⟨by decide, ?_⟩, ?_⟩
  · intro i j h _; simpa [exGrid] using h
  · intro i j h _; simpa [exGrid] using h
  · norm_num [InRange, exGrid]

example : exGrid.raw (3/2) 1 = 3 := by
  have e1 : cellIdx exGrid.nx exGrid.xs (3/2) = 2 := by decide +kernel
  have e2 : cellIdx exGrid.ny exGrid.ys 1 = 1 := by decide +kernel
  unfold Grid.raw
  rw [e1, e2]
  norm_num [exGrid]

end Verif.Num
