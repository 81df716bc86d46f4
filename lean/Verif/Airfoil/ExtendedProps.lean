import Verif.Airfoil.Extended
import Mathlib.Tactic.Linarith
import Mathlib.Tactic.NormNum
import Mathlib.Tactic.FieldSimp
import Mathlib.Tactic.Ring
import Mathlib.Tactic.IntervalCases

/-!
# Extended polars of an airfoil: properties C413 and C414
-/

namespace Verif.Airfoil.Extended

theorem minPos_spec (cl : ℕ → ℝ) (i m : ℕ) (hi : i < m) (hpos : 0 < cl i) (hmin : ∀ j < m, 0 < cl j → j ≠ i → cl i < cl j) :
    minPos cl m = some i := by
  have key : ∀ k, k ≤ m → (i < k → minPos cl k = some i) ∧ (k ≤ i → ∀ j, minPos cl k = some j → j < k ∧ 0 < cl j) := by
    intro k
    induction k with
    | zero => intro _; exact ⟨fun h => absurd h (by omega), fun _ j h => by simp [minPos] at h⟩
    | succ k ih =>
      intro hk
      obtain ⟨h1, h2⟩ := ih (by omega)
      constructor
      · intro hik
        rcases Nat.lt_or_ge i k with h | h
        · simp only [minPos, h1 h]
          rw [if_neg]
          rintro ⟨a, b⟩
          have := hmin k (by omega) a (by omega)
          linarith
        · have hik' : i = k := by omega
          subst hik'
          cases hc : minPos cl i with
          | none => simp only [minPos, hc]; rw [if_pos hpos]
          | some j =>
            obtain ⟨a, b⟩ := h2 (le_refl _) j hc
            simp only [minPos, hc]
            rw [if_pos ⟨hpos, hmin j (by omega) b (by omega)⟩]
      · intro hki j hj
        cases hc : minPos cl k with
        | none =>
          simp only [minPos, hc] at hj
          split_ifs at hj with h
          simp only [Option.some.injEq] at hj
          subst hj; exact ⟨by omega, h⟩
        | some l =>
          simp only [minPos, hc] at hj
          obtain ⟨a, b⟩ := h2 (by omega) l hc
          split_ifs at hj with h
          · simp only [Option.some.injEq] at hj; subst hj; exact ⟨by omega, h.1⟩
          · simp only [Option.some.injEq] at hj; subst hj; exact ⟨by omega, b⟩
  exact (key m (le_refl _)).1 hi

/-- **C413.** If the least positive lift coefficient follows one that is not positive, the angle of zero
lift is where the line between the two is zero, and lies between them.  Missing: polars that reach lower
positive lift coefficients beyond stall, see the counterexample. -/
theorem C413_zero_partial (aoa cl : ℕ → ℝ) (i m : ℕ) (hi : i + 1 < m) (hneg : cl i ≤ 0) (hpos : 0 < cl (i + 1))
    (hmin : ∀ j < m, 0 < cl j → j ≠ i + 1 → cl (i + 1) < cl j) (hinc : aoa i ≤ aoa (i + 1)) :
    ∃ a, zeroLift aoa cl m = some a ∧ aoa i ≤ a ∧ a ≤ aoa (i + 1) ∧
      cl i * (aoa (i + 1) - a) + cl (i + 1) * (a - aoa i) = 0 := by
  have h := minPos_spec cl (i + 1) m hi hpos hmin
  have hd : 0 < cl (i + 1) - cl i := by linarith
  refine ⟨(aoa (i + 1) - aoa i) / (cl (i + 1) - cl i) * (0 - cl i) + aoa i, ?_, ?_, ?_, ?_⟩
  · simp [zeroLift, h, interpZero, not_lt.2 hneg]
  · have : 0 ≤ (aoa (i + 1) - aoa i) / (cl (i + 1) - cl i) * (0 - cl i) :=
      mul_nonneg (div_nonneg (by linarith) hd.le) (by linarith)
    linarith
  · have : (aoa (i + 1) - aoa i) / (cl (i + 1) - cl i) * (0 - cl i) ≤ aoa (i + 1) - aoa i := by
      rw [div_mul_eq_mul_div, div_le_iff₀ hd]
      nlinarith
    linarith
  · have := hd.ne'
    field_simp
    ring

/-- A polar at -4, 0, 4 and 8 degrees, the last one given. -/
noncomputable def demoCl (last : ℝ) (i : ℕ) : ℝ := if i = 0 then -0.2 else if i = 1 then 0.2 else if i = 2 then 0.8 else last

/-- Its angles. -/
noncomputable def demoAoa (i : ℕ) : ℝ := 4 * (i : ℝ) - 4

example : demoCl 1 0 ≤ 0 ∧ 0 < demoCl 1 1 ∧ (∀ j < 4, 0 < demoCl 1 j → j ≠ 1 → demoCl 1 1 < demoCl 1 j) ∧ demoAoa 0 ≤ demoAoa 1 := by
  refine ⟨by norm_num [demoCl], by norm_num [demoCl], ?_, by norm_num [demoAoa]⟩
  intro j hj
  interval_cases j <;> norm_num [demoCl]

/-- C413 is false of a polar that falls to a low lift coefficient beyond stall: the angle of zero lift
becomes the angle of stall, 4 degrees, where the lift coefficient is 0.8. -/
theorem C413_stall_counterexample : zeroLift demoAoa (demoCl 0.1) 4 = some 4 ∧ demoCl 0.1 2 = 0.8 ∧ demoAoa 2 = 4 := by
  refine ⟨?_, by norm_num [demoCl], by norm_num [demoAoa]⟩
  have h : minPos (demoCl 0.1) 4 = some 3 := by norm_num [minPos, demoCl]
  simp only [zeroLift, h]
  norm_num [interpZero, demoCl, demoAoa]

theorem firstIdx_le (f : ℕ → ℝ) (v : ℝ) (k n : ℕ) (hk : k < n) (h : f k = v) : ∃ i, firstIdx f v n = some i ∧ i ≤ k ∧ f i = v := by
  induction n with
  | zero => omega
  | succ n ih =>
    rcases Nat.lt_or_ge k n with h' | h'
    · obtain ⟨i, h1, h2, h3⟩ := ih h'
      exact ⟨i, by simp [firstIdx, h1], h2, h3⟩
    · have : k = n := by omega
      subst this
      cases hc : firstIdx f v k with
      | none => exact ⟨k, by simp [firstIdx, hc, h], le_refl _, h⟩
      | some i =>
        have : ∀ m i, firstIdx f v m = some i → i < m ∧ f i = v := by
          intro m
          induction m with
          | zero => intro i h; simp [firstIdx] at h
          | succ m ihm =>
            intro i hi
            cases hm : firstIdx f v m with
            | none =>
              simp only [firstIdx, hm] at hi
              split_ifs at hi with h2
              simp only [Option.some.injEq] at hi
              subst hi; exact ⟨by omega, h2⟩
            | some l =>
              simp only [firstIdx, hm, Option.some.injEq] at hi
              subst hi
              obtain ⟨a, b⟩ := ihm l hm
              exact ⟨by omega, b⟩
        obtain ⟨a, b⟩ := this k i hc
        exact ⟨i, by simp [firstIdx, hc], a.le, b⟩

theorem lastIdx_ge (f : ℕ → ℝ) (v : ℝ) (k n : ℕ) (hk : k < n) (h : f k = v) :
    ∃ i, lastIdx f v n = some i ∧ k ≤ i ∧ i < n ∧ f i = v := by
  induction n with
  | zero => omega
  | succ n ih =>
    by_cases hn : f n = v
    · exact ⟨n, by simp [lastIdx, hn], by omega, by omega, hn⟩
    · have hkn : k < n := by
        rcases Nat.lt_or_ge k n with h' | h'
        · exact h'
        · exact absurd (by rw [show n = k by omega]; exact h) hn
      obtain ⟨i, h1, h2, h3, h4⟩ := ih hkn
      exact ⟨i, by simp [lastIdx, hn, h1], h2, by omega, h4⟩

theorem nearestIdx_lt (x : ℝ) (aoa : ℕ → ℝ) (m : ℕ) (hm : 0 < m) :
    nearestIdx x aoa m < m ∧ ∀ j < m, |x - aoa (nearestIdx x aoa m)| ≤ |x - aoa j| := by
  induction m with
  | zero => omega
  | succ m ih =>
    rcases Nat.eq_zero_or_pos m with h | h
    · subst h
      refine ⟨by simp [nearestIdx], fun j hj => ?_⟩
      have : j = 0 := by omega
      subst this; simp [nearestIdx]
    · obtain ⟨h1, h2⟩ := ih h
      simp only [nearestIdx, if_neg h.ne']
      split_ifs with hc
      · refine ⟨by omega, fun j hj => ?_⟩
        rcases Nat.lt_or_ge j m with h' | h'
        · exact hc.le.trans (h2 j h')
        · rw [show j = m by omega]
      · refine ⟨by omega, fun j hj => ?_⟩
        rcases Nat.lt_or_ge j m with h' | h'
        · exact h2 j h'
        · rw [show j = m by omega]; exact not_lt.1 hc

/-- At an angle of the data the nearest angle is that angle. -/
theorem nearestIdx_self (aoa : ℕ → ℝ) (m j : ℕ) (hj : j < m) (hinj : ∀ a b, a < m → b < m → aoa a = aoa b → a = b) :
    nearestIdx (aoa j) aoa m = j := by
  obtain ⟨h1, h2⟩ := nearestIdx_lt (aoa j) aoa m (by omega)
  have := h2 j hj
  rw [sub_self, abs_zero] at this
  have h3 := abs_eq_zero.1 (le_antisymm this (abs_nonneg _))
  exact hinj _ _ h1 hj (by linarith)

/-- **C414.** With data whose first and last angle are angles of the sweep, the extended polar has the
data at every angle they share, the data of the nearest angle in between, the extended lift elsewhere, and
a drag at least as high as the extended one elsewhere.  Missing: data that start or end off the sweep, see
the counterexample. -/
theorem C414_data_partial (n : ℕ) (s : ℕ → ℝ) (m : ℕ) (aoa cl cd CL CD : ℕ → ℝ) (a b : ℕ) (hm : 0 < m)
    (hs : ∀ i j, i < j → s i < s j) (haoa : ∀ i j, i < j → j < m → aoa i < aoa j)
    (ha : s a = aoa 0) (hb : s b = aoa (m - 1)) (han : a < n) (hbn : b < n) :
    ∃ CL' CD', applyData n s m aoa cl cd CL CD = some (CL', CD') ∧
      (∀ i j, j < m → s i = aoa j → CL' i = cl j ∧ CD' i = cd j) ∧
      (∀ i, a ≤ i → i ≤ b → ∃ j < m, CL' i = cl j ∧ CD' i = cd j ∧ ∀ l < m, |s i - aoa j| ≤ |s i - aoa l|) ∧
      (∀ i, i < a ∨ b < i → CL' i = CL i ∧ CD i ≤ CD' i) ∧
      ((∀ i, b < i → CD i ≠ cd (m - 1)) → ∀ i, b ≤ i → cd (m - 1) ≤ CD' i) := by
  have hinj : ∀ i j, i < m → j < m → aoa i = aoa j → i = j := by
    intro i j hi hj he
    rcases Nat.lt_trichotomy i j with h | h | h
    · exact absurd he (haoa i j h hj).ne
    · exact h
    · exact absurd he (haoa j i h hi).ne'
  have hmono : ∀ i j, i ≤ j → s i ≤ s j := fun i j h => by
    rcases Nat.lt_or_ge i j with h' | h'
    · exact (hs i j h').le
    · rw [show i = j by omega]
  have hrange : ∀ i, (aoa 0 ≤ s i ∧ s i ≤ aoa (m - 1)) ↔ a ≤ i ∧ i ≤ b := by
    intro i
    rw [← ha, ← hb]
    constructor
    · rintro ⟨h1, h2⟩
      constructor
      · by_contra h; exact absurd (hs i a (by omega)) (not_lt.2 h1)
      · by_contra h; exact absurd (hs b i (by omega)) (not_lt.2 h2)
    · rintro ⟨h1, h2⟩; exact ⟨hmono _ _ h1, hmono _ _ h2⟩
  have hab : a ≤ b := by
    by_contra h
    have h1 := hs b a (by omega)
    rw [ha, hb] at h1
    rcases Nat.lt_or_ge 0 (m - 1) with h' | h'
    · linarith [haoa 0 (m - 1) h' (by omega)]
    · rw [show m - 1 = 0 by omega] at h1; exact lt_irrefl _ h1
  set CD1 : ℕ → ℝ := fun i => if aoa 0 ≤ s i ∧ s i ≤ aoa (m - 1) then cd (nearestIdx (s i) aoa m) else CD i with hCD1
  have h0 : CD1 a = cd 0 := by
    simp only [hCD1]
    rw [if_pos ((hrange a).2 ⟨le_refl _, hab⟩), ha, nearestIdx_self aoa m 0 hm hinj]
  have h9 : CD1 b = cd (m - 1) := by
    simp only [hCD1]
    rw [if_pos ((hrange b).2 ⟨hab, le_refl _⟩), hb, nearestIdx_self aoa m (m - 1) (by omega) hinj]
  obtain ⟨lb, hlb, hlba, hlbv⟩ := firstIdx_le CD1 (cd 0) a n han h0
  obtain ⟨ub, hub, hubb, hubn, hubv⟩ := lastIdx_ge CD1 (cd (m - 1)) b n hbn h9
  have hlu : ¬ ub < lb := by omega
  refine ⟨fun i => if aoa 0 ≤ s i ∧ s i ≤ aoa (m - 1) then cl (nearestIdx (s i) aoa m) else CL i,
    fun i => if ub ≤ i then max (if i < lb then max (CD1 i) (CD1 lb) else CD1 i) (if ub < lb then max (CD1 ub) (CD1 lb) else CD1 ub)
      else (if i < lb then max (CD1 i) (CD1 lb) else CD1 i), ?_, ?_, ?_, ?_, ?_⟩
  · simp only [applyData, ← hCD1, hlb, hub]
    rfl
  · intro i j hj hij
    have hj0 : aoa 0 ≤ aoa j := by
      rcases Nat.eq_zero_or_pos j with h | h
      · rw [h]
      · exact (haoa 0 j h hj).le
    have hj1 : aoa j ≤ aoa (m - 1) := by
      rcases Nat.lt_or_ge j (m - 1) with h | h
      · exact (haoa j (m - 1) h (by omega)).le
      · rw [show j = m - 1 by omega]
    have hr : aoa 0 ≤ s i ∧ s i ≤ aoa (m - 1) := by rw [hij]; exact ⟨hj0, hj1⟩
    have hi := (hrange i).1 hr
    have hcd : CD1 i = cd j := by simp only [hCD1]; rw [if_pos hr, hij, nearestIdx_self aoa m j hj hinj]
    refine ⟨by simp only []; rw [if_pos hr, hij, nearestIdx_self aoa m j hj hinj], ?_⟩
    simp only []
    rw [if_neg (show ¬ i < lb by omega), if_neg hlu, hcd]
    split_ifs with h
    · have : ub = i := by omega
      rw [this, hcd, max_self]
    · rfl
  · intro i h1 h2
    have hr := (hrange i).2 ⟨h1, h2⟩
    obtain ⟨n1, n2⟩ := nearestIdx_lt (s i) aoa m hm
    have hcd : CD1 i = cd (nearestIdx (s i) aoa m) := by simp only [hCD1]; rw [if_pos hr]
    refine ⟨nearestIdx (s i) aoa m, n1, by simp only []; rw [if_pos hr], ?_, n2⟩
    simp only []
    rw [if_neg (show ¬ i < lb by omega), if_neg hlu, hcd]
    split_ifs with h
    · have : ub = i := by omega
      rw [this, hcd, max_self]
    · rfl
  · intro i hi
    have hr : ¬ (aoa 0 ≤ s i ∧ s i ≤ aoa (m - 1)) := fun h => by have := (hrange i).1 h; omega
    have hcd : CD1 i = CD i := by simp only [hCD1]; rw [if_neg hr]
    refine ⟨by simp only []; rw [if_neg hr], ?_⟩
    simp only [hcd]
    split_ifs
    all_goals first | exact le_refl _ | exact le_max_left _ _ | exact (le_max_left _ _).trans (le_max_left _ _)
  · intro hne i hi
    have hubeq : ub = b := by
      by_contra h
      have hbu : b < ub := by omega
      have hr : ¬ (aoa 0 ≤ s ub ∧ s ub ≤ aoa (m - 1)) := fun h => by have := (hrange ub).1 h; omega
      have hcd : CD1 ub = CD ub := by simp only [hCD1]; rw [if_neg hr]
      exact hne ub hbu (by rw [← hcd, hubv])
    simp only []
    rw [if_pos (show ub ≤ i by omega), if_neg hlu, hubv]
    exact le_max_right _ _

/-- The hypotheses hold for data at -2, 0 and 2 degrees in a sweep of whole degrees from -14 on. -/
example : (∀ i j : ℕ, i < j → ((i : ℝ) - 14) < (j : ℝ) - 14) ∧ (∀ i j : ℕ, i < j → j < 3 → (2 * (i : ℝ) - 2) < 2 * (j : ℝ) - 2) ∧
    ((12 : ℕ) : ℝ) - 14 = 2 * ((0 : ℕ) : ℝ) - 2 ∧ ((16 : ℕ) : ℝ) - 14 = 2 * ((3 - 1 : ℕ) : ℝ) - 2 := by
  refine ⟨fun i j h => ?_, fun i j h _ => ?_, by norm_num, by norm_num⟩ <;>
  · have : (i : ℝ) < j := by exact_mod_cast h
    linarith

theorem firstIdx_none (f : ℕ → ℝ) (v : ℝ) (n : ℕ) (h : ∀ i, f i ≠ v) : firstIdx f v n = none := by
  induction n with
  | zero => rfl
  | succ n ih => simp [firstIdx, ih, h n]

/-- **C413, slope.** With angles in increasing order, among them 0 and 4 degrees, the lift curve slope is
the one between the two.  Missing: polars without these angles, see the counterexample. -/
theorem C413_slope_partial (aoa cl : ℕ → ℝ) (m i j : ℕ) (hi : i < m) (hj : j < m) (h0 : aoa i = 0) (h4 : aoa j = 4)
    (haoa : ∀ i j, i < j → j < m → aoa i < aoa j) : slope aoa cl m = some ((cl j - cl i) / 4) := by
  have hinj : ∀ i j, i < m → j < m → aoa i = aoa j → i = j := by
    intro i j hi hj he
    rcases Nat.lt_trichotomy i j with h | h | h
    · exact absurd he (haoa i j h hj).ne
    · exact h
    · exact absurd he (haoa j i h hi).ne'
  obtain ⟨a, ha, ha1, ha2⟩ := firstIdx_le aoa 0 i m hi h0
  obtain ⟨b, hb, _, hb1, hb2⟩ := lastIdx_ge aoa 0 i m hi h0
  obtain ⟨c, hc, hc1, hc2⟩ := firstIdx_le aoa 4 j m hj h4
  obtain ⟨d, hd, _, hd1, hd2⟩ := lastIdx_ge aoa 4 j m hj h4
  have ea : a = i := hinj a i (by omega) hi (by rw [ha2, h0])
  have eb : b = i := hinj b i hb1 hi (by rw [hb2, h0])
  have ec : c = j := hinj c j (by omega) hj (by rw [hc2, h4])
  have ed : d = j := hinj d j hd1 hj (by rw [hd2, h4])
  subst ea; subst ec; subst eb; subst ed
  simp [slope, ha, hb, hc, hd, h0, h4]

example : demoAoa 1 = 0 ∧ demoAoa 2 = 4 ∧ ∀ i j : ℕ, i < j → j < 4 → demoAoa i < demoAoa j := by
  refine ⟨by norm_num [demoAoa], by norm_num [demoAoa], fun i j h _ => ?_⟩
  have : (i : ℝ) < j := by exact_mod_cast h
  simp only [demoAoa]; linarith

/-- C413 is false of a polar every other two degrees from -3 on: it fails. -/
theorem C413_slope_counterexample (cl : ℕ → ℝ) (m : ℕ) : slope (fun i => 2 * (i : ℝ) - 3) cl m = none := by
  have : firstIdx (fun i : ℕ => 2 * (i : ℝ) - 3) 0 m = none := by
    apply firstIdx_none
    intro i h
    have h2 : (2 * i : ℝ) = 3 := by linarith
    have h3 : 2 * i = 3 := by exact_mod_cast h2
    omega
  simp [slope, this]

/-- C414 is false of data that start below the sweep (here at -16 degrees, every degree up to 13): there
is no angle with the drag of the first one and the search for it is an index error. -/
theorem C414_start_counterexample (cl CL : ℕ → ℝ) :
    applyData 105 (fun i => (i : ℝ) - 14) 30 (fun i => (i : ℝ) - 16) cl (fun i => 1 + (i : ℝ)) CL (fun _ => 0) = none := by
  have hinj : ∀ a b : ℕ, a < 30 → b < 30 → ((a : ℝ) - 16) = (b : ℝ) - 16 → a = b := by
    intro a b _ _ h
    have : (a : ℝ) = b := by linarith
    exact_mod_cast this
  simp only [applyData]
  rw [firstIdx_none]
  intro i
  split_ifs with h
  · have h30 : i + 2 < 30 := by
      have h2 := h.2
      norm_num at h2
      omega
    have := nearestIdx_self (fun i : ℕ => (i : ℝ) - 16) 30 (i + 2) h30 hinj
    have e : ((i : ℝ) - 14) = ((i + 2 : ℕ) : ℝ) - 16 := by push_cast; ring
    rw [e, this]
    push_cast
    have : (0 : ℝ) ≤ i := Nat.cast_nonneg i
    intro hc; linarith
  · norm_num

end Verif.Airfoil.Extended
