import Verif.Vsp.FuselageExport
import Mathlib.Tactic.Linarith
import Mathlib.Tactic.NormNum

/-! C436: sections of a fuselage written to OpenVSP. -/

namespace Verif.Vsp.Export

/-- What OpenVSP calls a fuselage with `n` sections: in order from 0 to 1, the first and the last a point, the others not. -/
structure Fuselage (n : ℕ) (b : Shape) : Prop where
  count : b.count = n
  nose : (b.sec 0).x = 0
  end' : (b.sec (n - 1)).x = 1
  sorted : ∀ j, j + 1 < n → (b.sec j).x ≤ (b.sec (j + 1)).x
  points : ∀ j, j < n → ((b.sec j).point = true ↔ j = 0 ∨ j = n - 1)

theorem cut_three {b : Shape} (h : Fuselage 5 b) : Fuselage 2 (cut 1 (cut 1 (cut 1 b))) := by
  refine ⟨by simp [cut, h.count], by simpa [cut] using h.nose, by simpa [cut] using h.end', ?_, ?_⟩
  · intro j hj
    obtain rfl : j = 0 := by omega
    have h4 := h.end'
    have h0 := h.nose
    norm_num [cut] at h4 ⊢
    rw [h4, h0]; norm_num
  · intro j hj
    have h4 := (h.points 4 (by norm_num)).2 (Or.inr rfl)
    have h0 := (h.points 0 (by norm_num)).2 (Or.inl rfl)
    obtain rfl | rfl : j = 0 ∨ j = 1 := by omega
    · simpa [cut] using h0
    · simpa [cut] using h4

theorem insert_fuselage {n : ℕ} {b : Shape} (hn : 2 ≤ n) (h : Fuselage n b) : Fuselage (n + 1) (insert 0 b) := by
  have h01 := h.sorted 0 (by omega)
  refine ⟨by simp [insert, h.count], by simpa [insert] using h.nose, ?_, ?_, ?_⟩
  · have := h.end'
    simp only [insert, show n + 1 - 1 = n by omega, show ¬ n ≤ 0 by omega, show ¬ n = 0 + 1 by omega, if_false]
    exact this
  · intro j hj
    rcases Nat.lt_or_ge j 2 with hj2 | hj2
    · obtain rfl | rfl : j = 0 ∨ j = 1 := by omega
      · simp [insert] at h01 ⊢; linarith
      · simp [insert] at h01 ⊢; linarith
    · have := h.sorted (j - 1) (by omega)
      simp only [insert, show ¬ j ≤ 0 by omega, show ¬ j = 0 + 1 by omega, show ¬ j + 1 ≤ 0 by omega, show ¬ j + 1 = 0 + 1 by omega, if_false]
      rwa [show j - 1 + 1 = j + 1 - 1 by omega] at this
  · intro j hj
    rcases Nat.lt_or_ge j 2 with hj2 | hj2
    · obtain rfl | rfl : j = 0 ∨ j = 1 := by omega
      · simpa [insert] using (h.points 0 (by omega)).2 (Or.inl rfl)
      · simp [insert]; omega
    · have := h.points (j - 1) (by omega)
      simp only [insert, show ¬ j ≤ 0 by omega, show ¬ j = 0 + 1 by omega, if_false]
      rw [this]; omega

theorem insertMany_fuselage (m : ℕ) : ∀ {n : ℕ} {b : Shape}, 2 ≤ n → Fuselage n b → Fuselage (n + m) (insertMany m b) := by
  induction m with
  | zero => intro n b _ h; exact h
  | succ m ih =>
    intro n b hn h
    have := ih (by omega) (insert_fuselage hn h)
    rwa [show n + 1 + m = n + (m + 1) by omega] at this

theorem prepare_fuselage {n : ℕ} {b : Shape} (hn : 2 ≤ n) (h : Fuselage 5 b) : Fuselage n (prepare n b) := by
  unfold prepare
  split
  · have := insertMany_fuselage (n - 2) le_rfl (cut_three h)
    rwa [show 2 + (n - 2) = n by omega] at this
  · rename_i h5
    obtain rfl : n = 5 := by omega
    exact h

/-- A section asked for a place between its neighbours gets it. -/
theorem allowed_eq {b : Shape} {k : ℕ} {v : ℝ} (h1 : (if k = 0 then 0 else (b.sec (k - 1)).x) ≤ v)
    (h2 : v ≤ (if k + 1 < b.count then (b.sec (k + 1)).x else 1)) : allowed b k v = v := by
  unfold allowed
  rw [min_eq_right h2, max_eq_right h1]

theorem setX_fuselage {n k : ℕ} {b : Shape} (v : ℝ) (h : Fuselage n b) (hk : 0 < k) (hk' : k + 1 < n) : Fuselage n (setX k v b) := by
  have s1 := h.sorted (k - 1) (by omega)
  have s2 := h.sorted k hk'
  rw [show k - 1 + 1 = k by omega] at s1
  have hv : allowed b k v = max (b.sec (k - 1)).x (min (b.sec (k + 1)).x v) := by
    unfold allowed
    rw [if_neg (by omega), if_pos (by rw [h.count]; exact hk')]
  have l1 : (b.sec (k - 1)).x ≤ allowed b k v := by rw [hv]; exact le_max_left _ _
  have l2 : allowed b k v ≤ (b.sec (k + 1)).x := by rw [hv]; exact max_le (s1.trans s2) (min_le_left _ _)
  refine ⟨h.count, ?_, ?_, ?_, ?_⟩
  · simp only [setX, modify, show ¬ 0 = k by omega, if_false]; exact h.nose
  · simp only [setX, modify, show ¬ n - 1 = k by omega, if_false]; exact h.end'
  · intro j hj
    simp only [setX, modify]
    by_cases e1 : j = k
    · subst e1
      simpa using l2
    · by_cases e2 : j + 1 = k
      · simp only [e1, e2, if_true, if_false]
        rwa [show k - 1 = j by omega] at l1
      · simp only [e1, e2, if_false]; exact h.sorted j hj
  · intro j hj
    simp only [setX, modify]
    have := h.points j hj
    split <;> simpa using this

/-- The bunched sections are in order and the `j`th no farther than `j` millionths from the nose. -/
theorem bunch_spec {n : ℕ} {b : Shape} (h : Fuselage n b) (m : ℕ) (hm : m + 2 ≤ n) :
    Fuselage n (bunch b m) ∧ ∀ j, j ≤ m → ((bunch b m).sec j).x ≤ 1e-6 * (j : ℝ) := by
  induction m with
  | zero =>
    refine ⟨h, fun j hj => ?_⟩
    obtain rfl : j = 0 := by omega
    simp [bunch, h.nose]
  | succ m ih =>
    obtain ⟨f, p⟩ := ih (by omega)
    refine ⟨setX_fuselage _ f (by omega) (by omega), fun j hj => ?_⟩
    simp only [bunch, setX, modify]
    by_cases e : j = m + 1
    · subst e
      simp only [if_true, allowed]
      refine max_le ?_ ((min_le_right _ _).trans (by push_cast; exact le_rfl))
      rw [if_neg (by omega), show m + 1 - 1 = m by omega]
      refine (p m le_rfl).trans ?_
      push_cast; linarith
    · simp only [e, if_false]
      exact p j (by omega)

/-- The section that shows a segment. -/
def shown (s : Segment) (point : Bool) : XSec := ⟨s.x, s.z, s.width, s.height, point⟩

theorem spread_spec (seg : ℕ → Segment) (m : ℕ) : ∀ b : Shape, (∀ j, j < m → (b.sec j).x ≤ (seg (j + 1)).x) →
    (∀ j, 1 ≤ j → j < m → (seg j).x ≤ (seg (j + 1)).x) → (1 ≤ m → (seg m).x ≤ (b.sec (m + 1)).x) → m + 1 < b.count →
    (spread seg m b).count = b.count ∧
      ∀ j, (spread seg m b).sec j = if 1 ≤ j ∧ j ≤ m then shown (seg j) (b.sec j).point else b.sec j := by
  induction m with
  | zero => intro b _ _ _ _; exact ⟨rfl, fun j => by rw [if_neg (by omega)]; rfl⟩
  | succ m ih =>
    intro b h1 h2 h3 h4
    have hv : allowed b (m + 1) (seg (m + 1)).x = (seg (m + 1)).x := by
      apply allowed_eq
      · rw [if_neg (by omega)]; exact h1 m (by omega)
      · rw [if_pos h4]; exact h3 (by omega)
    set b' := setSize (m + 1) (seg (m + 1)).width (seg (m + 1)).height (setZ (m + 1) (seg (m + 1)).z (setX (m + 1) (seg (m + 1)).x b)) with hb
    have hs : ∀ j, b'.sec j = if j = m + 1 then shown (seg (m + 1)) (b.sec j).point else b.sec j := by
      intro j
      simp only [hb, setSize, setZ, setX, modify, hv, shown]
      split <;> rfl
    obtain ⟨c, i⟩ := ih b' (fun j hj => by rw [hs, if_neg (by omega)]; exact h1 j (by omega)) (fun j h h' => h2 j h (by omega))
      (fun hm => by rw [hs, if_pos rfl]; exact h2 m hm (by omega)) (by show m + 1 < b.count; omega)
    refine ⟨c, fun j => ?_⟩
    show (spread seg m b').sec j = _
    rw [i j, hs j]
    by_cases e : j = m + 1
    · subst e; simp
    · by_cases e' : 1 ≤ j ∧ j ≤ m
      · rw [if_pos e', if_neg e, if_pos (by omega)]
      · rw [if_neg e', if_neg e, if_neg (by omega)]

/-- The fuselage `b` shows the segments: every segment at its place, each but the nose with its size if it is not a pointed tail,
between two points. -/
structure Shows (seg : ℕ → Segment) (n : ℕ) (b : Shape) : Prop where
  place : ∀ i, i < n → (b.sec i).x = (seg i).x ∧ (b.sec i).z = (seg i).z
  size : ∀ i, 0 < i → (i + 1 < n ∨ i + 1 = n ∧ 0 < (seg i).height) →
    (b.sec i).point = false ∧ (b.sec i).width = (seg i).width ∧ (b.sec i).height = (seg i).height
  nose : (b.sec 0).point = true
  close : (b.sec (b.count - 1)).point = true ∧ (b.sec (b.count - 1)).x = (seg (n - 1)).x ∧ (b.sec (b.count - 1)).z = (seg (n - 1)).z
  pointed : ¬ 0 < (seg (n - 1)).height → b.count = n
  blunt : 0 < (seg (n - 1)).height → b.count = n + 1

/-- **C436.** For two or more segments in order along the fuselage, the second not within a millionth of the length per section of the
nose, OpenVSP shows every segment at its place and with its size, whatever sections the new fuselage began with; a blunt tail is closed by a
point at the same place.  Missing: the size of the nose (`C436_nose_counterexample`), segments close to the nose
(`C436_close_counterexample`), for which a warning is printed, and a single segment (`C436_single_counterexample`). -/
theorem C436_sections_partial (seg : ℕ → Segment) (n : ℕ) (b : Shape) (hn : 2 ≤ n) (hb : Fuselage 5 b) (h0 : 0 ≤ (seg 0).x)
    (hs : ∀ i, i + 1 < n → (seg i).x ≤ (seg (i + 1)).x) (h1 : (seg (n - 1)).x ≤ 1) (hc : ((n : ℝ) - 2) * 1e-6 ≤ (seg 1).x) :
    ∃ b', exported seg n b = some b' ∧ Shows seg n b' := by
  have hmono : ∀ j, j + 1 ≤ n - 1 → (seg 1).x ≤ (seg (j + 1)).x := by
    intro j hj
    induction j with
    | zero => exact le_rfl
    | succ j ih => exact (ih (by omega)).trans (hs (j + 1) (by omega))
  have hmono' : ∀ j k, j + k ≤ n - 1 → (seg j).x ≤ (seg (j + k)).x := by
    intro j k
    induction k with
    | zero => intro _; exact le_rfl
    | succ k ih => intro hk; exact (ih (by omega)).trans (hs (j + k) (by omega))
  obtain ⟨f, p⟩ := bunch_spec (prepare_fuselage hn hb) (n - 2) (by omega)
  set b1 := bunch (prepare n b) (n - 2) with hb1
  obtain ⟨c2, s2⟩ := spread_spec seg (n - 2) b1
    (fun j hj => by
      refine (p j (by omega)).trans (le_trans ?_ (hc.trans (hmono j (by omega))))
      have : (j : ℝ) ≤ (n : ℝ) - 2 := by
        have : ((j + 2 : ℕ) : ℝ) ≤ (n : ℝ) := by exact_mod_cast (by omega : j + 2 ≤ n)
        push_cast at this; linarith
      nlinarith)
    (fun j _ hj => hs j (by omega))
    (fun hm => by
      rw [show n - 2 + 1 = n - 1 by omega, f.end']
      have := hmono' (n - 2) 1 (by omega)
      rw [show n - 2 + 1 = n - 1 by omega] at this
      linarith)
    (by rw [f.count]; omega)
  set b2 := spread seg (n - 2) b1 with hb2
  rw [f.count] at c2
  have s0 : b2.sec 0 = b1.sec 0 := by rw [s2, if_neg (by omega)]
  have sl : b2.sec (n - 1) = b1.sec (n - 1) := by rw [s2, if_neg (by omega)]
  have p0 : (b1.sec 0).point = true := (f.points 0 (by omega)).2 (Or.inl rfl)
  have pl : (b1.sec (n - 1)).point = true := (f.points (n - 1) (by omega)).2 (Or.inr rfl)
  have si : ∀ i, 0 < i → i + 1 < n → b2.sec i = shown (seg i) false := by
    intro i hi hi'
    rw [s2, if_pos (by omega)]
    congr 1
    have := f.points i (by omega)
    cases hp : (b1.sec i).point
    · rfl
    · have := this.1 hp; omega
  -- the ends
  have hall : (seg 0).x ≤ 1 := by
    have := hmono' 0 (n - 1) (by omega)
    rw [Nat.zero_add] at this
    linarith
  have a0 : allowed b2 0 (seg 0).x = (seg 0).x := by
    apply allowed_eq
    · simpa using h0
    · rw [if_pos (by omega)]
      by_cases e : n = 2
      · have : b2.sec (0 + 1) = b1.sec (n - 1) := by rw [← sl]; congr 1; omega
        rw [this, f.end']; exact hall
      · rw [si (0 + 1) (by omega) (by omega)]; exact hs 0 (by omega)
  set b3 := setZ 0 (seg 0).z (setX 0 (seg 0).x b2) with hb3
  have c3 : b3.count = n := c2
  have t3 : ∀ j, b3.sec j = if j = 0 then { b2.sec 0 with x := (seg 0).x, z := (seg 0).z } else b2.sec j := by
    intro j
    simp only [hb3, setZ, setX, modify, a0]
    by_cases e : j = 0
    · subst e; simp
    · simp [e]
  have hlast : (seg (n - 2)).x ≤ (seg (n - 1)).x := by
    have := hs (n - 2) (by omega)
    rwa [show n - 2 + 1 = n - 1 by omega] at this
  have x3 : (b3.sec (n - 2)).x = (seg (n - 2)).x := by
    rw [t3]
    by_cases e : n - 2 = 0
    · rw [if_pos e, e]
    · rw [if_neg e, si (n - 2) (by omega) (by omega)]; rfl
  have al : allowed b3 (n - 1) (seg (n - 1)).x = (seg (n - 1)).x := by
    apply allowed_eq
    · rw [if_neg (by omega), show n - 1 - 1 = n - 2 by omega, x3]; exact hlast
    · rw [if_neg (by omega)]; exact h1
  set b4 := ends seg n b2 with hb4
  have e4 : b4 = setZ (n - 1) (seg (n - 1)).z (setX (n - 1) (seg (n - 1)).x b3) := rfl
  have c4 : b4.count = n := c2
  have t4 : ∀ j, b4.sec j = if j = n - 1 then { b1.sec (n - 1) with x := (seg (n - 1)).x, z := (seg (n - 1)).z }
      else if j = 0 then { b1.sec 0 with x := (seg 0).x, z := (seg 0).z } else b2.sec j := by
    intro j
    rw [e4]
    simp only [setZ, setX, modify, al]
    by_cases e : j = n - 1
    · subst e
      have : b3.sec (n - 1) = b1.sec (n - 1) := by rw [t3, if_neg (by omega), sl]
      simp [this]
    · rw [if_neg e, if_neg e, if_neg e, t3, s0]
  have q0 : b4.sec 0 = { b1.sec 0 with x := (seg 0).x, z := (seg 0).z } := by rw [t4, if_neg (by omega), if_pos rfl]
  have ql : b4.sec (n - 1) = { b1.sec (n - 1) with x := (seg (n - 1)).x, z := (seg (n - 1)).z } := by rw [t4, if_pos rfl]
  have qi : ∀ i, 0 < i → i + 1 < n → b4.sec i = shown (seg i) false := by
    intro i hi hi'
    rw [t4, if_neg (by omega), if_neg (by omega), si i hi hi']
  have x4 : (b4.sec (n - 2)).x = (seg (n - 2)).x := by
    by_cases e : n = 2
    · rw [show n - 2 = 0 by omega, q0]
    · rw [qi (n - 2) (by omega) (by omega)]; rfl
  refine ⟨tail seg n b4, by rw [exported, if_neg (by omega)], ?_⟩
  by_cases hh : 0 < (seg (n - 1)).height
  · -- blunt tail
    set b5 := setSize (n - 1) (seg (n - 1)).width (seg (n - 1)).height (insert (n - 2) b4) with hb5
    have c5 : b5.count = n + 1 := by simp [hb5, setSize, modify, insert, c4]
    have y5 : (b5.sec (n - 2)).x = (seg (n - 2)).x := by
      simp only [hb5, setSize, modify, insert, show ¬ n - 2 = n - 1 by omega, if_false, le_refl, if_true]; exact x4
    have z5 : b5.sec n = b4.sec (n - 1) := by
      simp only [hb5, setSize, modify, insert, show ¬ n = n - 1 by omega, show ¬ n ≤ n - 2 by omega, show ¬ n = n - 2 + 1 by omega, if_false]
    have a5 : allowed b5 (n - 1) (seg (n - 1)).x = (seg (n - 1)).x := by
      apply allowed_eq
      · rw [if_neg (by omega), show n - 1 - 1 = n - 2 by omega, y5]; exact hlast
      · rw [if_pos (by omega), show n - 1 + 1 = n by omega, z5, ql]
    set b6 := setPoint n (setZ (n - 1) (seg (n - 1)).z (setX (n - 1) (seg (n - 1)).x b5)) with hb6
    have c6 : b6.count = n + 1 := c5
    have y6 : b6.sec (n - 1) = shown (seg (n - 1)) false := by
      simp only [hb6, setPoint, setZ, setX, modify, a5, show ¬ n - 1 = n by omega, if_false, if_true]
      simp only [hb5, setSize, modify, insert, if_true, show n - 1 = n - 2 + 1 by omega, shown]
      simp
    have a6 : allowed b6 n (seg (n - 1)).x = (seg (n - 1)).x := by
      apply allowed_eq
      · rw [if_neg (by omega), y6]; exact le_rfl
      · rw [if_neg (by omega)]; exact h1
    have e : tail seg n b4 = setZ n (seg (n - 1)).z (setX n (seg (n - 1)).x b6) := by
      simp only [tail, if_pos hh, hb6, hb5]
    have low : ∀ i, i + 1 < n → (tail seg n b4).sec i = b4.sec i := by
      intro i hi
      rw [e]
      simp only [setZ, setX, modify, show ¬ i = n by omega, if_false]
      simp only [hb6, hb5, setPoint, setSize, setZ, setX, modify, insert, show ¬ i = n by omega, show ¬ i = n - 1 by omega,
        show i ≤ n - 2 by omega, if_false, if_true]
    have mid : (tail seg n b4).sec (n - 1) = shown (seg (n - 1)) false := by
      rw [e]
      simp only [setZ, setX, modify, show ¬ n - 1 = n by omega, if_false]
      exact y6
    have top : (tail seg n b4).sec n = { b6.sec n with x := (seg (n - 1)).x, z := (seg (n - 1)).z } := by
      rw [e]
      simp [setZ, setX, modify, a6]
    have ct : (tail seg n b4).count = n + 1 := by rw [e]; exact c6
    refine ⟨?_, ?_, ?_, ?_, fun h => absurd hh h, fun _ => ct⟩
    · intro i hi
      by_cases e1 : i = n - 1
      · subst e1; rw [mid]; exact ⟨rfl, rfl⟩
      · rw [low i (by omega)]
        by_cases e0 : i = 0
        · subst e0; rw [q0]; exact ⟨rfl, rfl⟩
        · rw [qi i (by omega) (by omega)]; exact ⟨rfl, rfl⟩
    · intro i hi h
      by_cases e1 : i = n - 1
      · subst e1; rw [mid]; exact ⟨rfl, rfl, rfl⟩
      · rw [low i (by omega), qi i hi (by omega)]; exact ⟨rfl, rfl, rfl⟩
    · rw [low 0 (by omega), q0]; exact p0
    · rw [ct, Nat.add_sub_cancel, top]
      refine ⟨?_, rfl, rfl⟩
      simp [hb6, setPoint, modify]
  · have e : tail seg n b4 = b4 := by simp only [tail, if_neg hh]
    rw [e]
    refine ⟨?_, ?_, ?_, ?_, fun _ => c4, fun h => absurd h hh⟩
    · intro i hi
      by_cases e1 : i = n - 1
      · subst e1; rw [ql]; exact ⟨rfl, rfl⟩
      · by_cases e0 : i = 0
        · subst e0; rw [q0]; exact ⟨rfl, rfl⟩
        · rw [qi i (by omega) (by omega)]; exact ⟨rfl, rfl⟩
    · intro i hi h
      rcases h with h | ⟨h, h'⟩
      · rw [qi i hi h]; exact ⟨rfl, rfl, rfl⟩
      · obtain rfl : i = n - 1 := by omega
        exact absurd h' hh
    · rw [q0]; exact p0
    · rw [c4, ql]; exact ⟨pl, rfl, rfl⟩

/-- Five sections evenly spaced. -/
noncomputable def five : Shape := ⟨5, fun j => ⟨(j : ℝ) / 4, 0, 1, 1, decide (j = 0 ∨ j = 4)⟩⟩

theorem five_fuselage : Fuselage 5 five := by
  refine ⟨rfl, by simp [five], by norm_num [five], ?_, ?_⟩
  · intro j _; simp only [five]; push_cast; linarith
  · intro j _; simp [five]

/-- A nose that is not a point: its section is shown as a point. -/
theorem C436_nose_counterexample : ∃ (seg : ℕ → Segment) (b b' : Shape), Fuselage 5 b ∧ 0 < (seg 0).height ∧ 0 < (seg 0).width ∧
    exported seg 3 b = some b' ∧ (b'.sec 0).point = true := by
  obtain ⟨b', h, s⟩ := C436_sections_partial (fun i => ⟨(i : ℝ) / 2, 0, 1, 1⟩) 3 five (by norm_num) five_fuselage (by norm_num)
    (fun i _ => by push_cast; linarith) (by norm_num) (by norm_num)
  exact ⟨_, five, b', five_fuselage, by norm_num, by norm_num, h, s.nose⟩

/-- Sections within a millionth of the length: the third of four is put where the second was bunched. -/
theorem C436_close_counterexample : ∃ (seg : ℕ → Segment) (b b' : Shape), Fuselage 5 b ∧ (∀ i, i + 1 < 4 → (seg i).x ≤ (seg (i + 1)).x) ∧
    exported seg 4 b = some b' ∧ (seg 2).x = 2e-7 ∧ (b'.sec 2).x = 1e-6 := by
  refine ⟨fun i => ⟨if i = 3 then 1 else (i : ℝ) * 1e-7, 0, 0, 0⟩, five, _, five_fuselage, ?_, rfl, by norm_num, ?_⟩
  · intro i hi
    obtain rfl | rfl | rfl : i = 0 ∨ i = 1 ∨ i = 2 := by omega
    all_goals norm_num
  · norm_num [tail, ends, spread, bunch, prepare, insertMany, insert, cut, five, setX, setZ, setSize, modify, allowed]

/-- A fuselage of one segment is not written. -/
theorem C436_single_counterexample (seg : ℕ → Segment) (b : Shape) : exported seg 1 b = none := by
  simp [exported]

/-- Without segments the second section is at the quarter chord of the root of the main wing.  Without main wing nothing is written. -/
theorem C436_wing_partial (length x c : ℝ) (h : length ≠ 0) : ∃ p, atWing length (some (x, c)) = some p ∧ p * length = x + c / 4 :=
  ⟨_, rfl, div_mul_cancel₀ _ h⟩

theorem C436_wing_counterexample (length : ℝ) : atWing length none = none := rfl

/-- A body of four segments with a blunt tail. -/
example : ∃ b', exported (fun i => ⟨(i : ℝ) / 3, 0, i, i⟩) 4 five = some b' ∧ (b'.sec 3).height = 3 ∧ b'.count = 5 := by
  obtain ⟨b', h, s⟩ := C436_sections_partial (fun i => ⟨(i : ℝ) / 3, 0, i, i⟩) 4 five (by norm_num) five_fuselage (by norm_num)
    (fun i _ => by push_cast; linarith) (by norm_num) (by norm_num)
  refine ⟨b', h, ?_, s.blunt (by norm_num)⟩
  have := (s.size 3 (by norm_num) (Or.inr ⟨rfl, by norm_num⟩)).2.2
  rw [this]; norm_num

end Verif.Vsp.Export
