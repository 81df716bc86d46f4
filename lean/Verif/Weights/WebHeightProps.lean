import Verif.Weights.WebHeight
import Mathlib.Tactic.Linarith
import Mathlib.Tactic.NormNum
import Mathlib.Tactic.Ring

/-!
C468: heights of the webs of wings and rotor blades.
-/

namespace Verif.Weights.WebHeight

/-- A section: stations in increasing order behind the nose, where it closes, and positive thickness there. -/
structure Section (y : ℝ → ℝ) (a : ℝ) (rest : List ℝ) : Prop where
  sorted : (0 :: a :: rest).Pairwise (· < ·)
  nose : y 0 = 0
  pos : ∀ c ∈ a :: rest, 0 < y c

theorem scan_mem (p : ℝ × ℝ) : ∀ (l : List (ℝ × ℝ)), l.Pairwise (fun u v => u.1 < v.1) → p ∈ l → scan p.1 l = some p.2
  | [], _, h => by cases h
  | [q], _, h => by simp only [List.mem_singleton] at h; rw [h]; rfl
  | q :: q' :: r, hs, h => by
    have h1 := List.pairwise_cons.1 hs
    have h2 := List.pairwise_cons.1 h1.2
    unfold scan
    rcases List.mem_cons.1 h with e | h'
    · have : p.1 < q'.1 := by rw [e]; exact h1.1 q' (by simp)
      rw [if_pos this, e]; simp
    · have hle : q'.1 ≤ p.1 := by
        rcases List.mem_cons.1 h' with e | h''
        · rw [e]
        · exact (h2.1 p h'').le
      rw [if_neg (not_lt.2 hle)]
      exact scan_mem p (q' :: r) h1.2 h'

/-- Interpolation at an abscissa of an increasing table. -/
theorem interp_mem (p : ℝ × ℝ) (l : List (ℝ × ℝ)) (hs : l.Pairwise (fun u v => u.1 < v.1)) (h : p ∈ l) :
    interp p.1 l = some p.2 := by
  have hne : l ≠ [] := List.ne_nil_of_mem h
  have hl : l.getLast? = some (l.getLast hne) := List.getLast?_eq_some_getLast hne
  have hh : l.head? = some (l.head hne) := List.head?_eq_some_head hne
  have h1 : p.1 ≤ (l.getLast hne).1 := by
    have : l = l.dropLast ++ [l.getLast hne] := (List.dropLast_append_getLast hne).symm
    rw [this] at h hs
    rcases List.mem_append.1 h with hd | hd
    · exact ((List.pairwise_append.1 hs).2.2 p hd _ (by simp)).le
    · rw [List.mem_singleton] at hd; rw [← hd]
  have h2 : (l.head hne).1 ≤ p.1 := by
    cases l with
    | nil => exact absurd rfl hne
    | cons q r =>
      rcases List.mem_cons.1 h with e | h'
      · rw [e]; exact le_rfl
      · exact ((List.pairwise_cons.1 hs).1 p h').le
  simp only [interp, hh, hl]
  rw [if_neg (not_lt.2 h1), if_neg (not_lt.2 h2)]
  exact scan_mem p l hs h

/-- Beyond the last abscissa, wherever that is, the last value. -/
theorem interp_last (x : ℝ) (l : List (ℝ × ℝ)) (p : ℝ × ℝ) (h : p.1 < x) : interp x (l ++ [p]) = some p.2 := by
  have hh : ∃ q, (l ++ [p]).head? = some q := by cases l <;> simp
  obtain ⟨q, hq⟩ := hh
  simp only [interp, hq, List.getLast?_concat]
  rw [if_pos h]

section
variable {y : ℝ → ℝ} {a : ℝ} {rest : List ℝ} (S : Section y a rest) (xs w₁ : ℝ)
include S

open Classical in
theorem upper_side (ha : a ≤ w₁) :
    (((outline y xs (0 :: a :: rest)).filter fun p => p.1 ≤ w₁ - xs).filter fun p => 0 < p.2) =
      ((rest.filter fun c => c ≤ w₁).reverse.map fun c => (c - xs, y c)) ++ [(a - xs, y a)] := by
  have h1 : ∀ l : List ℝ, (∀ c ∈ l, 0 < y c) →
      (((l.map fun c => (c - xs, y c)).filter fun p => p.1 ≤ w₁ - xs).filter fun p => 0 < p.2) =
        (l.filter fun c => c ≤ w₁).map fun c => (c - xs, y c) := by
    intro l hl
    induction l with
    | nil => rfl
    | cons c r ih =>
      have hc := hl c (by simp)
      have ih' := ih fun d hd => hl d (by simp [hd])
      by_cases h : c ≤ w₁
      · simp only [List.map_cons, List.filter_cons, sub_le_sub_iff_right, h, decide_true, if_true, hc] at ih' ⊢
        rw [ih']
      · simp only [List.map_cons, List.filter_cons, sub_le_sub_iff_right, h, decide_false, Bool.false_eq_true, if_false] at ih' ⊢
        exact ih'
  have h2 : ∀ l : List ℝ, (∀ c ∈ l, 0 ≤ y c) →
      (((l.map fun c => (c - xs, -y c)).filter fun p => p.1 ≤ w₁ - xs).filter fun p => 0 < p.2) = [] := by
    intro l hl
    rw [List.filter_eq_nil_iff]
    intro p hp
    obtain ⟨c, hc, rfl⟩ := List.mem_map.1 (List.mem_of_mem_filter hp)
    have := hl c hc
    simp [this]
  have hnn : ∀ c ∈ 0 :: a :: rest, 0 ≤ y c := by
    intro c hc
    rcases List.mem_cons.1 hc with e | hc
    · rw [e, S.nose]
    · exact (S.pos c hc).le
  simp only [outline, List.filter_append, List.drop_one, List.tail_cons]
  rw [h2 _ hnn, List.append_nil, h1 _ (fun c hc => S.pos c (List.mem_reverse.1 hc))]
  simp [List.filter_reverse, ha]

open Classical in
theorem lower_side :
    (((outline y xs (0 :: a :: rest)).filter fun p => p.1 ≤ w₁ - xs).filter fun p => p.2 < 0) =
      ((a :: rest).filter fun c => c ≤ w₁).map fun c => (c - xs, -y c) := by
  have h1 : ∀ l : List ℝ, (∀ c ∈ l, 0 < y c) →
      (((l.map fun c => (c - xs, -y c)).filter fun p => p.1 ≤ w₁ - xs).filter fun p => p.2 < 0) =
        (l.filter fun c => c ≤ w₁).map fun c => (c - xs, -y c) := by
    intro l hl
    induction l with
    | nil => rfl
    | cons c r ih =>
      have hc : -y c < 0 := neg_neg_of_pos (hl c (by simp))
      have ih' := ih fun d hd => hl d (by simp [hd])
      by_cases h : c ≤ w₁
      · simp only [List.map_cons, List.filter_cons, sub_le_sub_iff_right, h, decide_true, if_true, hc] at ih' ⊢
        rw [ih']
      · simp only [List.map_cons, List.filter_cons, sub_le_sub_iff_right, h, decide_false, Bool.false_eq_true, if_false] at ih' ⊢
        exact ih'
  have h2 : ∀ l : List ℝ, (∀ c ∈ l, 0 ≤ y c) →
      (((l.map fun c => (c - xs, y c)).filter fun p => p.1 ≤ w₁ - xs).filter fun p => p.2 < 0) = [] := by
    intro l hl
    rw [List.filter_eq_nil_iff]
    intro p hp
    obtain ⟨c, hc, rfl⟩ := List.mem_map.1 (List.mem_of_mem_filter hp)
    have := hl c hc
    simp [this]
  have h3 : ((((0 :: a :: rest).map fun c => (c - xs, -y c)).filter fun p => p.1 ≤ w₁ - xs).filter fun p => p.2 < 0) =
      ((((a :: rest).map fun c => (c - xs, -y c)).filter fun p => p.1 ≤ w₁ - xs).filter fun p => p.2 < 0) := by
    rw [List.map_cons (l := a :: rest), List.filter_cons]
    split_ifs
    · rw [List.filter_cons]
      simp [S.nose]
    · rfl
  simp only [outline, List.filter_append, List.drop_one, List.tail_cons]
  rw [h2 _ (fun c hc => (S.pos c (List.mem_reverse.1 hc)).le), List.nil_append, h3, h1 _ S.pos]

/-- **C468.** False of wings: the height is made of the lower half at the web and the upper half at the first station behind the nose. -/
theorem C468_wing (w₀ chord : ℝ) (hw : w₀ ∈ rest) (h01 : w₀ ≤ w₁) (hc : 0 ≤ chord) :
    wingHeight y xs (0 :: a :: rest) (w₀ - xs) (w₁ - xs) chord = some ((y a + y w₀) * chord) := by
  classical
  have hs := List.pairwise_cons.1 S.sorted
  have hs' := List.pairwise_cons.1 hs.2
  have haw : a < w₀ := hs'.1 w₀ hw
  have hu : interp (w₀ - xs) (((outline y xs (0 :: a :: rest)).filter fun p => p.1 ≤ w₁ - xs).filter fun p => 0 < p.2) = some (y a) := by
    rw [upper_side S xs w₁ (haw.le.trans h01)]
    exact interp_last _ _ (a - xs, y a) (by simpa using haw)
  have hl : interp (w₀ - xs) (((outline y xs (0 :: a :: rest)).filter fun p => p.1 ≤ w₁ - xs).filter fun p => p.2 < 0) =
      some (-y w₀) := by
    rw [lower_side S xs w₁]
    refine interp_mem (w₀ - xs, -y w₀) _ ?_ ?_
    · rw [List.pairwise_map]
      exact (hs.2.filter _).imp fun h => by simpa using h
    · rw [List.mem_map]
      exact ⟨w₀, by simp [hw, h01], rfl⟩
  simp only [wingHeight]
  rw [hu, hl]
  have h1 := S.pos a (by simp)
  have h2 := S.pos w₀ (by simp [hw])
  simp only [Option.some.injEq]
  rw [show y a * chord - -y w₀ * chord = (y a + y w₀) * chord by ring, abs_of_nonneg (by positivity)]

/-- **C468, what holds of wings.** The height is the thickness at the web exactly where the section is as thick there as just behind the
nose. -/
theorem C468_wing_partial (w₀ chord : ℝ) (hw : w₀ ∈ rest) (h01 : w₀ ≤ w₁) (hc : 0 < chord) :
    wingHeight y xs (0 :: a :: rest) (w₀ - xs) (w₁ - xs) chord = some (2 * y w₀ * chord) ↔ y a = y w₀ := by
  rw [C468_wing S xs w₁ w₀ chord hw h01 hc.le, Option.some.injEq]
  constructor
  · intro h
    have := mul_right_cancel₀ hc.ne' h
    linarith
  · intro h; rw [h]; ring

/-- **C468 of blades.** The height is the thickness at the web, provided that rounding has left the web on a station. -/
theorem C468_blade (rnd : ℝ → ℝ) (w₀ chord : ℝ) (hw : w₀ ∈ a :: rest) (h01 : w₀ ≤ w₁) (hc : 0 ≤ chord)
    (hr : rnd (w₀ - xs) = w₀ - xs) :
    bladeHeight y xs (0 :: a :: rest) (rnd (w₀ - xs)) (w₁ - xs) chord = some (2 * y w₀ * chord) := by
  classical
  rw [hr]
  have h1 : ∀ (f : ℝ → ℝ) (l : List ℝ), l.Nodup → w₀ ∈ l →
      (((l.map fun c => (c - xs, f c)).filter fun p => p.1 ≤ w₁ - xs).filter fun p => p.1 = w₀ - xs) = [(w₀ - xs, f w₀)] := by
    intro f l
    induction l with
    | nil => intro _ h; cases h
    | cons c r ih =>
      intro hn hm
      have hn' := List.nodup_cons.1 hn
      by_cases e : c = w₀
      · subst e
        have hz : (((r.map fun d => (d - xs, f d)).filter fun p => p.1 ≤ w₁ - xs).filter fun p => p.1 = c - xs) = [] := by
          rw [List.filter_eq_nil_iff]
          intro p hp
          obtain ⟨d, hd, rfl⟩ := List.mem_map.1 (List.mem_of_mem_filter hp)
          have : d ≠ c := fun h => hn'.1 (h ▸ hd)
          simpa using this
        simp only [List.map_cons, List.filter_cons, sub_le_sub_iff_right, h01, decide_true, if_true]
        rw [hz]
      · have hm' : w₀ ∈ r := by
          rcases List.mem_cons.1 hm with h | h
          · exact absurd h.symm e
          · exact h
        have ih' := ih hn'.2 hm'
        simp only [List.map_cons, List.filter_cons, sub_le_sub_iff_right]
        split_ifs
        · rw [List.filter_cons]
          simp only [sub_left_inj, e, decide_false, Bool.false_eq_true, if_false]
          exact ih'
        · exact ih'
  have hnd : (0 :: a :: rest).Nodup := S.sorted.imp fun h => h.ne
  have hnd' := (List.nodup_cons.1 hnd).2
  simp only [bladeHeight, outline, List.filter_append, List.drop_one, List.tail_cons]
  rw [h1 y _ (List.nodup_reverse.2 hnd') (List.mem_reverse.2 hw), h1 (fun c => -y c) _ hnd (List.mem_cons_of_mem _ hw)]
  have h2 := S.pos w₀ hw
  simp only [List.cons_append, List.nil_append, List.map_cons, List.map_nil, Option.some.injEq]
  rw [show y w₀ * chord - -y w₀ * chord = 2 * y w₀ * chord by ring, abs_of_nonneg (by positivity)]

end

/-- A blade with a web that rounding has moved off the stations raises. -/
theorem C468_blade_rounding_counterexample (y : ℝ → ℝ) (xs : ℝ) (cs : List ℝ) (r₀ r₁ chord : ℝ) (h : ∀ c ∈ cs, c - xs ≠ r₀) :
    bladeHeight y xs cs r₀ r₁ chord = none := by
  classical
  have : ((outline y xs cs).filter fun p => p.1 ≤ r₁).filter (fun p => p.1 = r₀) = [] := by
    rw [List.filter_eq_nil_iff]
    intro p hp
    have hp' := List.mem_of_mem_filter hp
    simp only [outline, List.mem_append, List.mem_map, List.mem_reverse] at hp'
    rcases hp' with ⟨c, hc, rfl⟩ | ⟨c, hc, rfl⟩
    · simpa using h c (List.mem_of_mem_drop hc)
    · simpa using h c hc
  simp only [bladeHeight]
  rw [this]
  rfl

theorem half_zero (t : ℝ) : half t 0 = 0 := by simp [half]

theorem sqrt_quarter : √(1 / 4 : ℝ) = 1 / 2 := by
  rw [show (1 / 4 : ℝ) = (1 / 2) ^ 2 by norm_num, Real.sqrt_sq (by norm_num)]

theorem sqrt_ninth : √(1 / 9 : ℝ) = 1 / 3 := by
  rw [show (1 / 9 : ℝ) = (1 / 3) ^ 2 by norm_num, Real.sqrt_sq (by norm_num)]

theorem sqrt_four_ninths : √(4 / 9 : ℝ) = 2 / 3 := by
  rw [show (4 / 9 : ℝ) = (2 / 3) ^ 2 by norm_num, Real.sqrt_sq (by norm_num)]

/-- The section used, with stations at 1/9, 1/4 and 4/9 of the chord, is a section for any positive thickness. -/
theorem half_section (t : ℝ) (ht : 0 < t) : Section (half t) (1 / 9) [1 / 4, 4 / 9] where
  sorted := by norm_num
  nose := half_zero t
  pos := by
    intro c hc
    simp only [List.mem_cons, List.not_mem_nil, or_false] at hc
    rcases hc with rfl | rfl | rfl
    · unfold half; rw [sqrt_ninth]; nlinarith
    · unfold half; rw [sqrt_quarter]; nlinarith
    · unfold half; rw [sqrt_four_ninths]; nlinarith

/-- **C468, witness.** With a web at a quarter of the chord and the foremost station at a ninth, the web of a wing is reckoned lower than
the section is thick, that of a blade is not. -/
theorem C468_counterexample (t chord : ℝ) (ht : 0 < t) (hc : 0 < chord) :
    ∃ h, wingHeight (half t) (1 / 4) [0, 1 / 9, 1 / 4, 4 / 9] (1 / 4 - 1 / 4) (4 / 9 - 1 / 4) chord = some h ∧
      h < 2 * half t (1 / 4) * chord ∧
      bladeHeight (half t) (1 / 4) [0, 1 / 9, 1 / 4, 4 / 9] (1 / 4 - 1 / 4) (4 / 9 - 1 / 4) chord = some (2 * half t (1 / 4) * chord) := by
  refine ⟨_, C468_wing (half_section t ht) (1 / 4) (4 / 9) (1 / 4) chord (by simp) (by norm_num) hc.le, ?_,
    C468_blade (half_section t ht) (1 / 4) (4 / 9) id (1 / 4) chord (by simp) (by norm_num) hc.le rfl⟩
  apply mul_lt_mul_of_pos_right _ hc
  have : half t (1 / 9) < half t (1 / 4) := by
    unfold half; rw [sqrt_ninth, sqrt_quarter]; nlinarith
  linarith

/-- A web off the stations. -/
example : ∀ c ∈ [(0 : ℝ), 1 / 4, 1], c - 1 / 4 ≠ (0.06 : ℝ) := by
  intro c hc
  simp only [List.mem_cons, List.not_mem_nil, or_false] at hc
  rcases hc with rfl | rfl | rfl <;> norm_num

end Verif.Weights.WebHeight
