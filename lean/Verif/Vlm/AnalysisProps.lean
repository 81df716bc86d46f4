import Verif.Vlm.Analysis
import Verif.Num.BlendProps
import Mathlib.Tactic.Linarith
import Mathlib.Tactic.FieldSimp
import Mathlib.Data.Finset.Card
/-
Properties C262-C265 of the model in `Analysis.lean`.
-/

namespace Verif.Vlm

open Verif.Num

/-! ### C262 -/

/-- Limits in order. -/
def Limits.ordered (h : Limits) : Prop := h.subMin < h.subMax ∧ h.subMax ≤ h.supMin ∧ h.supMin < h.supMax

theorem C262_default_ordered : Limits.default.ordered := by
  unfold Limits.ordered Limits.default; norm_num

/-- C262: below, between and above the blending ranges one surrogate alone decides. -/
theorem C262_regimes (h : Limits) (ho : h.ordered) (s t p : ℝ → ℝ → ℝ) (aoa mach : ℝ) :
    (mach ≤ h.subMin → surrogate h (some s) (some t) (some p) aoa mach = some (s aoa mach)) ∧
    (h.subMax ≤ mach → mach ≤ h.supMin → surrogate h (some s) (some t) (some p) aoa mach = some (t aoa mach)) ∧
    (h.supMax ≤ mach → surrogate h (some s) (some t) (some p) aoa mach = some (p aoa mach)) := by
  obtain ⟨h1, h2, h3⟩ := ho
  refine ⟨fun hm => ?_, fun ha hb => ?_, fun hm => ?_⟩
  · simp only [surrogate]
    rw [(C29_outside h1).1 hm, (C29_outside h3).1 (by linarith)]; simp
  · simp only [surrogate]
    rw [(C29_outside h1).2 ha, (C29_outside h3).1 hb]; simp
  · simp only [surrogate]
    rw [(C29_outside h1).2 (by linarith), (C29_outside h3).2 hm]; simp

/-- C262: at every Mach number the result lies between the least and the greatest of the three
surrogates; within a blending range only the two neighbours count. -/
theorem C262_between (h : Limits) (ho : h.ordered) (s t p : ℝ → ℝ → ℝ) (aoa mach : ℝ) (lo hi : ℝ)
    (hs : lo ≤ s aoa mach ∧ s aoa mach ≤ hi) (ht : lo ≤ t aoa mach ∧ t aoa mach ≤ hi) (hp : lo ≤ p aoa mach ∧ p aoa mach ≤ hi) :
    ∃ v, surrogate h (some s) (some t) (some p) aoa mach = some v ∧ lo ≤ v ∧ v ≤ hi := by
  obtain ⟨h1, h2, h3⟩ := ho
  have a := C29_range h1 mach
  have b := C29_range h3 mach
  have hle : blend h.subMin h.subMax mach ≤ blend h.supMin h.supMax mach := by
    rcases le_total mach h.supMin with hm | hm
    · rw [(C29_outside h3).1 hm]; exact a.2
    · rw [(C29_outside h1).2 (by linarith)]; exact b.1
  refine ⟨_, rfl, ?_, ?_⟩
  · nlinarith [mul_nonneg a.1 (sub_nonneg.2 hs.1), mul_nonneg (sub_nonneg.2 hle) (sub_nonneg.2 ht.1), mul_nonneg (sub_nonneg.2 b.2) (sub_nonneg.2 hp.1)]
  · nlinarith [mul_nonneg a.1 (sub_nonneg.2 hs.2), mul_nonneg (sub_nonneg.2 hle) (sub_nonneg.2 ht.2), mul_nonneg (sub_nonneg.2 b.2) (sub_nonneg.2 hp.2)]

/-- C262: within a blending range the surrogate of the far side does not count. -/
theorem C262_neighbours (h : Limits) (ho : h.ordered) (s s' t p p' : ℝ → ℝ → ℝ) (aoa mach : ℝ) :
    (mach ≤ h.supMin → surrogate h (some s) (some t) (some p) aoa mach = surrogate h (some s) (some t) (some p') aoa mach) ∧
    (h.subMax ≤ mach → surrogate h (some s) (some t) (some p) aoa mach = surrogate h (some s') (some t) (some p) aoa mach) := by
  obtain ⟨h1, h2, h3⟩ := ho
  constructor
  · intro hm; simp only [surrogate]; rw [(C29_outside h3).1 hm]; simp
  · intro hm; simp only [surrogate]; rw [(C29_outside h1).2 hm]; simp

/-- C262: if the three surrogates are continuous in the Mach number the result is. -/
theorem C262_continuous (h : Limits) (ho : h.ordered) (s t p : ℝ → ℝ → ℝ) (aoa : ℝ) (hs : Continuous (s aoa))
    (ht : Continuous (t aoa)) (hp : Continuous (p aoa)) :
    ∃ g : ℝ → ℝ, Continuous g ∧ ∀ mach, surrogate h (some s) (some t) (some p) aoa mach = some (g mach) := by
  have c1 := C29_continuous ho.1
  have c2 := C29_continuous ho.2.2
  exact ⟨_, ((c1.mul hs).add ((c2.sub c1).mul ht)).add ((continuous_const.sub c2).mul hp), fun _ => rfl⟩

/-- C262: with training on one side of Mach 1 only, that surrogate serves for every Mach number. -/
theorem C262_one_sided (h : Limits) (s p : ℝ → ℝ → ℝ) (t : Option (ℝ → ℝ → ℝ)) (aoa mach : ℝ) :
    surrogate h (some s) t none aoa mach = some (s aoa mach) ∧ surrogate h none t (some p) aoa mach = some (p aoa mach) := by
  simp [surrogate]

/-! ### C263 -/

theorem linear3_nodes (m0 m1 m2 v0 v1 v2 : ℝ) (h1 : m0 < m1) (h2 : m1 < m2) :
    linear3 m0 m1 m2 v0 v1 v2 m0 = v0 ∧ linear3 m0 m1 m2 v0 v1 v2 m1 = v1 ∧ linear3 m0 m1 m2 v0 v1 v2 m2 = v2 := by
  unfold linear3
  refine ⟨by rw [if_pos h1]; simp, by rw [if_neg (lt_irrefl _)]; simp, ?_⟩
  rw [if_neg (by linarith), mul_div_assoc, div_self (by linarith)]; ring

/-- C263: at the training angles the transonic lift agrees with the training data at the last subsonic and the first two
supersonic Mach numbers, and is linear between neighbours. -/
theorem C263_lift (machSub liftSub dragSub : List ℝ) (m0 l0 d0 m1 m2 l1 l2 d1 d2 : ℝ) (mr lr dr : List ℝ) (h1 : m0 < m1) (h2 : m1 < m2)
    (cl cd : ℝ → ℝ) (h : transSurrogates (machSub ++ [m0]) (m1 :: m2 :: mr) (liftSub ++ [l0]) (l1 :: l2 :: lr) (dragSub ++ [d0]) (d1 :: d2 :: dr) = some (cl, cd)) :
    (cl m0 = l0 ∧ cl m1 = l1 ∧ cl m2 = l2) ∧ (∀ w, 0 ≤ w → w ≤ 1 → cl ((1 - w) * m0 + w * m1) = (1 - w) * l0 + w * l1) ∧
    (∀ w, 0 ≤ w → w ≤ 1 → cl ((1 - w) * m1 + w * m2) = (1 - w) * l1 + w * l2) := by
  simp [transSurrogates, transLift, transDrag] at h
  obtain ⟨rfl, -⟩ := h
  refine ⟨linear3_nodes _ _ _ _ _ _ h1 h2, fun w hw0 hw1 => ?_, fun w hw0 hw1 => ?_⟩
  · rcases eq_or_lt_of_le hw1 with rfl | hw
    · have := (linear3_nodes m0 m1 m2 l0 l1 l2 h1 h2).2.1
      simpa using this
    · unfold linear3
      rw [if_pos (by nlinarith)]
      have : m1 - m0 ≠ 0 := by linarith
      field_simp; ring
  · unfold linear3
    rw [if_neg (by nlinarith)]
    have : m2 - m1 ≠ 0 := by linarith
    field_simp; ring

/-- C263 up to the first supersonic training Mach number: the transonic drag agrees with the data. -/
theorem C263_drag_partial (machSub liftSub dragSub : List ℝ) (m0 l0 d0 m1 m2 l1 l2 d1 d2 : ℝ) (mr lr dr : List ℝ) (h1 : m0 < m1) (h2 : m1 < m2)
    (cl cd : ℝ → ℝ) (h : transSurrogates (machSub ++ [m0]) (m1 :: m2 :: mr) (liftSub ++ [l0]) (l1 :: l2 :: lr) (dragSub ++ [d0]) (d1 :: d2 :: dr) = some (cl, cd)) :
    cd m0 = d0 ∧ cd m1 = d1 ∧ ∀ w, 0 ≤ w → w ≤ 1 → cd ((1 - w) * m0 + w * m1) = (1 - w) * d0 + w * d1 := by
  simp [transSurrogates, transLift, transDrag] at h
  obtain ⟨-, rfl⟩ := h
  have hn := linear3_nodes m0 m1 m2 d0 d1 0 h1 h2
  refine ⟨hn.1, hn.2.1, fun w hw0 hw1 => ?_⟩
  rcases eq_or_lt_of_le hw1 with rfl | hw
  · simpa using hn.2.1
  · unfold linear3
    rw [if_pos (by nlinarith)]
    have : m1 - m0 ≠ 0 := by linarith
    field_simp; ring

/-- At the second supersonic training Mach number the transonic drag of the aircraft is zero whatever was
computed, while that of each wing is the computed one. -/
theorem C263_drag_counterexample (machSub liftSub dragSub : List ℝ) (m0 l0 d0 m1 m2 l1 l2 d1 d2 : ℝ) (mr lr dr : List ℝ) (h1 : m0 < m1) (h2 : m1 < m2)
    (cl cd : ℝ → ℝ) (h : transSurrogates (machSub ++ [m0]) (m1 :: m2 :: mr) (liftSub ++ [l0]) (l1 :: l2 :: lr) (dragSub ++ [d0]) (d1 :: d2 :: dr) = some (cl, cd)) :
    cd m2 = 0 ∧ (transWingDrag (dragSub ++ [d0]) (d1 :: d2 :: dr)).map (fun v => linear3 m0 m1 m2 v.1 v.2.1 v.2.2 m2) = some d2 := by
  simp [transSurrogates, transLift, transDrag] at h
  obtain ⟨-, rfl⟩ := h
  refine ⟨(linear3_nodes m0 m1 m2 d0 d1 0 h1 h2).2.2, ?_⟩
  simp [transWingDrag, transLift, (linear3_nodes m0 m1 m2 d0 d1 d2 h1 h2).2.2]

example : ∃ c, transSurrogates ([] ++ [9 / 10]) (13 / 10 :: 27 / 20 :: []) ([] ++ [1]) (2 :: 3 :: []) ([] ++ [1]) (2 :: 3 :: []) = some c := by
  simp [transSurrogates, transLift, transDrag]

/-- A single supersonic training Mach number fails. -/
theorem C263_single_counterexample (machSub machSup liftSub dragSub dragSup : List ℝ) (l1 : ℝ) :
    transSurrogates machSub machSup liftSub [l1] dragSub dragSup = none := by
  simp only [transSurrogates, transLift]
  cases liftSub.getLast? <;> simp

/-! ### C264 -/

theorem filter_range_lt (k : Nat) : ∀ n, k ≤ n → (List.range n).filter (fun i => decide (i < k)) = List.range k := by
  intro n
  induction n with
  | zero => intro h; simp [Nat.le_zero.1 h]
  | succ n ih =>
    intro h
    rw [List.range_succ, List.filter_append]
    rcases Nat.lt_or_ge n k with hk | hk
    · have : k = n + 1 := by omega
      subst this
      have : (List.range n).filter (fun i => decide (i < n + 1)) = List.range n := by
        rw [List.filter_eq_self]
        intro a ha
        have := List.mem_range.1 ha
        simp; omega
      rw [this]
      simp [List.range_succ]
    · rw [ih hk]
      have : ¬ n < k := by omega
      simp [this]

theorem split_eq (n k : Nat) (m : Nat → ℝ) (hk : k ≤ n) (h : ∀ i < n, m i < 1 ↔ i < k) : split n m = k := by
  unfold split
  have : (List.range n).filter (fun i => decide (m i < 1)) = List.range k := by
    rw [← filter_range_lt k n hk]
    refine List.filter_congr fun i hi => ?_
    rw [decide_eq_decide]
    exact h i (List.mem_range.1 hi)
  rw [this]
  cases k with
  | zero => rfl
  | succ k => rw [List.range_succ, List.getLast?_append]; simp

theorem countSub_eq (n k : Nat) (m : Nat → ℝ) (hk : k ≤ n) (h : ∀ i < n, m i < 1 ↔ i < k) : countSub n m = k := by
  unfold countSub
  have : (List.range n).filter (fun i => decide (m i < 1)) = List.range k := by
    rw [← filter_range_lt k n hk]
    refine List.filter_congr fun i hi => ?_
    rw [decide_eq_decide]
    exact h i (List.mem_range.1 hi)
  rw [this, List.length_range]

/-- C264: with the subsonic training Mach numbers before the others, the entry of a table at an angle and a Mach number is
the vortex lattice's coefficient at that angle and Mach number. -/
theorem C264_tables (nA nM nSub : Nat) (hA : 0 < nA) (hS : nSub ≤ nM) (aoa mach : Nat → ℝ) (f : ℝ → ℝ → ℝ)
    (hm : ∀ i < nM, mach i < 1 ↔ i < nSub) :
    ∃ sub sup, tables nA nM aoa mach f = some (sub, sup) ∧
      (∀ a < nA, ∀ m < nSub, sub a m = f (aoa a) (mach m)) ∧
      (∀ a < nA, ∀ m < nM - nSub, sup a m = f (aoa a) (mach (nSub + m))) := by
  have hk : split (nM * nA) (trainMach nA mach) = nSub * nA := by
    refine split_eq _ _ _ (Nat.mul_le_mul_right _ hS) fun i hi => ?_
    unfold trainMach
    rw [hm _ ((Nat.div_lt_iff_lt_mul hA).2 hi), Nat.div_lt_iff_lt_mul hA]
  have hc : countSub nM mach = nSub := countSub_eq _ _ _ hS hm
  simp only [tables]
  rw [hk, hc, if_pos ⟨rfl, (Nat.sub_mul _ _ _).symm⟩]
  refine ⟨_, _, rfl, fun a ha m _ => ?_, fun a ha m _ => ?_⟩
  · simp only [trainAoA, trainMach]
    rw [Nat.add_comm (m * nA), Nat.add_mul_mod_self_right, Nat.mod_eq_of_lt ha, Nat.add_mul_div_right _ _ hA, Nat.div_eq_of_lt ha]
    simp
  · simp only [trainAoA, trainMach]
    rw [← Nat.add_assoc, ← Nat.add_mul, Nat.add_comm ((nSub + m) * nA), Nat.add_mul_mod_self_right, Nat.mod_eq_of_lt ha,
      Nat.add_mul_div_right _ _ hA, Nat.div_eq_of_lt ha]
    simp

example : ∃ mach : Nat → ℝ, ∀ i < 3, mach i < 1 ↔ i < 2 := ⟨fun i => if i < 2 then 1 / 2 else 2, fun i _ => by
  by_cases h : i < 2 <;> (simp [h]; try norm_num)⟩

/-- The tables exist only if the subsonic Mach numbers come first. -/
theorem tables_ordered (nA nM : Nat) (hA : 0 < nA) (aoa mach : Nat → ℝ) (f : ℝ → ℝ → ℝ) (r)
    (h : tables nA nM aoa mach f = some r) : ∀ i < nM, mach i < 1 ↔ i < countSub nM mach := by
  classical
  simp only [tables] at h
  split_ifs at h with hc
  have hk := hc.1
  set n := countSub nM mach with hn
  have hup : ∀ j < nM, mach j < 1 → j < n := by
    intro j hj hm
    unfold split at hk
    have hmem : j * nA ∈ (List.range (nM * nA)).filter fun i => decide (trainMach nA mach i < 1) := by
      rw [List.mem_filter, List.mem_range, decide_eq_true_eq]
      refine ⟨Nat.mul_lt_mul_of_pos_right hj hA, ?_⟩
      rw [trainMach, Nat.mul_div_cancel _ hA]; exact hm
    have hsorted : ((List.range (nM * nA)).filter fun i => decide (trainMach nA mach i < 1)).Pairwise (· < ·) :=
      List.Pairwise.filter _ List.pairwise_lt_range
    generalize ((List.range (nM * nA)).filter fun i => decide (trainMach nA mach i < 1)) = l at hk hmem hsorted
    cases hl : l.getLast? with
    | none => rw [List.getLast?_eq_none_iff] at hl; rw [hl] at hmem; simp at hmem
    | some i =>
      rw [hl] at hk
      obtain ⟨ys, rfl⟩ := List.getLast?_eq_some_iff.1 hl
      have hle : j * nA ≤ i := by
        rcases List.mem_append.1 hmem with hy | hy
        · exact ((List.pairwise_append.1 hsorted).2.2 _ hy i (by simp)).le
        · simp only [List.mem_singleton] at hy; omega
      have : j * nA < n * nA := by simp only at hk; omega
      exact lt_of_mul_lt_mul_right this (Nat.zero_le _)
  have hsub : ((List.range nM).filter fun i => decide (mach i < 1)).toFinset ⊆ Finset.range n := by
    intro j hj
    rw [List.mem_toFinset, List.mem_filter, List.mem_range, decide_eq_true_eq] at hj
    exact Finset.mem_range.2 (hup j hj.1 hj.2)
  have hcard : ((List.range nM).filter fun i => decide (mach i < 1)).toFinset.card = n := by
    rw [List.toFinset_card_of_nodup (List.nodup_range.filter _)]; rfl
  have heq := Finset.eq_of_subset_of_card_le hsub (by rw [hcard, Finset.card_range])
  intro i hi
  refine ⟨hup i hi, fun hlt => ?_⟩
  have : i ∈ ((List.range nM).filter fun i => decide (mach i < 1)).toFinset := by rw [heq]; exact Finset.mem_range.2 hlt
  rw [List.mem_toFinset, List.mem_filter, decide_eq_true_eq] at this
  exact this.2

/-- C264: whatever the order of the training Mach numbers, tables that are returned hold the coefficients of their rows and
columns: column `m` of the second belongs to the `m`-th Mach number after the subsonic ones. -/
theorem C264_sound (nA nM : Nat) (hA : 0 < nA) (aoa mach : Nat → ℝ) (f : ℝ → ℝ → ℝ) (sub sup : Nat → Nat → ℝ)
    (h : tables nA nM aoa mach f = some (sub, sup)) :
    ∃ nSub ≤ nM, (∀ i < nM, mach i < 1 ↔ i < nSub) ∧ (∀ a < nA, ∀ m < nSub, sub a m = f (aoa a) (mach m)) ∧
      (∀ a < nA, ∀ m < nM - nSub, sup a m = f (aoa a) (mach (nSub + m))) := by
  have hle : countSub nM mach ≤ nM := by
    unfold countSub
    exact (List.length_filter_le _ _).trans (by rw [List.length_range])
  have ho := tables_ordered nA nM hA aoa mach f _ h
  obtain ⟨s, p, hsp, h1, h2⟩ := C264_tables nA nM _ hA hle aoa mach f ho
  rw [h, Option.some.injEq, Prod.mk.injEq] at hsp
  obtain ⟨rfl, rfl⟩ := hsp
  exact ⟨_, hle, ho, h1, h2⟩

/-- A training set with a supersonic Mach number first fails. -/
theorem C264_order_counterexample (aoa : Nat → ℝ) (f : ℝ → ℝ → ℝ) :
    tables 1 2 aoa (fun i => if i = 0 then 2 else 1 / 2) f = none := by
  have h0 : ¬ (2 : ℝ) < 1 := by norm_num
  have h1 : (1 / 2 : ℝ) < 1 := by norm_num
  have hs : split (2 * 1) (trainMach 1 fun i => if i = 0 then 2 else 1 / 2) = 2 := by
    unfold split trainMach
    simp [List.range_succ, List.filter_cons, h0]
    norm_num
  have hc : countSub 2 (fun i => if i = 0 then 2 else 1 / 2) = 1 := by
    unfold countSub
    simp [List.range_succ, List.filter_cons, h0]
    norm_num
  simp only [tables]
  rw [hs, hc, if_neg (by omega)]

/-! ### C265 -/

/-- C265: the coefficients of the wings, each times its reference area, add up to the force on all surfaces of the
lattice, and every wing gets one. -/
theorem C265_sum : ∀ (ws : List (Bool × ℝ)) (d : List ℝ) (_hr : ∀ w ∈ ws, w.2 ≠ 0)
    (_hl : d.length = (ws.map fun w => if w.1 then 2 else 1).sum),
    ∃ c, wingCoefficients ws d = some c ∧ c.length = ws.length ∧ (List.zipWith (fun c w => c * w.2) c ws).sum = d.sum
  | [], d, _, hl => by
    have : d = [] := by simpa using hl
    subst this
    exact ⟨[], by simp [wingCoefficients]⟩
  | (true, ref) :: ws, d, hr, hl => by
    match d, hl with
    | [], hl => simp at hl; omega
    | [x], hl => simp at hl; omega
    | x :: y :: d, hl =>
      simp only [List.map_cons, List.sum_cons, List.length_cons, if_true] at hl
      obtain ⟨c, h1, h2, h3⟩ := C265_sum ws d (fun w hw => hr w (by simp [hw])) (by omega)
      refine ⟨(x + y) / ref :: c, by simp [wingCoefficients, h1], by simp [h2], ?_⟩
      simp only [List.zipWith_cons_cons, List.sum_cons, h3]
      rw [div_mul_cancel₀ _ (hr (true, ref) (by simp))]; ring
  | (false, ref) :: ws, d, hr, hl => by
    match d, hl with
    | [], hl => simp at hl; omega
    | x :: d, hl =>
      simp only [List.map_cons, List.sum_cons, List.length_cons, Bool.false_eq_true, if_false] at hl
      obtain ⟨c, h1, h2, h3⟩ := C265_sum ws d (fun w hw => hr w (by simp [hw])) (by omega)
      refine ⟨x / ref :: c, by simp [wingCoefficients, h1], by simp [h2], ?_⟩
      simp only [List.zipWith_cons_cons, List.sum_cons, h3]
      rw [div_mul_cancel₀ _ (hr (false, ref) (by simp))]

example : [(1 : ℝ), 2, 3].length = ([(true, (10 : ℝ)), (false, 5)].map fun w => if w.1 then 2 else 1).sum := by simp

/-- C265: each wing gets its own surfaces: those of the wings before it do not matter, and a symmetric wing has two. -/
theorem C265_own (pre : List (Bool × ℝ)) (w : Bool × ℝ) (post : List (Bool × ℝ)) : ∀ (dpre mine dpost : List ℝ) (c : List ℝ)
    (_hp : dpre.length = (pre.map fun w => if w.1 then 2 else 1).sum) (_hm : mine.length = if w.1 then 2 else 1)
    (_h : wingCoefficients (pre ++ w :: post) (dpre ++ mine ++ dpost) = some c),
    c[pre.length]? = some (mine.sum / w.2) := by
  induction pre with
  | nil =>
    intro dpre mine dpost c hp hm h
    have : dpre = [] := by simpa using hp
    subst this
    obtain ⟨b, ref⟩ := w
    cases b with
    | true =>
      match mine, hm with
      | [x, y], _ =>
        simp only [List.nil_append, List.cons_append, wingCoefficients, Option.map_eq_some_iff] at h
        obtain ⟨c', -, rfl⟩ := h
        simp
    | false =>
      match mine, hm with
      | [x], _ =>
        simp only [List.nil_append, List.cons_append, wingCoefficients, Option.map_eq_some_iff] at h
        obtain ⟨c', -, rfl⟩ := h
        simp
  | cons v pre ih =>
    intro dpre mine dpost c hp hm h
    obtain ⟨b, ref⟩ := v
    cases b with
    | true =>
      match dpre, hp with
      | [], hp => simp at hp; omega
      | [x], hp => simp at hp; omega
      | x :: y :: d, hp =>
        simp only [List.cons_append, wingCoefficients, Option.map_eq_some_iff] at h
        obtain ⟨c', hc, rfl⟩ := h
        have := ih d mine dpost c' (by simp at hp; omega) hm (by simpa using hc)
        simpa using this
    | false =>
      match dpre, hp with
      | [], hp => simp at hp; omega
      | x :: d, hp =>
        simp only [List.cons_append, wingCoefficients, Option.map_eq_some_iff] at h
        obtain ⟨c', hc, rfl⟩ := h
        have := ih d mine dpost c' (by simp at hp; omega) hm (by simpa using hc)
        simpa using this

end Verif.Vlm
