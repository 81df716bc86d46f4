import Verif.Performance.Vn
import Mathlib.Tactic.Linarith
import Mathlib.Tactic.NormNum
import Mathlib.Tactic.FieldSimp
import Mathlib.Tactic.Ring
import Mathlib.Tactic.Positivity
import Mathlib.Data.List.Sort

/-!
# V-n diagram (C49, C85, C86, C87)
-/

namespace Verif.Performance

/-- Minimum positive limit load factor required by the regulation; `none` where it has none. -/
noncomputable def requiredPos (p : Part) (W : ℝ) : Option ℝ :=
  match p with
  | .far25 _ => some (max 2.5 (min 3.8 (2.1 + 24000 / (W + 10000))))
  | .far23 .normal => some (min 3.8 (2.1 + 24000 / (W + 10000)))
  | .far23 .commuter => some (min 3.8 (2.1 + 24000 / (W + 10000)))
  | .far23 .utility => some 4.4
  | .far23 .acrobatic => some 6
  | _ => none

/-- The required negative limit load factor for a positive one `n`. -/
noncomputable def requiredNeg (p : Part) (n : ℝ) : ℝ :=
  match p with
  | .far25 _ => -1
  | .far23 .acrobatic => -0.5 * n
  | _ => -0.4 * n

theorem clampPos_ge (est user : ℝ) : max 2.5 (min 3.8 est) ≤ clampPos est user := by
  unfold clampPos
  split_ifs with h1 h2 h3
  · apply max_le le_rfl; exact (min_le_right _ _).trans h1.le
  · apply max_le
    · linarith [not_lt.1 h1]
    · exact (min_le_right _ _).trans h2.le
  · apply max_le
    · norm_num
    · exact min_le_left _ _
  · apply max_le
    · linarith [not_lt.1 h1]
    · exact min_le_right _ _

/-- **C49, positive.** The positive limit load factor used is never below the regulatory minimum, for
every weight and user limit. -/
theorem C49_positive (p : Part) (W pos neg n m : ℝ) (h : limitLoads p W pos neg = some (n, m)) :
    ∃ r, requiredPos p W = some r ∧ r ≤ n := by
  have hc := clampPos_ge (estimate W) pos
  have hc2 : min 3.8 (estimate W) ≤ clampPos (estimate W) pos := (le_max_right _ _).trans hc
  rcases p with c | c | _
  · simp only [limitLoads, Option.some.injEq, Prod.mk.injEq] at h
    exact ⟨_, rfl, h.1 ▸ hc⟩
  · cases c <;> simp only [limitLoads, Option.some.injEq, Prod.mk.injEq, reduceCtorEq] at h
    · exact ⟨_, rfl, h.1 ▸ hc2⟩
    · exact ⟨_, rfl, h.1 ▸ hc2⟩
    · refine ⟨_, rfl, ?_⟩
      rw [← h.1]; split_ifs with hh <;> linarith
    · refine ⟨_, rfl, ?_⟩
      rw [← h.1]; split_ifs with hh
      · norm_num
      · have := not_lt.1 hh
        norm_num at this ⊢; exact this
  · simp [limitLoads] at h

/-- **C49, user limit.** For the transport, normal and commuter rules the user's limit is respected
exactly when the estimate from weight is not below 2.5 with a larger user limit, and not above 3.8 with
a user limit between 3.8 and the estimate.  Missing: those two cases, see the counterexamples. -/
theorem C49_user_partial (est user : ℝ) :
    user ≤ clampPos est user ↔ (est < 2.5 → user ≤ 2.5) ∧ (3.8 < est → user ≤ est → user ≤ 3.8) := by
  unfold clampPos
  split_ifs with h1 h2 h3
  · constructor
    · intro h; exact ⟨fun _ => h, fun h' => by norm_num at *; linarith⟩
    · intro h; exact h.1 h1
  · exact ⟨fun _ => ⟨fun h => absurd h h1, fun _ h => absurd h (not_le.2 h2)⟩, fun _ => le_rfl⟩
  · exact ⟨fun h => ⟨fun h' => absurd h' h1, fun _ _ => h⟩, fun h => h.2 h3 (not_lt.1 h2)⟩
  · exact ⟨fun _ => ⟨fun h => absurd h h1, fun h => absurd h h3⟩, fun _ => not_lt.1 h2⟩

/-- The same for the utility and acrobatic categories: the user's limit is always respected. -/
theorem C49_user_categories (c : Cat) (hc : c = .utility ∨ c = .acrobatic) (W pos neg n m : ℝ)
    (h : limitLoads (.far23 c) W pos neg = some (n, m)) : pos ≤ n := by
  rcases hc with rfl | rfl <;> simp only [limitLoads, Option.some.injEq, Prod.mk.injEq] at h <;> rw [← h.1] <;>
    split_ifs with hh <;> linarith

/-- **C49, negative.** For a user limit that is not positive, the negative limit load factor is neither
above the required one nor above the user's. -/
theorem C49_negative (p : Part) (W pos neg n m : ℝ) (hneg : neg ≤ 0) (h : limitLoads p W pos neg = some (n, m)) :
    m ≤ requiredNeg p n ∧ m ≤ neg := by
  have key : ∀ r : ℝ, r ≤ 0 → finalNeg r neg ≤ r ∧ finalNeg r neg ≤ neg := by
    intro r hr
    unfold finalNeg
    rw [abs_of_nonpos hneg, abs_of_nonpos hr]
    split_ifs with hh
    · exact ⟨by linarith, le_rfl⟩
    · exact ⟨le_rfl, by linarith [not_lt.1 hh]⟩
  have hpos := clampPos_ge (estimate W) pos
  have hp : 2.5 ≤ clampPos (estimate W) pos := (le_max_left _ _).trans hpos
  rcases p with c | c | _
  · simp only [limitLoads, Option.some.injEq, Prod.mk.injEq] at h
    have hr : (if neg > -1 then -1 else neg) ≤ (0 : ℝ) := by split_ifs <;> linarith
    obtain ⟨k1, k2⟩ := key _ hr
    rw [← h.2]
    refine ⟨k1.trans ?_, k2⟩
    simp only [requiredNeg]
    split_ifs with hh
    · exact le_rfl
    · exact not_lt.1 hh
  · cases c <;> simp only [limitLoads, Option.some.injEq, Prod.mk.injEq, reduceCtorEq] at h <;>
      obtain ⟨rfl, rfl⟩ := h <;> simp only [requiredNeg]
    · exact key _ (by linarith)
    · exact key _ (by linarith)
    · exact key _ (by split_ifs with hh <;> linarith)
    · exact key _ (by split_ifs with hh <;> linarith)
  · simp [limitLoads] at h

example : limitLoads (.far23 .utility) 3000 5 (-2.5) = some (5, -2.5) ∧ (-2.5 : ℝ) ≤ 0 := by
  refine ⟨?_, by norm_num⟩
  simp only [limitLoads, finalNeg]
  norm_num [abs_of_pos, abs_of_neg]

/-- C49 is false for a heavy aircraft: the estimate is below 2.5 and a user limit of 3 is replaced by
2.5. -/
theorem C49_heavy_counterexample : limitLoads (.far25 .normal) 110000 3 (-1) = some (2.5, -1) := by
  simp only [limitLoads, clampPos, estimate, finalNeg]
  norm_num

/-- C49 is false for a light aircraft with a user limit of 4 when the estimate is larger still. -/
theorem C49_light_counterexample : ∃ m, limitLoads (.far23 .normal) 0 4 (-1) = some (3.8, m) := by
  simp only [limitLoads, clampPos, estimate]
  norm_num

/-- C49 is false for a negative limit given as a magnitude: the lower boundary becomes positive. -/
theorem C49_sign_counterexample : ∃ n, limitLoads (.far23 .normal) 0 4 2 = some (n, 2) := by
  simp only [limitLoads, clampPos, estimate, finalNeg]
  norm_num [abs_of_pos, abs_of_neg]

/-- Linear interpolation between the values `a` at 20 and `b` at 100 lb/ft², constant below 20. -/
noncomputable def table (a b wl : ℝ) : ℝ := a + (b - a) * (max wl 20 - 20) / 80

/-- Factors for minimum cruise and dive speeds in the regulation (23.335), at 20 and 100 lb/ft². -/
noncomputable def cruiseFactor : Cat → ℝ → ℝ
  | .acrobatic => table 36 28.6
  | _ => table 33 28.6
noncomputable def diveFactor : Cat → ℝ → ℝ
  | .acrobatic => table 1.55 1.35
  | .utility => table 1.5 1.35
  | _ => table 1.4 1.35

theorem minVc_eq (c : Cat) (wl : ℝ) : minVc c wl = cruiseFactor c wl * wl ^ (0.5 : ℝ) := by
  cases c <;> simp only [minVc, cruiseFactor, table] <;> split_ifs with h <;>
    first
      | (rw [max_eq_left h]; ring)
      | (rw [max_eq_right (not_le.1 h).le]; ring)

/-- **C85, cruise.** The final cruise speed is at least the one given, at least the regulatory minimum,
and at least both manoeuvre speeds unless these are equal. Missing: equal manoeuvre speeds, see the
counterexample. -/
theorem C85_cruise_partial (c : Cat) (wl Vc VaPos VaNeg : ℝ) (hv : 0 ≤ Vc) (h : VaPos ≠ VaNeg) :
    Vc ≤ finalVc (raiseVc Vc VaPos VaNeg) (minVc c wl) ∧
    cruiseFactor c wl * wl ^ (0.5 : ℝ) ≤ finalVc (raiseVc Vc VaPos VaNeg) (minVc c wl) ∧
    VaPos ≤ finalVc (raiseVc Vc VaPos VaNeg) (minVc c wl) ∧ VaNeg ≤ finalVc (raiseVc Vc VaPos VaNeg) (minVc c wl) := by
  have h1 : raiseVc Vc VaPos VaNeg ≤ finalVc (raiseVc Vc VaPos VaNeg) (minVc c wl) := by
    unfold finalVc; split_ifs with hh
    · exact le_of_lt hh
    · exact le_rfl
  have h2 : minVc c wl ≤ finalVc (raiseVc Vc VaPos VaNeg) (minVc c wl) := by
    unfold finalVc; split_ifs with hh
    · exact le_rfl
    · exact not_lt.1 hh
  have h3 : Vc ≤ raiseVc Vc VaPos VaNeg ∧ VaPos ≤ raiseVc Vc VaPos VaNeg ∧ VaNeg ≤ raiseVc Vc VaPos VaNeg := by
    unfold raiseVc
    split_ifs with ha hb
    · obtain ⟨a1, a2⟩ := ha
      refine ⟨?_, ?_, ?_⟩ <;> linarith
    · obtain ⟨b1, b2⟩ := hb
      refine ⟨?_, ?_, ?_⟩ <;> linarith
    · rcases lt_or_gt_of_ne h with hh | hh
      · have : ¬ VaNeg > Vc := fun h' => ha ⟨h', hh⟩
        refine ⟨le_rfl, ?_, ?_⟩ <;> linarith [not_lt.1 this]
      · have : ¬ VaPos > Vc := fun h' => hb ⟨h', hh⟩
        refine ⟨le_rfl, ?_, ?_⟩ <;> linarith [not_lt.1 this]
  exact ⟨h3.1.trans h1, minVc_eq c wl ▸ h2, h3.2.1.trans h1, h3.2.2.trans h1⟩

/-- **C85, dive.** Under Part 23 the dive speed is at least 1.15 times the cruise speed and at least the
regulatory multiple of the minimum cruise speed; under Part 25 it is 1.25 times the cruise speed. -/
theorem C85_dive (c : Cat) (wl Vc : ℝ) :
    1.15 * Vc ≤ diveVd23 c wl Vc (minVc c wl) ∧
    diveFactor c wl * (cruiseFactor c wl * wl ^ (0.5 : ℝ)) ≤ diveVd23 c wl Vc (minVc c wl) ∧ diveVd25 Vc = 5 / 4 * Vc := by
  refine ⟨?_, ?_, by unfold diveVd25; norm_num⟩
  · unfold diveVd23; split_ifs with h
    · exact le_rfl
    · exact not_lt.1 h
  · rw [← minVc_eq]
    have : baseVd23 c wl (minVc c wl) = diveFactor c wl * minVc c wl := by
      cases c <;> simp only [baseVd23, diveFactor, table] <;> split_ifs with h <;>
        first
          | (rw [max_eq_left (le_of_lt h)]; ring)
          | (rw [max_eq_right (not_lt.1 h)]; ring)
    unfold diveVd23
    rw [this]
    split_ifs with h
    · exact h.le
    · exact le_rfl

example : (0 : ℝ) ≤ 100 ∧ (120 : ℝ) ≠ 90 ∧ finalVc (raiseVc 100 120 90) 50 = 138 := by
  refine ⟨by norm_num, by norm_num, ?_⟩
  norm_num [finalVc, raiseVc]

/-- C85 is false when the manoeuvre speeds are equal: the cruise speed stays below them. -/
theorem C85_counterexample : raiseVc 100 120 120 = 100 := by norm_num [raiseVc]

theorem insertAt_end {α : Type} (pre post : List α) (x : α) : insertAt pre.length x (pre ++ post) = pre ++ [x] ++ post := by
  simp [insertAt]

theorem stallLoop_eq (load : ℝ → ℝ) (delta a : ℝ) (lower : ℕ) (rest restN : List ℝ) :
    ∀ (k i : ℕ) (v n : List ℝ), v.length = lower + i + 1 → n.length = lower + i + 1 → v[lower]? = some a →
      stallLoop load delta lower i k (v ++ rest) (n ++ restN) =
        some (v ++ ((List.range k).map fun j => a + ((i + j : ℕ) + 1) * delta) ++ rest,
          n ++ ((List.range k).map fun j => load (a + ((i + j : ℕ) + 1) * delta)) ++ restN) := by
  intro k
  induction k with
  | zero => intro i v n _ _ _; simp [stallLoop]
  | succ k ih =>
    intro i v n hv hn ha
    have hlt : lower < v.length := by omega
    have h1 : (v ++ rest)[lower]? = some a := by rw [List.getElem?_append_left hlt]; exact ha
    have e1 : insertAt (lower + i + 1) (a + (i + 1) * delta) (v ++ rest) = (v ++ [a + ((i : ℝ) + 1) * delta]) ++ rest := by
      rw [← hv, insertAt_end]
    have h2 : ((v ++ [a + ((i : ℝ) + 1) * delta]) ++ rest)[lower + i + 1]? = some (a + ((i : ℝ) + 1) * delta) := by
      rw [List.getElem?_append_left (by simp; omega), List.getElem?_append_right (by omega)]
      simp [hv]
    have e2 : insertAt (lower + i + 1) (load (a + (i + 1) * delta)) (n ++ restN) = (n ++ [load (a + ((i : ℝ) + 1) * delta)]) ++ restN := by
      rw [← hn, insertAt_end]
    simp only [stallLoop, h1, Option.bind_eq_bind, Option.bind_some, e1, h2, e2]
    rw [ih (i + 1) _ _ (by simp; omega) (by simp; omega) (by rw [List.getElem?_append_left hlt]; exact ha)]
    rw [List.range_succ_eq_map]
    have hc : ∀ j : ℕ, (((i + 1 + j : ℕ) : ℝ)) = ((i + (j + 1) : ℕ) : ℝ) := fun j => by congr 1; omega
    simp [Function.comp_def, hc, List.append_assoc]

/-- **C86.** The stall line inserts equally spaced airspeeds between the two corner points and, at the
same places, the load factors of the lift law at exactly those airspeeds; everything else stays in
place. -/
theorem C86_points (load : ℝ → ℝ) (num lower : ℕ) (pre preN post postN : List ℝ) (a b na nb : ℝ)
    (hpre : pre.length = lower) (hn : preN.length = lower) :
    stallLine load (lower + 1) lower num (pre ++ a :: b :: post) (preN ++ na :: nb :: postN) =
      some (pre ++ a :: ((List.range num).map fun j : ℕ => a + ((j : ℝ) + 1) * ((b - a) / (num + 1))) ++ b :: post,
        preN ++ na :: ((List.range num).map fun j : ℕ => load (a + ((j : ℝ) + 1) * ((b - a) / (num + 1)))) ++ nb :: postN) := by
  have h1 : (pre ++ a :: b :: post)[lower + 1]? = some b := by
    rw [List.getElem?_append_right (by omega)]; simp [hpre]
  have h2 : (pre ++ a :: b :: post)[lower]? = some a := by
    rw [List.getElem?_append_right (by omega)]; simp [hpre]
  simp only [stallLine, h1, h2, Option.bind_eq_bind, Option.bind_some]
  have := stallLoop_eq load ((b - a) / (num + 1)) a lower (b :: post) (nb :: postN) num 0 (pre ++ [a]) (preN ++ [na])
    (by simp [hpre]) (by simp [hn]) (by rw [List.getElem?_append_right (by omega)]; simp [hpre])
  simpa using this

/-- **C86, order.** If the corner airspeeds increase, so do the inserted ones, strictly between them. -/
theorem C86_between (num : ℕ) (a b : ℝ) (hab : a < b) (j : ℕ) (hj : j < num) :
    a < a + ((j : ℝ) + 1) * ((b - a) / (num + 1)) ∧ a + ((j : ℝ) + 1) * ((b - a) / (num + 1)) < b ∧
    a + ((j : ℝ) + 1) * ((b - a) / (num + 1)) < a + (((j + 1 : ℕ) : ℝ) + 1) * ((b - a) / (num + 1)) := by
  have hn : (0 : ℝ) < num + 1 := by positivity
  have hd : 0 < (b - a) / (num + 1) := div_pos (by linarith) hn
  have hj' : (j : ℝ) + 1 ≤ num := by exact_mod_cast hj
  have hnd : (num + 1) * ((b - a) / (num + 1)) = b - a := by field_simp
  refine ⟨?_, ?_, ?_⟩
  · have : 0 < ((j : ℝ) + 1) * ((b - a) / (num + 1)) := by positivity
    linarith
  · have : ((j : ℝ) + 1) * ((b - a) / (num + 1)) < (num + 1) * ((b - a) / (num + 1)) := by
      apply mul_lt_mul_of_pos_right _ hd; linarith
    linarith
  · push_cast
    nlinarith

theorem rpow_half_sq (x : ℝ) (hx : 0 ≤ x) : (x ^ (0.5 : ℝ)) ^ 2 = x := by
  rw [← Real.rpow_natCast, ← Real.rpow_mul hx]; norm_num

/-- **C86, ends.** On the stall line, the load factor at the stall speed is one and at the manoeuvre
speed is the limit load factor (with the sign of the side), all in equivalent airspeeds. -/
theorem C86_ends (kt sigma W rho S CL n : ℝ) (hkt : 0 < kt) (hs : 0 < sigma) (hW : 0 < W) (hr : 0 < rho) (hS : 0 < S) (hCL : CL ≠ 0) (hn : 0 ≤ n) :
    (0 < CL → stallLoad kt sigma W rho S CL true (keas kt sigma (stallSpeed W rho S CL)) = 1) ∧
    (0 < CL → stallLoad kt sigma W rho S CL true (keas kt sigma (manoeuvrePos W rho S CL n)) = n) ∧
    stallLoad kt sigma W rho S CL false (keas kt sigma (stallSpeed W rho S CL)) = -1 ∧
    stallLoad kt sigma W rho S CL false (keas kt sigma (manoeuvreNeg W rho S CL (-n))) = -n := by
  have hc : 0 < |CL| := abs_pos.2 hCL
  have e1 : ∀ v, keas kt sigma v / sigma * kt = v := by intro v; unfold keas; field_simp
  have e2 : stallSpeed W rho S CL ^ 2 = 2 * W / (rho * S * |CL|) := rpow_half_sq _ (by positivity)
  have e3 : manoeuvrePos W rho S CL n ^ 2 = 2 * W / (rho * S * |CL|) * n := by
    unfold manoeuvrePos; rw [mul_pow, e2, rpow_half_sq n hn]
  have e4 : manoeuvreNeg W rho S CL (-n) ^ 2 = 2 * W * n / (rho * S * |CL|) := by
    unfold manoeuvreNeg; rw [rpow_half_sq _ (by positivity), abs_neg, abs_of_nonneg hn]
  refine ⟨?_, ?_, ?_, ?_⟩
  · intro h
    simp only [stallLoad, e1, if_true, e2, abs_of_pos h]
    field_simp; norm_num
  · intro h
    simp only [stallLoad, e1, if_true, e3, abs_of_pos h]
    field_simp; norm_num
  · simp only [stallLoad, e1, Bool.false_eq_true, if_false, e2]
    field_simp; norm_num
  · simp only [stallLoad, e1, Bool.false_eq_true, if_false, e4]
    field_simp; norm_num

example : (0 : ℝ) < 1.7 ∧ (0 : ℝ) < 0.9 ∧ (0 : ℝ) < 3000 ∧ (-1.1 : ℝ) ≠ 0 ∧ (0 : ℝ) ≤ 1.52 := by norm_num

/-- A point lies on the line through two points. -/
def OnLine (x1 y1 x2 y2 : ℝ) (q : ℝ × ℝ) : Prop := (q.2 - y1) * (x2 - x1) = (y2 - y1) * (q.1 - x1)

/-- **C87, positive side.** The corner is on the gust line from `Vc` to `Vd` and has the limit load
factor. -/
theorem C87_positive (c : Cat) (load low g2 g3 Vc Vd : ℝ) (hg : g3 ≠ g2) :
    OnLine Vc g2 Vd g3 (corner c true load low g2 g3 Vc Vd) ∧ (corner c true load low g2 g3 Vc Vd).2 = load := by
  have : g3 - g2 ≠ 0 := sub_ne_zero.2 hg
  refine ⟨?_, by simp [corner]⟩
  simp only [OnLine, corner, if_true]
  field_simp
  ring

/-- **C87, negative side.** The corner is on the gust line and on the manoeuvre boundary from the lowest
load factor at `Vc` to the prescribed one at `Vd`.  Missing: the utility category, see the
counterexample. -/
theorem C87_negative_partial (c : Cat) (load low g2 g3 Vc Vd : ℝ) (hv : Vc ≠ Vd) (hc : c ≠ .utility)
    (hd : g3 - g2 + low - negAtVd c ≠ 0) :
    OnLine Vc g2 Vd g3 (corner c false load low g2 g3 Vc Vd) ∧
    OnLine Vc low Vd (negAtVd c) (corner c false load low g2 g3 Vc Vd) := by
  have hv' : Vc - Vd ≠ 0 := sub_ne_zero.2 hv
  by_cases ha : c = .acrobatic
  · have hz : negAtVd c = -1 := by simp [negAtVd, ha]
    rw [hz] at hd ⊢
    have hd' : g3 - g2 + low + 1 ≠ 0 := by intro h; apply hd; linarith
    simp only [OnLine, corner, Bool.false_eq_true, if_false, if_pos ha]
    constructor <;> field_simp <;> ring
  · have hz : negAtVd c = 0 := by simp [negAtVd, ha, hc]
    rw [hz] at hd ⊢
    have hd' : g3 - g2 + low ≠ 0 := by intro h; apply hd; linarith
    simp only [OnLine, corner, Bool.false_eq_true, if_false, if_neg ha]
    constructor <;> field_simp <;> ring

example : (100 : ℝ) ≠ 140 ∧ Cat.acrobatic ≠ .utility ∧ (-1.2 : ℝ) - (-2) + (-3) - negAtVd .acrobatic ≠ 0 := by
  refine ⟨by norm_num, by decide, ?_⟩
  norm_num [negAtVd]

/-- C87 is false in the utility category: the boundary ends at -1 at the dive speed, the corner is
computed for an end at 0. -/
theorem C87_counterexample : ¬ OnLine 100 (-2) 140 (negAtVd .utility) (corner .utility false 0 (-2) (-1) (-1) 100 140) := by
  have h : (Cat.utility = Cat.acrobatic) = False := by simp
  norm_num [OnLine, negAtVd, corner, h]

end Verif.Performance
