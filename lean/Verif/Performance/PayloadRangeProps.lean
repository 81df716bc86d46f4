import Verif.Performance.PayloadRange
import Mathlib.Tactic.Linarith
import Mathlib.Tactic.NormNum
import Mathlib.Tactic.FieldSimp
import Mathlib.Tactic.Ring

/-!
# Payload-range diagram (C50, C88)
-/

namespace Verif.Performance

/-- Consistent weights: 0 < OEW ≤ MZFW ≤ MTOW, limits not negative. -/
structure Consistent (m : Masses) : Prop where
  oew : 0 < m.oew
  mzfw : m.oew ≤ m.mzfw
  mtow : m.mzfw ≤ m.mtow
  pld : 0 ≤ m.maxPayload
  fuel : 0 ≤ m.maxFuel

theorem maxPld_bounds {m : Masses} (h : Consistent m) : 0 ≤ maxPld m ∧ m.oew + maxPld m ≤ m.mzfw := by
  have := h.mzfw
  unfold maxPld
  split_ifs
  · constructor <;> linarith
  · refine ⟨le_min h.pld (by linarith), ?_⟩
    have := min_le_right m.maxPayload (m.mzfw - m.oew); linarith

theorem maxFuel_bounds {m : Masses} (h : Consistent m) : 0 ≤ maxFuel m ∧ m.oew + maxFuel m ≤ m.mtow := by
  have := h.mzfw
  have := h.mtow
  unfold maxFuel
  split_ifs
  · constructor <;> linarith
  · refine ⟨le_min h.fuel (by linarith), ?_⟩
    have := min_le_right m.maxFuel (m.mtow - m.oew); linarith

/-- **C50.** If the tanks hold the fuel that fits beside the maximum payload, then at each corner point
the take-off weight is the sum of empty weight, fuel and payload, no weight exceeds its maximum or is
negative, and payload does not increase.
Missing: smaller tanks, and the added point at zero range; see the counterexamples. -/
theorem C50_corners_partial (m : Masses) (h : Consistent m) (hf : m.mtow - m.oew - maxPld m ≤ maxFuel m) :
    ∃ l, corners m = some l ∧ l.length = 3 ∧
      (∀ p ∈ l, p.tow = m.oew + p.fuel + p.pld ∧ p.tow ≤ m.mtow ∧ m.oew + p.pld ≤ m.mzfw ∧ 0 ≤ p.pld ∧ 0 ≤ p.fuel ∧
        (m.maxFuel ≠ 0 → p.fuel ≤ m.maxFuel) ∧ (m.maxPayload ≠ 0 → p.pld ≤ m.maxPayload)) ∧
      l.Pairwise (fun p q => q.pld ≤ p.pld ∧ p.fuel ≤ q.fuel) := by
  obtain ⟨p1, p2⟩ := maxPld_bounds h
  obtain ⟨f1, f2⟩ := maxFuel_bounds h
  have ho := h.oew
  have h1 := h.mzfw
  have h2 := h.mtow
  have hp : m.maxPayload ≠ 0 → maxPld m ≤ m.maxPayload := fun hh => by unfold maxPld; rw [if_neg hh]; exact min_le_left _ _
  have hq : m.maxFuel ≠ 0 → maxFuel m ≤ m.maxFuel := fun hh => by unfold maxFuel; rw [if_neg hh]; exact min_le_left _ _
  have hmin : min (m.mtow - m.oew - maxPld m) (maxFuel m) = m.mtow - m.oew - maxPld m := min_eq_left hf
  refine ⟨_, by unfold corners; rw [if_neg (by push Not; exact ⟨by linarith, by linarith, by linarith⟩)], rfl, ?_, ?_⟩
  · intro p hp'
    simp only [List.mem_cons, List.not_mem_nil, or_false] at hp'
    rcases hp' with rfl | rfl | rfl <;> simp only [hmin]
    · exact ⟨by ring, le_rfl, p2, p1, by linarith, fun hh => hf.trans (hq hh), hp⟩
    · exact ⟨by ring, le_rfl, by linarith, by linarith, f1, hq, fun hh => le_trans (by linarith) (hp hh)⟩
    · refine ⟨by ring, f2, by linarith, le_rfl, f1, hq, fun _ => h.pld⟩
  · simp only [hmin, List.pairwise_cons, List.mem_cons, List.not_mem_nil, or_false, List.Pairwise.nil, and_true]
    refine ⟨?_, ?_, by simp⟩
    · rintro q (rfl | rfl)
      · exact ⟨by simp only; linarith, hf⟩
      · exact ⟨p1, hf⟩
    · rintro q rfl
      exact ⟨by simp only; linarith, le_rfl⟩

/-- The hypotheses hold for ordinary weights. -/
example : Consistent ⟨30000, 45000, 60000, 12000, 20000⟩ ∧
    (60000 : ℝ) - 30000 - maxPld ⟨30000, 45000, 60000, 12000, 20000⟩ ≤ maxFuel ⟨30000, 45000, 60000, 12000, 20000⟩ := by
  refine ⟨⟨by norm_num, by norm_num, by norm_num, by norm_num, by norm_num⟩, ?_⟩
  norm_num [maxPld, maxFuel]

/-- C50 is false for small tanks: at the first point take-off weight is not the sum, and at the second the payload exceeds
the maximum. -/
theorem C50_small_tanks_counterexample : Consistent ⟨30000, 45000, 60000, 12000, 10000⟩ ∧
    corners ⟨30000, 45000, 60000, 12000, 10000⟩ = some [⟨60000, 10000, 12000⟩, ⟨60000, 10000, 20000⟩, ⟨40000, 10000, 0⟩] := by
  refine ⟨⟨by norm_num, by norm_num, by norm_num, by norm_num, by norm_num⟩, ?_⟩
  norm_num [corners, maxPld, maxFuel]

/-- C50 is false at the point added for zero range: a payload is carried at take-off weight zero. -/
theorem C50_zero_range_counterexample : ∃ l, reported ⟨30000, 45000, 60000, 12000, 20000⟩ = some (⟨0, 0, 12000⟩ :: l) := by
  have h : maxPld ⟨30000, 45000, 60000, 12000, 20000⟩ = 12000 := by norm_num [maxPld]
  simp only [reported, corners, h]
  rw [if_neg (by norm_num)]
  exact ⟨_, rfl⟩

theorem iterate_spec (mission : ℝ → Flight) (tow fuel reserves : ℝ) : ∀ (k : ℕ) (err : ℝ) (r : Flight),
    (err = tow - r.endMass - fuel + reserves ∨ 1 < |err|) → 0 < k →
    (iterate mission tow fuel reserves k err r).2 = tow - (iterate mission tow fuel reserves k err r).1.endMass - fuel + reserves
  | 0, _, _, _, h => absurd h (lt_irrefl _)
  | k + 1, err, r, hr, _ => by
    unfold iterate
    split_ifs with h
    · rcases Nat.eq_zero_or_pos k with rfl | hk
      · rfl
      · exact iterate_spec mission tow fuel reserves k _ _ (Or.inl rfl) hk
    · rcases hr with hr | hr
      · exact hr
      · exact absurd hr h

/-- **C88, residual.** The residual reported at the end is the fuel burned in the last mission plus
reserves minus the fuel of the point, whatever the mission does. -/
theorem C88_residual (mission : ℝ → Flight) (tow fuel reserves d : ℝ) :
    (solvePoint mission tow fuel reserves d).2 =
      tow - (solvePoint mission tow fuel reserves d).1.endMass - fuel + reserves :=
  iterate_spec mission tow fuel reserves 10 9999 (mission d) (Or.inr (by norm_num)) (by norm_num)

/-- **C88, linear missions.** If the fuel burned in cruise is proportional to cruise distance and the
rest of the mission burns a fixed amount, the cruise distance found makes the mission burn exactly the
fuel of the point less reserves. -/
theorem C88_linear (tow fuel reserves d a b : ℝ) (hb : b ≠ 0) (hd : d ≠ 0) :
    tow - (solvePoint (fun x => ⟨tow - a - b * x, x, b * x⟩) tow fuel reserves d).1.endMass = fuel - reserves := by
  unfold solvePoint
  rw [show (10 : ℕ) = 9 + 1 from rfl, iterate]
  rw [if_pos (by norm_num)]
  simp only
  have e : d + d / (b * d) * (fuel - (tow - (tow - a - b * d)) - reserves) = (fuel - reserves - a) / b := by
    field_simp; ring
  rw [e]
  have e2 : tow - (tow - a - b * ((fuel - reserves - a) / b)) - fuel + reserves = 0 := by field_simp; ring
  rw [e2, iterate, if_neg (by norm_num)]
  simp only
  field_simp; ring

example : (2 : ℝ) ≠ 0 ∧ (1000 : ℝ) ≠ 0 := by norm_num

/-- The cruise distance tried after `x`. -/
noncomputable def nextDist (mission : ℝ → Flight) (tow fuel reserves x : ℝ) : ℝ :=
  (mission x).cruiseDist + (mission x).cruiseDist / (mission x).cruiseFuel * (fuel - (tow - (mission x).endMass) - reserves)

/-- Fuel burned changes with cruise distance by what the specific range of the cruise predicts, up to a
relative error `q`, for distances in a set which the iteration does not leave. -/
structure Predicts (mission : ℝ → Flight) (tow fuel reserves q : ℝ) (I : ℝ → Prop) : Prop where
  near : ∀ x y, I x → I y → |((mission x).endMass - (mission y).endMass) - (mission x).cruiseFuel / (mission x).cruiseDist * (y - x)|
    ≤ q * |(mission x).cruiseFuel / (mission x).cruiseDist * (y - x)|
  dist : ∀ x, I x → (mission x).cruiseDist = x
  ne : ∀ x, I x → x ≠ 0 ∧ (mission x).cruiseFuel ≠ 0
  stay : ∀ x, I x → I (nextDist mission tow fuel reserves x)

theorem iterate_contracts (mission : ℝ → Flight) (tow fuel reserves q : ℝ) (I : ℝ → Prop) (hq : 0 ≤ q) (hm : Predicts mission tow fuel reserves q I) :
    ∀ (k : ℕ) (err x : ℝ), I x → (err = tow - (mission x).endMass - fuel + reserves ∨ 1 < |err|) →
      |(iterate mission tow fuel reserves k err (mission x)).2| ≤ 1 ∨ k = 0 ∨
      |(iterate mission tow fuel reserves k err (mission x)).2| ≤ q ^ k * |tow - (mission x).endMass - fuel + reserves|
  | 0, _, _, _, _ => Or.inr (Or.inl rfl)
  | k + 1, err, x, hx, hr => by
    unfold iterate
    split_ifs with h
    · have hy := hm.stay x hx
      have hdef : nextDist mission tow fuel reserves x =
        (mission x).cruiseDist + (mission x).cruiseDist / (mission x).cruiseFuel * (fuel - (tow - (mission x).endMass) - reserves) := rfl
      simp only
      rw [← hdef]
      set y := nextDist mission tow fuel reserves x
      obtain ⟨n1, n2⟩ := hm.ne x hx
      have e : (mission x).cruiseFuel / (mission x).cruiseDist * (y - x) = fuel - (tow - (mission x).endMass) - reserves := by
        rw [hdef, hm.dist x hx]; field_simp; ring
      have h1 := hm.near x y hx hy
      rw [e] at h1
      have e2 : (mission x).endMass - (mission y).endMass - (fuel - (tow - (mission x).endMass) - reserves) = tow - (mission y).endMass - fuel + reserves := by ring
      have e3 : |fuel - (tow - (mission x).endMass) - reserves| = |tow - (mission x).endMass - fuel + reserves| := by
        rw [← abs_neg]; congr 1; ring
      rw [e2, e3] at h1
      have ih := iterate_contracts mission tow fuel reserves q I hq hm k (tow - (mission y).endMass - fuel + reserves) y hy (Or.inl rfl)
      rcases ih with ih | rfl | ih
      · exact Or.inl ih
      · right; right
        simpa [iterate] using h1
      · right; right
        refine ih.trans ?_
        rw [pow_succ, mul_assoc]
        exact mul_le_mul_of_nonneg_left h1 (pow_nonneg hq k)
    · left
      exact not_lt.1 h

/-- **C88, convergence.** If the specific range of the cruise predicts the fuel burned up to a relative
error `q`, then the final residual is at most one kilogram or at most `q ^ 10` times the first. -/
theorem C88_contraction (mission : ℝ → Flight) (tow fuel reserves q d : ℝ) (I : ℝ → Prop) (hq : 0 ≤ q) (hm : Predicts mission tow fuel reserves q I) (hd : I d) :
    |(solvePoint mission tow fuel reserves d).2| ≤ 1 ∨
    |(solvePoint mission tow fuel reserves d).2| ≤ q ^ 10 * |tow - (mission d).endMass - fuel + reserves| := by
  rcases iterate_contracts mission tow fuel reserves q I hq hm 10 9999 d hd (Or.inr (by norm_num)) with h | h | h
  · exact Or.inl h
  · exact absurd h (by norm_num)
  · exact Or.inr h

/-- A mission that burns 3 per distance of which the cruise reports 4. -/
example : Predicts (fun x => ⟨50000 - 3 * x, x, 4 * x⟩) 50000 9000 1000 0.25 (fun x => 0 < x) := by
  refine ⟨?_, fun _ _ => rfl, ?_, ?_⟩
  · intro x y hx hy
    simp only
    have e1 : 50000 - 3 * x - (50000 - 3 * y) - 4 * x / x * (y - x) = -(y - x) := by field_simp; ring
    have e2 : 4 * x / x * (y - x) = 4 * (y - x) := by field_simp
    rw [e1, e2, abs_neg, abs_mul]
    norm_num
    linarith
  · intro x hx
    exact ⟨hx.ne', by simp only; linarith⟩
  · intro x hx
    unfold nextDist
    have e : x + x / (4 * x) * (9000 - (50000 - (50000 - 3 * x)) - 1000) = 2000 + x / 4 := by field_simp; ring
    simp only [e]
    linarith

end Verif.Performance
