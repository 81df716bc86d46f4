import Verif.Optim.Compare
import Verif.Optim.TrustRegionProps

/-!
# Properties of the accuracy ratio: C418
-/

namespace Verif.Optim

variable {K : Type} [Field K] [LinearOrder K] [IsStrictOrderedRing K] {n m : Nat}

/-- Specification: actual over predicted reduction of objective plus squared violation, the prediction being that of the
model `c` that was minimized. -/
def TrueRatio (viol : (Fin m → K) → K) (c high : Level K n m) (x0 x : Fin n → K) (rho : K) : Prop :=
  (high.f x0 + viol (high.g x0) ^ 2) - (high.f x + viol (high.g x) ^ 2)
    = rho * ((c.f x0 + viol (c.g x0) ^ 2) - (c.f x + viol (c.g x) ^ 2))

omit [LinearOrder K] [IsStrictOrderedRing K] in
theorem correct_center (low high : Level K n m) (s0 s1 : Slopes K n m) (x0 : Fin n → K) :
    (low.correct high s0 s1 x0).f x0 = high.f x0 ∧ (low.correct high s0 s1 x0).g x0 = high.g x0 := by
  refine ⟨?_, ?_⟩
  · simp [Level.correct, corrected, correction]
  · funext j; simp [Level.correct, corrected, correction]

/-- **C418 (partial).** With SNOPT, after a successful solve the ratio is the actual over the predicted reduction, as
long as the prediction is not below the precision; then it is one. With SLSQP the same holds when the constraints need
no correction.  Missing: SLSQP with constraints that differ between the levels, and the steps after a failed solve. -/
theorem C418_ratio_partial (precision : K) (viol : (Fin m → K) → K) (o : Inner) (low high : Level K n m) (s0 s1 : Slopes K n m)
    (x0 x : Fin n → K)
    (ho : o = .snopt ∨ (low.g x0 = high.g x0 ∧ s0.dg = s1.dg)) :
    let c := low.correct high s0 s1 x0
    let predicted := (c.f x0 + viol (c.g x0) ^ 2) - (c.f x + viol (c.g x) ^ 2)
    (|predicted| < precision → ratio precision viol o low high s0 s1 x0 x true = 1) ∧
    (0 < precision → precision ≤ |predicted| → TrueRatio viol c high x0 x (ratio precision viol o low high s0 s1 x0 x true)) := by
  intro c predicted
  have hc := correct_center low high s0 s1 x0
  have hr : reported o low high s0 s1 x0 x true = (c.f x, c.g x) := by
    cases o with
    | snopt => rfl
    | slsqp =>
      rcases ho with ho | ⟨h1, h2⟩
      · cases ho
      · have hg : c.g x = low.g x := by
          funext j
          have h1j := congrFun h1 j
          have h2j := congrFun h2 j
          simp [c, Level.correct, corrected, correction, h1j, h2j]
        simp [reported, hg, c]
  have hp : predicted = meritFn (high.f x0) (viol (high.g x0)) - meritFn (c.f x) (viol (c.g x)) := by
    simp only [predicted, c, hc.1, hc.2, meritFn]
  have hrat : ratio precision viol o low high s0 s1 x0 x true
      = if |predicted| < precision then 1 else
        (meritFn (high.f x0) (viol (high.g x0)) - meritFn (high.f x) (viol (high.g x))) / predicted := by
    simp only [ratio, hr, accuracyRatio, hp]
  refine ⟨fun h => by rw [hrat, if_pos h], fun h0 h => ?_⟩
  have hne : predicted ≠ 0 := by
    intro h'
    rw [h', abs_zero] at h
    exact absurd h0 (not_lt.mpr h)
  rw [TrueRatio, hrat, if_neg (not_lt.mpr h)]
  change _ = _ / predicted * predicted
  rw [div_mul_cancel₀ _ hne, meritFn, meritFn]

/-- Two levels on the line: the objectives `x` and `2x`, the constraints `x - 1` and `x`. -/
def exLow : Level ℚ 1 1 := ⟨fun x => x 0, fun x _ => x 0 - 1⟩
def exHigh : Level ℚ 1 1 := ⟨fun x => 2 * x 0, fun x _ => x 0⟩
def exSlopeLow : Slopes ℚ 1 1 := ⟨fun _ => 1, fun _ _ => 1⟩
def exSlopeHigh : Slopes ℚ 1 1 := ⟨fun _ => 2, fun _ _ => 1⟩
/-- A constraint that must not be negative. -/
def exViol (g : Fin 1 → ℚ) : ℚ := max 0 (- g 0)

/-- The corrected model is the high level one; a step from 2 to 1 has the ratio one. -/
example : ratio (1 / 10 ^ 12) exViol .snopt exLow exHigh exSlopeLow exSlopeHigh (fun _ => 2) (fun _ => 1) true = 1 := by
  norm_num [ratio, reported, accuracyRatio, meritFn, Level.correct, corrected, correction, exLow, exHigh, exSlopeLow,
    exSlopeHigh, exViol]

/-- After a failed solve the ratio is one, whatever the point found by the second solve and however bad the model: the
prediction is made at the centre, where it is exact.  A step accepted there enlarges the region. -/
theorem C418_fallback_counterexample (precision : K) (hp : 0 < precision) (viol : (Fin m → K) → K) (o : Inner)
    (low high : Level K n m) (s0 s1 : Slopes K n m) (x0 x : Fin n → K) :
    ratio precision viol o low high s0 s1 x0 x false = 1 ∧
    ∀ (p : TRParams K) (size : K), p.contractThreshold < 1 → p.expandThreshold < 1 →
      updateSize p size (ratio precision viol o low high s0 s1 x0 x false) true = (size * p.expansion, .expand) := by
  have hc := correct_center low high s0 s1 x0
  have h1 : ratio precision viol o low high s0 s1 x0 x false = 1 := by
    simp only [ratio, reported, hc.1, hc.2, accuracyRatio]
    simp [hp]
  refine ⟨h1, fun p size h2 h3 => ?_⟩
  rw [h1]
  have h4 : ¬ (1 : K) < 0 := not_lt.mpr zero_le_one
  have h5 : (1 : K) ≤ 5 / 4 := by
    rw [le_div_iff₀ (by norm_num)]; norm_num
  simp [updateSize, h4, not_le.mpr h2, not_le.mpr h3, h5]

/-- With the step from 2 to 4 both objective and violation get worse by any measure of the model, yet the ratio is one. -/
example : ratio (1 / 10 ^ 12) exViol .slsqp exLow exHigh exSlopeLow exSlopeHigh (fun _ => 2) (fun _ => 4) false = 1 :=
  (C418_fallback_counterexample _ (by norm_num) _ _ _ _ _ _ _ _).1

/-- With SLSQP a step predicted exactly by the corrected model, from 2 to 0, gets the ratio 4/3, for which the region
does not grow; with SNOPT it gets one.  The constraint of the low level is counted as violated although neither the corrected nor the high
one is. -/
theorem C418_slsqp_counterexample :
    exLow.correct exHigh exSlopeLow exSlopeHigh (fun _ => 2) (K := ℚ) = exHigh ∧
    ratio (1 / 10 ^ 12) exViol .slsqp exLow exHigh exSlopeLow exSlopeHigh (fun _ => 2) (fun _ => 1 / 2) true = 12 / 11 ∧
    ratio (1 / 10 ^ 12) exViol .slsqp exLow exHigh exSlopeLow exSlopeHigh (fun _ => 2) (fun _ => 0) true = 4 / 3 ∧
    ratio (1 / 10 ^ 12) exViol .snopt exLow exHigh exSlopeLow exSlopeHigh (fun _ => 2) (fun _ => 0) true = 1 := by
  refine ⟨?_, ?_, ?_, ?_⟩
  · simp only [Level.correct, corrected, correction, exLow, exHigh, exSlopeLow, exSlopeHigh, Level.mk.injEq]
    refine ⟨?_, ?_⟩
    · funext x
      change x 0 + ∑ i : Fin 1, ((2 : ℚ) - 1) * (x i - 2) + (2 * 2 - 2) = 2 * x 0
      rw [Fin.sum_univ_one]; ring
    · funext x j
      change x 0 - 1 + ∑ i : Fin 1, ((1 : ℚ) - 1) * (x i - 2) + (2 - (2 - 1)) = x 0
      rw [Fin.sum_univ_one]; ring
  all_goals
    norm_num [ratio, reported, accuracyRatio, meritFn, Level.correct, corrected, correction, exLow, exHigh, exSlopeLow,
      exSlopeHigh, exViol, abs_of_nonneg]

end Verif.Optim
