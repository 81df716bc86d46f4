import Verif.Optim.TrustRegion
import Verif.Nexus.Table
import Mathlib.Tactic.Linarith
import Mathlib.Tactic.FieldSimp
import Mathlib.Tactic.Ring
import Mathlib.Tactic.NormNum
import Mathlib.Analysis.Calculus.Deriv.Add
import Mathlib.Analysis.Calculus.Deriv.Mul
import Mathlib.Algebra.Order.BigOperators.Group.List
/-!
C19 (corrections), C20 (step control), C55 (returned point), C56 (constraint forms).
-/

namespace Verif.Optim

variable {K : Type} [Field K] [LinearOrder K]

/-! ### C19 -/

section
omit [LinearOrder K]

/-- **C19, value.** At the centre the corrected low-fidelity model equals the high-fidelity
value. -/
theorem C19_value {n : Nat} (low high : (Fin n → K) → K) (df0 df1 : Fin n → K) (x0 : Fin n → K) :
    corrected low (correction (low x0) (high x0) df0 df1) x0 x0 = high x0 := by
  simp [corrected, correction]

/-- **C19, gradient as the code measures it.** With both gradients taken by
`Nexus.finite_difference` with the same non-zero step, the corrected model has, at the
centre, exactly the finite-difference gradient of the high-fidelity model. -/
theorem C19_gradient_fd {n : Nat} (low high : (Fin n → K) → K) (x0 : Fin n → K) (h : K) (hh : h ≠ 0) :
    let df0 := Nexus.fdGrad low x0 h
    let df1 := Nexus.fdGrad high x0 h
    Nexus.fdGrad (corrected low (correction (low x0) (high x0) df0 df1) x0) x0 h = Nexus.fdGrad high x0 h := by
  intro df0 df1
  funext i
  have hs : (∑ j, (df1 j - df0 j) * (Function.update x0 i (x0 i + h) j - x0 j)) = (df1 i - df0 i) * h := by
    rw [Finset.sum_eq_single i]
    · simp
    · intro j _ hj; simp [hj]
    · intro hi; exact absurd (Finset.mem_univ i) hi
  have e : Nexus.fdGrad (corrected low (correction (low x0) (high x0) df0 df1) x0) x0 h i
      = df0 i + (df1 i - df0 i) := by
    simp only [Nexus.fdGrad, corrected, correction, sub_self, mul_zero, Finset.sum_const_zero, hs]
    have : df0 i = (low (Function.update x0 i (x0 i + h)) - low x0) / h := rfl
    generalize low (Function.update x0 i (x0 i + h)) = a at *
    generalize df1 i - df0 i = d at *
    rw [this]
    field_simp
    ring
  rw [e]
  show df0 i + (df1 i - df0 i) = df1 i
  ring

example : (1 / 100 : ℚ) ≠ 0 := by norm_num

end

/-- **C19, true partial derivatives.** If `df0`, `df1` are the partial derivatives of the low
and high models at the centre, the corrected model has the partial derivatives of the high
one there. -/
theorem C19_gradient_deriv {n : Nat} (low high : (Fin n → ℝ) → ℝ) (df0 df1 : Fin n → ℝ) (x0 : Fin n → ℝ)
    (i : Fin n) (h0 : HasDerivAt (fun t => low (Function.update x0 i t)) (df0 i) (x0 i)) :
    HasDerivAt (fun t => corrected low (correction (low x0) (high x0) df0 df1) x0 (Function.update x0 i t))
      (df1 i) (x0 i) := by
  have hs : ∀ t, (∑ j, (df1 j - df0 j) * (Function.update x0 i t j - x0 j)) = (df1 i - df0 i) * (t - x0 i) := by
    intro t
    rw [Finset.sum_eq_single i]
    · simp
    · intro j _ hj; simp [hj]
    · intro hi; exact absurd (Finset.mem_univ i) hi
  simp only [corrected, correction, hs]
  have h1 : HasDerivAt (fun t : ℝ => (df1 i - df0 i) * (t - x0 i)) ((df1 i - df0 i) * 1) (x0 i) :=
    ((hasDerivAt_id (x0 i)).sub_const (x0 i)).const_mul _
  have h2 := (h0.add h1).add_const (high x0 - low x0)
  have e : df0 i + (df1 i - df0 i) * 1 = df1 i := by ring
  rw [e] at h2
  exact h2

example : HasDerivAt (fun t => (fun y : Fin 1 → ℝ => y 0) (Function.update (fun _ => 0) 0 t)) 1 ((fun _ => (0:ℝ)) (0 : Fin 1)) := by
  simpa using hasDerivAt_id' (0 : ℝ)

/-! ### C20: one step -/

/-- **C20, decision table.** The size is multiplied by the contraction factor, by the
expansion factor, or kept, and: it contracts whenever the step was rejected or the accuracy
ratio is negative or not above the contraction threshold; it expands only for an accepted
step whose ratio is above the expansion threshold and at most 1.25. -/
theorem C20_decision (p : TRParams K) (size rho : K) (acc : Bool) :
    ((acc = false ∨ rho < 0 ∨ rho ≤ p.contractThreshold) → updateSize p size rho acc = (size * p.contraction, .shrink)) ∧
    ((acc = true ∧ 0 ≤ rho ∧ p.contractThreshold < rho ∧ p.expandThreshold < rho ∧ rho ≤ 5 / 4) →
      updateSize p size rho acc = (size * p.expansion, .expand)) ∧
    ((acc = true ∧ 0 ≤ rho ∧ p.contractThreshold < rho ∧ (rho ≤ p.expandThreshold ∨ 5 / 4 < rho)) →
      updateSize p size rho acc = (size, .keep)) := by
  unfold updateSize
  refine ⟨?_, ?_, ?_⟩
  · intro h
    cases acc with
    | false => simp
    | true =>
      simp only [Bool.true_eq_false, false_or] at h
      simp only [Bool.not_true, Bool.false_eq_true, if_false]
      split
      · rfl
      · rename_i h0
        rcases h with h | h
        · exact absurd h h0
        · rw [if_pos h]
  · rintro ⟨rfl, h1, h2, h3, h4⟩
    simp [not_lt.2 h1, not_le.2 h2, not_le.2 h3, h4]
  · rintro ⟨rfl, h1, h2, h3⟩
    simp only [Bool.not_true, Bool.false_eq_true, if_false, if_neg (not_lt.2 h1), if_neg (not_le.2 h2)]
    rcases h3 with h3 | h3
    · rw [if_pos h3]
    · split
      · rfl
      · rw [if_neg (not_le.2 h3)]

variable [IsStrictOrderedRing K]

omit [IsStrictOrderedRing K] in
/-- The three cases of `C20_decision` are exhaustive. -/
theorem C20_decision_total (p : TRParams K) (rho : K) (acc : Bool) :
    (acc = false ∨ rho < 0 ∨ rho ≤ p.contractThreshold) ∨
    (acc = true ∧ 0 ≤ rho ∧ p.contractThreshold < rho ∧ p.expandThreshold < rho ∧ rho ≤ 5 / 4) ∨
    (acc = true ∧ 0 ≤ rho ∧ p.contractThreshold < rho ∧ (rho ≤ p.expandThreshold ∨ 5 / 4 < rho)) := by
  cases acc with
  | false => simp
  | true =>
    rcases lt_or_ge rho 0 with h0 | h0
    · exact Or.inl (Or.inr (Or.inl h0))
    · rcases le_or_gt rho p.contractThreshold with h1 | h1
      · exact Or.inl (Or.inr (Or.inr h1))
      · rcases le_or_gt rho p.expandThreshold with h2 | h2
        · exact Or.inr (Or.inr ⟨rfl, h0, h1, Or.inl h2⟩)
        · rcases le_or_gt rho (5 / 4) with h3 | h3
          · exact Or.inr (Or.inl ⟨rfl, h0, h1, h2, h3⟩)
          · exact Or.inr (Or.inr ⟨rfl, h0, h1, Or.inr h3⟩)

theorem updateSize_pos (p : TRParams K) (hc : 0 < p.contraction) (he : 0 < p.expansion)
    (size rho : K) (acc : Bool) (h : 0 < size) : 0 < (updateSize p size rho acc).1 := by
  obtain ⟨h1, h2, h3⟩ := C20_decision p size rho acc
  rcases C20_decision_total p rho acc with h' | h' | h'
  · rw [h1 h']; exact mul_pos h hc
  · rw [h2 h']; exact mul_pos h he
  · rw [h3 h']; exact h

omit [IsStrictOrderedRing K] in
theorem updateSize_cases (p : TRParams K) (size rho : K) (a : Bool) :
    (updateSize p size rho a).1 = size * p.contraction ∨ (updateSize p size rho a).1 = size ∨
      (updateSize p size rho a).1 = size * p.expansion := by
  obtain ⟨h1, h2, h3⟩ := C20_decision p size rho a
  rcases C20_decision_total p rho a with h' | h' | h'
  · rw [h1 h']; exact Or.inl rfl
  · rw [h2 h']; exact Or.inr (Or.inr rfl)
  · rw [h3 h']; exact Or.inr (Or.inl rfl)

/-- **C20, sampled box.** Any point in the box handed to the inner optimizer lies in the trust
region around the centre and within the variable bounds. -/
theorem C20_box {n : Nat} (xlow xup x y : Fin n → K) (size : K)
    (hl : ∀ i, lowerBox xlow x size i ≤ y i) (hu : ∀ i, y i ≤ upperBox xup x size i) (i : Fin n) :
    |y i - x i| ≤ size ∧ xlow i ≤ y i ∧ y i ≤ xup i := by
  have h1 := hl i
  have h2 := hu i
  unfold lowerBox at h1
  unfold upperBox at h2
  rw [max_le_iff] at h1
  rw [le_min_iff] at h2
  refine ⟨abs_le.2 ⟨by linarith [h1.2], by linarith [h2.2]⟩, h1.1, h2.1⟩

/-- The box is never empty while the centre is within the bounds and the size positive: the
centre is in it. -/
theorem C20_box_nonempty {n : Nat} (xlow xup x : Fin n → K) (size : K) (hs : 0 ≤ size)
    (hx : ∀ i, xlow i ≤ x i ∧ x i ≤ xup i) (i : Fin n) :
    lowerBox xlow x size i ≤ x i ∧ x i ≤ upperBox xup x size i := by
  unfold lowerBox upperBox
  exact ⟨max_le (hx i).1 (by linarith), le_min (hx i).2 (by linarith)⟩

example : (∀ i : Fin 1, (fun _ => (0 : ℚ)) i ≤ (fun _ => (1 : ℚ)) i ∧ (fun _ => (1 : ℚ)) i ≤ (fun _ => (2 : ℚ)) i) := by
  intro i; norm_num

/-- **C20, one iteration.** Size stays positive and changes by one of the factors or not at
all; the centre moves only when the candidate improves the high-fidelity objective or its
constraint violation, and then exactly to the candidate; a rejected step contracts. -/
theorem C20_iteration {n : Nat} (P : TRProblem K n) (hc : 0 < P.par.contraction) (he : 0 < P.par.expansion)
    (s : TRState K n) (hs : 0 < s.size) (r : Response K n) :
    let s' := (iterate P s r).1
    let acc := (iterate P s r).2.1
    0 < s'.size ∧
    (s'.size = s.size * P.par.contraction ∨ s'.size = s.size ∨ s'.size = s.size * P.par.expansion) ∧
    (acc = true ↔ P.f r.candidate < P.f s.x ∨ P.viol r.candidate < P.viol s.x) ∧
    (acc = true → s'.x = r.candidate) ∧
    (acc = false → s'.x = s.x ∧ s'.size = s.size * P.par.contraction) := by
  intro s' acc
  have hacc : acc = true ↔ P.f r.candidate < P.f s.x ∨ P.viol r.candidate < P.viol s.x := by
    show accept _ _ _ _ = true ↔ _
    unfold accept
    split
    · rename_i h; simp [h]
    · rename_i h
      split
      · rename_i h'; simp [h']
      · rename_i h'; simp [h, h']
  refine ⟨updateSize_pos _ hc he _ _ _ hs, ?_, hacc, ?_, ?_⟩
  · exact updateSize_cases _ _ _ _
  · intro h
    show (if acc then r.candidate else s.x) = _
    rw [h]; rfl
  · intro h
    refine ⟨?_, ?_⟩
    · show (if acc then r.candidate else s.x) = _
      rw [h]; rfl
    · show (updateSize P.par s.size _ acc).1 = _
      rw [h]; simp [updateSize]

/-- The inner optimizer respected the trust-region box in this iteration. -/
def InBox {n : Nat} (P : TRProblem K n) (s : TRState K n) (y : Fin n → K) : Prop :=
  ∀ i, lowerBox P.xlow s.x s.size i ≤ y i ∧ y i ≤ upperBox P.xup s.x s.size i

/-- Every iteration of the run was answered by a point inside its trust-region box. -/
def BoxRun {n : Nat} (P : TRProblem K n) : TRState K n → List (Response K n) → Prop
  | _, [] => True
  | s, r :: rs => InBox P s r.candidate ∧ match (iterate P s r).2.2.2 with
    | .stop _ _ _ => True
    | .next s' => BoxRun P s' rs

/-- **C20, whole runs (partial).** If the inner optimizer always answers inside the box of
the iteration, then in every state of the run the size is positive and the centre within the
variable bounds, however many iterations, whatever values.  (Missing: after a failed SLSQP
solve the code hands over a different box, see `C20_fallback_counterexample`.) -/
theorem C20_run_partial {n : Nat} (P : TRProblem K n) (hc : 0 < P.par.contraction) (he : 0 < P.par.expansion)
    (rs : List (Response K n)) (s : TRState K n) (last : Option (Response K n)) (hs : 0 < s.size)
    (hx : ∀ i, P.xlow i ≤ s.x i ∧ s.x i ≤ P.xup i) (hb : BoxRun P s rs) :
    ∀ t ∈ (runTR P s last rs).1, 0 < t.size ∧ ∀ i, P.xlow i ≤ t.x i ∧ t.x i ≤ P.xup i := by
  induction rs generalizing s last with
  | nil => intro t ht; simp [runTR] at ht; subst ht; exact ⟨hs, hx⟩
  | cons r rs ih =>
    obtain ⟨hbox, hrest⟩ := hb
    have hit := C20_iteration P hc he s hs r
    have hs' : 0 < (iterate P s r).1.size := hit.1
    have hcand : ∀ i, P.xlow i ≤ r.candidate i ∧ r.candidate i ≤ P.xup i := fun i =>
      (C20_box P.xlow P.xup s.x r.candidate s.size (fun i => (hbox i).1) (fun i => (hbox i).2) i).2
    have hx' : ∀ i, P.xlow i ≤ (iterate P s r).1.x i ∧ (iterate P s r).1.x i ≤ P.xup i := by
      cases ha : (iterate P s r).2.1 with
      | true => rw [hit.2.2.2.1 ha]; exact hcand
      | false => rw [(hit.2.2.2.2 ha).1]; exact hx
    intro t ht
    simp only [runTR] at ht
    cases ho : (iterate P s r).2.2.2 with
    | stop f x w =>
      simp only [ho, List.mem_cons, List.not_mem_nil, or_false] at ht
      rcases ht with rfl | rfl
      · exact ⟨hs', hx'⟩
      · exact ⟨hs, hx⟩
    | next s2 =>
      have hs2 : s2 = (iterate P s r).1 := by
        have : (iterate P s r).2.2.2 = .next s2 := ho
        simp only [iterate] at this ⊢
        split at this
        · cases this
        · split at this
          · cases this
          · split at this
            · cases this
            · injection this with h; exact h.symm
      simp only [ho, List.mem_append, List.mem_singleton] at ht
      rw [ho] at hrest
      subst hs2
      rcases ht with ht | rfl
      · exact ih _ _ hs' hx' hrest t ht
      · exact ⟨hs, hx⟩

/-- A one-variable problem: minimise `x`, bounds [0,2]. -/
def exTR : TRProblem ℚ 1 where
  xlow := fun _ => 0
  xup := fun _ => 2
  f := fun x => x 0
  viol := fun _ => 0
  par := { contractThreshold := 1/4, expandThreshold := 3/4, contraction := 1/4, expansion := 3/2, minimumSize := 1/1000000 }
  precision := 1/1000000
  tolerance := 1/1000000

example : BoxRun exTR ⟨fun _ => 1, 1/20⟩ [⟨fun _ => 19/20, true, fun _ => 0, 19/20, 0⟩] := by
  refine ⟨?_, ?_⟩
  · intro i; simp [lowerBox, upperBox, exTR, Response.candidate]; norm_num
  · split <;> trivial

/-- **C20 fails in the feasibility solve of the SLSQP branch.** The box given to that solve is
made of the constraint edges (lines 289-291), e.g. [5,10] for a constrained quantity; an
answer inside that box is accepted as the new centre although it is outside the trust region
and the variable bounds. -/
theorem C20_fallback_counterexample :
    ∃ (P : TRProblem ℚ 1) (s : TRState ℚ 1) (r : Response ℚ 1) (conLow conUp : Fin 1 → ℚ),
      (∀ i, P.xlow i ≤ s.x i ∧ s.x i ≤ P.xup i) ∧ r.success = false ∧
      (∀ i, conLow i ≤ r.x2 i ∧ r.x2 i ≤ conUp i) ∧
      (iterate P s r).2.1 = true ∧ P.xup 0 < (iterate P s r).1.x 0 ∧
      s.size < |(iterate P s r).1.x 0 - s.x 0| := by
  refine ⟨{ exTR with f := fun x => - x 0 }, ⟨fun _ => 1, 1/20⟩, ⟨fun _ => 1, false, fun _ => 7, 0, 0⟩,
    fun _ => 5, fun _ => 10, ?_, rfl, ?_, ?_, ?_, ?_⟩
  · intro i; norm_num [exTR]
  · intro i; norm_num
  · norm_num [iterate, accept, Response.candidate, exTR]
  · norm_num [iterate, accept, Response.candidate, exTR]
  · norm_num [iterate, accept, Response.candidate, exTR]

/-! ### C55: the point returned -/

/-- **C55 is false of the code.** The point returned can be one the optimizer rejected: here the
candidate is worse than the centre, the iteration budget ends, and the candidate is
returned although the centre (value 1) is better. -/
theorem C55_returns_rejected_counterexample :
    ∃ (P : TRProblem ℚ 1) (s : TRState ℚ 1) (r : Response ℚ 1), InBox P s r.candidate ∧
      (iterate P s r).2.1 = false ∧
      ∃ f x, (runTR P s none [r]).2 = some (f, x, .maxIterations) ∧ P.f s.x < P.f x := by
  refine ⟨exTR, ⟨fun _ => 1, 1/20⟩, ⟨fun _ => 21/20, true, fun _ => 0, 1/2, 0⟩, ?_, ?_, 1/2, fun _ => 21/20, ?_, ?_⟩
  · intro i; simp [lowerBox, upperBox, exTR, Response.candidate]; norm_num
  · norm_num [iterate, accept, Response.candidate, exTR]
  · have : (iterate exTR ⟨fun _ => 1, 1/20⟩ ⟨fun _ => 21/20, true, fun _ => 0, 1/2, 0⟩).2.2.2
        = .next ⟨fun _ => 1, 1/80⟩ := by
      norm_num [iterate, accept, Response.candidate, exTR, updateSize]
    simp only [runTR, this]
    rfl
  · norm_num [exTR]

omit [IsStrictOrderedRing K] in
/-- **C55, what holds**: on convergence the returned point was accepted, and its high-fidelity
value is within the tolerance of the previous centre's. -/
theorem C55_converged_partial {n : Nat} (P : TRProblem K n) (s : TRState K n) (r : Response K n) (f : K)
    (x : Fin n → K) (h : (iterate P s r).2.2.2 = .stop f x .converged) :
    (iterate P s r).2.1 = true ∧ x = r.candidate ∧ |P.f s.x - P.f x| < P.tolerance ∧
      (P.f x < P.f s.x ∨ P.viol x < P.viol s.x) := by
  simp only [iterate] at h ⊢
  split at h
  · injection h with _ _ h; cases h
  · split at h
    · injection h with _ _ h; cases h
    · split at h
      · rename_i hc
        injection h with _ hx _
        subst hx
        refine ⟨hc.1, rfl, hc.2, ?_⟩
        have := hc.1
        unfold accept at this
        split at this
        · rename_i h1; exact Or.inl h1
        · split at this
          · rename_i h1; exact Or.inr h1
          · cases this
      · cases h

/-! ### C56: two forms of the same constraints -/

theorem gaps_nil_iff (g : ℝ) (lb ub : Edge) :
    gapsOf g lb ub = [] ↔ (∀ l, lb = some l → l ≤ g) ∧ (∀ u, ub = some u → g ≤ u) := by
  unfold gapsOf
  rw [List.append_eq_nil_iff]
  constructor
  · rintro ⟨h1, h2⟩
    refine ⟨fun l hl => ?_, fun u hu => ?_⟩
    · subst hl
      simp only at h1
      by_contra hn
      rw [if_pos (not_le.1 hn)] at h1; cases h1
    · subst hu
      simp only at h2
      by_contra hn
      rw [if_pos (not_le.1 hn)] at h2; cases h2
  · rintro ⟨h1, h2⟩
    constructor
    · cases lb with
      | none => rfl
      | some l => simp only; rw [if_neg (not_lt.2 (h1 l rfl))]
    · cases ub with
      | none => rfl
      | some u => simp only; rw [if_neg (not_lt.2 (h2 u rfl))]

theorem gaps_pos (g : ℝ) (lb ub : Edge) : ∀ d ∈ gapsOf g lb ub, 0 < d := by
  intro d hd
  unfold gapsOf at hd
  rw [List.mem_append] at hd
  rcases hd with hd | hd
  · cases lb with
    | none => simp at hd
    | some l =>
      simp only at hd
      split at hd
      · simp at hd; subst hd; linarith
      · simp at hd
  · cases ub with
    | none => simp at hd
    | some u =>
      simp only at hd
      split at hd
      · simp at hd; subst hd; linarith
      · simp at hd

/-- **C56, violation measure.** It is never negative and is zero exactly when every constraint
value lies between its edges. -/
theorem C56_violation_zero_iff (rows : List (ℝ × Edge × Edge)) :
    0 ≤ violation rows ∧
    (violation rows = 0 ↔ ∀ r ∈ rows, (∀ l, r.2.1 = some l → l ≤ r.1) ∧ (∀ u, r.2.2 = some u → r.1 ≤ u)) := by
  refine ⟨Real.sqrt_nonneg _, ?_⟩
  have hnn : 0 ≤ ((rows.flatMap fun r => gapsOf r.1 r.2.1 r.2.2).map fun d => d ^ 2).sum := by
    apply List.sum_nonneg
    intro y hy
    obtain ⟨d, _, rfl⟩ := List.mem_map.1 hy
    positivity
  unfold violation
  rw [Real.sqrt_eq_zero hnn]
  constructor
  · intro h r hr
    rw [← gaps_nil_iff]
    by_contra hne
    obtain ⟨d, hd⟩ := List.exists_mem_of_ne_nil _ hne
    have hdp := gaps_pos _ _ _ d hd
    have hmem : d ^ 2 ∈ ((rows.flatMap fun r => gapsOf r.1 r.2.1 r.2.2).map fun d => d ^ 2) :=
      List.mem_map.2 ⟨d, List.mem_flatMap.2 ⟨r, hr, hd⟩, rfl⟩
    have hle := List.single_le_sum (l := ((rows.flatMap fun r => gapsOf r.1 r.2.1 r.2.2).map fun d => d ^ 2)) (by
      intro y hy
      obtain ⟨d, _, rfl⟩ := List.mem_map.1 hy
      positivity) _ hmem
    have : 0 < d ^ 2 := by positivity
    linarith
  · intro h
    have : (rows.flatMap fun r => gapsOf r.1 r.2.1 r.2.2) = [] := by
      rw [List.flatMap_eq_nil_iff]
      intro r hr
      exact (gaps_nil_iff _ _ _).2 (h r hr)
    rw [this]; rfl

/-- The SLSQP form of a row is satisfied. -/
def SlsqpOk (sense : CSense) (v : ℝ) : Prop := if sense = .eq then v = 0 else 0 ≤ v

/-- **C56, partial.** If the unit equals the scale (in particular both one) the SLSQP form of
a constraint is satisfied exactly when it contributes no violation.  (Missing: other units
and scales, where the two disagree.) -/
theorem C56_forms_agree_partial (sense : CSense) (bound units scale g : ℝ) (hs : scale ≠ 0) (hu : units = scale) :
    SlsqpOk sense (slsqpValue sense bound g) ↔
      gapsOf g (edges sense bound units scale).1 (edges sense bound units scale).2 = [] := by
  have he : bound * units / scale = bound := by rw [hu]; field_simp
  rw [gaps_nil_iff]
  unfold SlsqpOk slsqpValue edges
  rw [he]
  cases sense with
  | lt => simp
  | gt => simp
  | eq =>
    simp only [if_true, mul_one, Option.some.injEq, forall_eq']
    constructor
    · intro h; constructor <;> linarith
    · rintro ⟨h1, h2⟩; linarith

/-- **C56 is false of the code** otherwise: bound 5, scale 10, scaled value 2 (physical 20,
satisfying "> 5"): no violation, but the SLSQP constraint reads 2 - 5 < 0. -/
theorem C56_counterexample :
    violation [(2, edges .gt 5 1 10)] = 0 ∧ ¬ SlsqpOk .gt (slsqpValue .gt 5 2) := by
  constructor
  · rw [(C56_violation_zero_iff _).2]
    intro r hr
    simp only [List.mem_singleton] at hr
    subst hr
    simp only [edges, Option.some.injEq, forall_eq', reduceCtorEq, IsEmpty.forall_iff, implies_true, and_true]
    norm_num
  · norm_num [SlsqpOk, slsqpValue]

end Verif.Optim
