import Verif.Nexus.Cache
/-!
C13, C14: the evaluation cache of the Nexus.
-/

namespace Verif.Nexus

variable {X I F S R : Type}

/-! ### Specification: a Nexus without a cache -/

/-- The reference object has no cache at all: only inputs, fidelity and state. -/
structure Ref (I F S : Type) where
  inputs : I
  fidelity : F
  st : S

/-- Every evaluation unpacks the inputs and runs all steps; `true` means no exception. -/
def Ref.step (P : Problem X I F S) (n : Ref I F S) : Op X I F → Ref I F S × Option Bool
  | .eval x =>
    let i := P.unpack x n.inputs
    let r := P.put i n.st
    if r.2 then
      let q := runSteps P.steps i n.fidelity r.1
      ({ n with inputs := i, st := q.1 }, some q.2)
    else ({ n with inputs := i, st := r.1 }, some false)
  | .editInputs g => ({ n with inputs := g n.inputs }, none)
  | .setFidelity f => ({ n with fidelity := f }, none)
  | .setForce _ => (n, none)

/-- A history of the reference object. -/
def Ref.trace (P : Problem X I F S) : Ref I F S → List (Op X I F) → List (Ref I F S × Option Bool)
  | _, [] => []
  | n, op :: ops => n.step P op :: Ref.trace P (n.step P op).1 ops

/-- The procedure is a function of the inputs and the fidelity level, as far as the results
`res` go: whatever the state before, an evaluation that completes leaves the results
`den i f`; and whether it completes depends on the inputs and fidelity only.  Writing the
inputs into the vehicle does not touch the results and does not fail. -/
structure Functional (P : Problem X I F S) (res : S → R) (den : I → F → R) (ok : I → F → Bool) : Prop where
  put_res : ∀ i s, res (P.put i s).1 = res s
  put_ok : ∀ i s, (P.put i s).2 = true
  run_ok : ∀ i f s, (runSteps P.steps i f (P.put i s).1).2 = ok i f
  run_res : ∀ i f s, ok i f = true → res (runSteps P.steps i f (P.put i s).1).1 = den i f

/-- What the cache must guarantee: a remembered evaluation is the one in the results. -/
def CacheOk (res : S → R) (den : I → F → R) (n : Nx I F S) : Prop :=
  ∀ i f, n.lastInputs = some i → n.lastFidelity = some f → res n.st = den i f

theorem fresh_ok (res : S → R) (den : I → F → R) (i : I) (f : F) (s : S) :
    CacheOk res den (fresh i f s) := by
  intro _ _ h; simp [fresh] at h

variable [DecidableEq I] [DecidableEq F]

theorem step_sim {P : Problem X I F S} {res : S → R} {den : I → F → R} {ok : I → F → Bool}
    (hP : Functional P res den ok) (n : Nx I F S) (m : Ref I F S) (hn : CacheOk res den n)
    (hi : n.inputs = m.inputs) (hf : n.fidelity = m.fidelity) (op : Op X I F)
    (hr : (step P n op).2 ≠ some .raised) :
    (step P n op).1.inputs = (m.step P op).1.inputs ∧
    (step P n op).1.fidelity = (m.step P op).1.fidelity ∧
    CacheOk res den (step P n op).1 ∧
    ((step P n op).2 = some .ran → (m.step P op).2 = some true ∧
      res (step P n op).1.st = res (m.step P op).1.st) ∧
    ((step P n op).2 = some .skipped → (m.step P op).2 = some true →
      res (step P n op).1.st = res (m.step P op).1.st) := by
  cases op with
  | editInputs g => exact ⟨by simp [step, Ref.step, hi], hf, hn, by simp [step], by simp [step]⟩
  | setFidelity f => exact ⟨hi, rfl, hn, by simp [step], by simp [step]⟩
  | setForce b => exact ⟨hi, hf, hn, by simp [step], by simp [step]⟩
  | eval x =>
    simp only [step, evaluate, hP.put_ok, Bool.not_true, Bool.false_eq_true, if_false] at hr ⊢
    simp only [Ref.step, hP.put_ok, if_true]
    split at hr
    · rename_i hc
      rw [if_pos hc]
      refine ⟨by simp [hi], hf, ?_, by simp, ?_⟩
      · intro i f h1 h2
        show res (P.put _ _).1 = _
        rw [hP.put_res]; exact hn i f h1 h2
      · intro _ hok
        simp only [Option.some.injEq] at hok
        have hok' : ok (P.unpack x m.inputs) m.fidelity = true := by rw [← hP.run_ok]; exact hok
        show res (P.put _ _).1 = _
        rw [hP.put_res, hP.run_res _ _ _ hok', ← hi, ← hf]
        exact hn _ _ hc.1 hc.2.1
    · rename_i hc
      rw [if_neg hc]
      simp only [reallyEvaluate] at hr ⊢
      split at hr
      · rename_i hrun
        simp only [hrun, if_true]
        have hok : ok (P.unpack x n.inputs) n.fidelity = true := by rw [← hP.run_ok]; exact hrun
        refine ⟨by simp [hi], hf, ?_, ?_, by simp⟩
        · intro i f h1 h2
          simp only [Option.some.injEq] at h1 h2
          subst h1; subst h2
          exact hP.run_res _ _ _ hok
        · intro _
          have hok' := hok
          rw [hi, hf] at hok'
          refine ⟨by rw [hP.run_ok, hok'], ?_⟩
          show res (runSteps _ _ _ _).1 = _
          rw [hP.run_res _ _ _ hok', hP.run_res _ _ _ hok, hi, hf]
      · exact absurd rfl hr

/-- **C13, transparency.** Take any history on a Nexus whose procedure is a function of
inputs and fidelity, in which no evaluation raised. After every evaluation the results are
those of the Nexus that re-runs everything each time, and that one did not raise
either. -/
theorem C13_transparent {P : Problem X I F S} {res : S → R} {den : I → F → R} {ok : I → F → Bool}
    (hP : Functional P res den ok) (i : I) (f : F) (s : S) (ops : List (Op X I F))
    (hok : ∀ o ∈ trace P (fresh i f s) ops, o.2 ≠ some .raised) :
    ∀ (k : Nat) (o : Nx I F S × Option Outcome) (r : Ref I F S × Option Bool), (trace P (fresh i f s) ops)[k]? = some o →
      (Ref.trace P ⟨i, f, s⟩ ops)[k]? = some r → o.2 ≠ none →
      r.2 = some true ∧ res o.1.st = res r.1.st := by
  -- the cached entry was a successful evaluation
  have key : ∀ (ops : List (Op X I F)) (n : Nx I F S) (m : Ref I F S), CacheOk res den n →
      (∀ i f, n.lastInputs = some i → n.lastFidelity = some f → ok i f = true) →
      n.inputs = m.inputs → n.fidelity = m.fidelity →
      (∀ o ∈ trace P n ops, o.2 ≠ some .raised) →
      ∀ (k : Nat) (o : Nx I F S × Option Outcome) (r : Ref I F S × Option Bool), (trace P n ops)[k]? = some o → (Ref.trace P m ops)[k]? = some r → o.2 ≠ none →
        r.2 = some true ∧ res o.1.st = res r.1.st := by
    intro ops
    induction ops with
    | nil => intro n m _ _ _ _ _ k o r h; simp [trace] at h
    | cons op ops ih =>
      intro n m hn hl hi hf hraise k o r ho hr hne
      have hr0 : (step P n op).2 ≠ some .raised := hraise _ (by simp [trace])
      obtain ⟨g1, g2, g3, g4, g5⟩ := step_sim hP n m hn hi hf op hr0
      -- success of the cached entry is preserved, and skips are successes
      have hskip : (step P n op).2 = some .skipped → (m.step P op).2 = some true := by
        intro hs
        cases op with
        | editInputs g => simp [step] at hs
        | setFidelity f => simp [step] at hs
        | setForce b => simp [step] at hs
        | eval x =>
          simp only [step, evaluate, hP.put_ok, Bool.not_true, Bool.false_eq_true, if_false] at hs
          split at hs
          · rename_i hc
            have := hl _ _ hc.1 hc.2.1
            simp only [Ref.step, hP.put_ok, if_true]
            rw [hP.run_ok, ← hi, ← hf]
            simpa using this
          · simp only [reallyEvaluate] at hs
            split at hs <;> simp at hs
      have hl' : ∀ i f, (step P n op).1.lastInputs = some i → (step P n op).1.lastFidelity = some f →
          ok i f = true := by
        cases op with
        | editInputs g => exact hl
        | setFidelity f => exact hl
        | setForce b => exact hl
        | eval x =>
          simp only [step, evaluate, hP.put_ok, Bool.not_true, Bool.false_eq_true, if_false]
          split
          · exact hl
          · simp only [reallyEvaluate]
            split
            · rename_i hrun
              intro i f h1 h2
              simp only [Option.some.injEq] at h1 h2
              subst h1; subst h2
              rw [← hP.run_ok]; exact hrun
            · exact hl
      cases k with
      | zero =>
        simp only [trace, Ref.trace, List.getElem?_cons_zero, Option.some.injEq] at ho hr
        subst ho; subst hr
        cases ho : (step P n op).2 with
        | none => exact absurd ho hne
        | some out =>
          cases out with
          | ran => exact g4 ho
          | skipped => exact ⟨hskip ho, g5 ho (hskip ho)⟩
          | raised => exact absurd ho hr0
      | succ k =>
        simp only [trace, Ref.trace, List.getElem?_cons_succ] at ho hr
        exact ih _ _ g3 hl' g1 g2 (fun o h => hraise o (by simp [trace, h])) k o r ho hr hne
  exact key ops _ _ (fresh_ok res den i f s) (by intro _ _ h; simp [fresh] at h) rfl rfl hok

/-- A two-step procedure that meets the hypotheses of `C13_transparent`, with a history in
which an evaluation is skipped. -/
def exProblem : Problem Nat Nat Nat (Nat × Nat) where
  unpack := fun x i => x.getD i
  put := fun i s => ((i, s.2), true)
  steps := [fun _ _ s => ((s.1, 10 * s.1), true), fun _ f s => ((s.1, s.2 + f), true)]

theorem exProblem_functional :
    Functional exProblem (fun s : Nat × Nat => s.2) (fun i f => 10 * i + f) (fun _ _ => true) where
  put_res := fun _ _ => rfl
  put_ok := fun _ _ => rfl
  run_ok := fun _ _ _ => rfl
  run_res := fun _ _ _ _ => rfl

example : (trace exProblem (fresh 0 1 (0, 0)) [.eval (some 4), .eval (some 4), .setFidelity 2, .eval none]).map (·.2)
    = [some .ran, some .skipped, none, some .ran] := by decide

/-- The last evaluation that completed, read off a trace of outcomes: the inputs and
fidelity at the last entry marked `ran`. -/
def lastRan : List (Nx I F S × Option Outcome) → Option (I × F) → Option (I × F)
  | [], acc => acc
  | o :: l, acc => lastRan l (if o.2 = some .ran then some (o.1.inputs, o.1.fidelity) else acc)

/-- **C13, skip condition.** For every problem and every history, exceptions included: an
evaluation is skipped only if its inputs and fidelity equal those of the last completed
evaluation and re-evaluation was not forced; and it does run in all other cases in which
the inputs could be written. -/
theorem C13_skip_iff (P : Problem X I F S) (i : I) (f : F) (s : S) (ops : List (Op X I F)) (x : Option X) :
    let t := trace P (fresh i f s) ops
    let n := final P (fresh i f s) ops
    let e := evaluate P n x
    (e.2 = .skipped ↔
      (P.put (P.unpack x n.inputs) n.st).2 = true ∧ n.force = false ∧
      lastRan t none = some (P.unpack x n.inputs, n.fidelity)) ∧
    (e.2 = .skipped → e.1.count = n.count ∧ e.1.st = (P.put (P.unpack x n.inputs) n.st).1) := by
  have inv : ∀ (ops : List (Op X I F)) (n : Nx I F S) (acc : Option (I × F)),
      (∀ p, (n.lastInputs = some p.1 ∧ n.lastFidelity = some p.2) ↔ acc = some p) →
      ∀ p, (final P n ops).lastInputs = some p.1 ∧
        (final P n ops).lastFidelity = some p.2 ↔
        lastRan (trace P n ops) acc = some p := by
    intro ops
    induction ops with
    | nil => intro n acc h p; simpa [trace, lastRan, final] using h p
    | cons op ops ih =>
      intro n acc h p
      have hstep : ∀ p, ((step P n op).1.lastInputs = some p.1 ∧ (step P n op).1.lastFidelity = some p.2) ↔
          (if (step P n op).2 = some .ran then some ((step P n op).1.inputs, (step P n op).1.fidelity) else acc) = some p := by
        intro p
        cases op with
        | editInputs g => simpa [step] using h p
        | setFidelity f => simpa [step] using h p
        | setForce b => simpa [step] using h p
        | eval x =>
          simp only [step, evaluate]
          split
          · simpa using h p
          · split
            · simpa using h p
            · simp only [reallyEvaluate]
              split
              · simp [Prod.ext_iff]
              · simpa using h p
      have := ih (step P n op).1 _ hstep p
      simp only [trace, lastRan]
      rw [← this]; rfl
  intro t n e
  have hinv := inv ops (fresh i f s) none (by intro p; simp [fresh])
  refine ⟨?_, ?_⟩
  · constructor
    · intro h
      simp only [e, evaluate] at h
      split at h
      · cases h
      · rename_i hput
        split at h
        · rename_i hc
          refine ⟨by simpa using hput, hc.2.2, ?_⟩
          exact (hinv (_, _)).1 ⟨hc.1, hc.2.1⟩
        · simp only [reallyEvaluate] at h
          split at h <;> cases h
    · rintro ⟨h1, h2, h3⟩
      have h4 := (hinv (_, _)).2 h3
      simp only [e, evaluate, h1, Bool.not_true, Bool.false_eq_true, if_false]
      rw [if_pos ⟨h4.1, h4.2, h2⟩]
  · intro h
    simp only [e, evaluate] at h ⊢
    split at h
    · cases h
    · rename_i hput
      rw [if_neg hput]
      split at h
      · rename_i hc
        rw [if_pos hc]; exact ⟨rfl, rfl⟩
      · simp only [reallyEvaluate] at h
        split at h <;> cases h

/-- **C13, counting.** `evaluation_count` is the number of evaluations that were not
skipped and whose inputs could be written. -/
theorem C13_count (P : Problem X I F S) (hput : ∀ i s, (P.put i s).2 = true) (i : I) (f : F) (s : S)
    (ops : List (Op X I F)) :
    (final P (fresh i f s) ops).count
      = (trace P (fresh i f s) ops).countP (fun o => o.2 = some .ran ∨ o.2 = some .raised) := by
  have : ∀ (ops : List (Op X I F)) (n : Nx I F S),
      (final P n ops).count
        = n.count + (trace P n ops).countP (fun o => o.2 = some .ran ∨ o.2 = some .raised) := by
    intro ops
    induction ops with
    | nil => intro n; simp [trace, final]
    | cons op ops ih =>
      intro n
      have h1 : final P n (op :: ops) = final P (step P n op).1 ops := rfl
      rw [h1, ih]
      simp only [trace, List.countP_cons]
      have h2 : (step P n op).1.count
          = n.count + (if decide ((step P n op).2 = some .ran ∨ (step P n op).2 = some .raised) = true then 1 else 0) := by
        cases op with
        | editInputs g => simp [step]
        | setFidelity f => simp [step]
        | setForce b => simp [step]
        | eval x =>
          simp only [step, evaluate, hput, Bool.not_true, Bool.false_eq_true, if_false]
          split
          · simp
          · simp only [reallyEvaluate]
            split <;> simp
      rw [h2]; omega
  have := this ops (fresh i f s)
  rw [this]; simp [fresh]

example : (evaluate exProblem (fresh 0 1 (0, 0)) (some 4)).1.count = 1 := by decide

/-! ### C14 -/

/-- A procedure whose second step raises for input 2, after the first one has written its
result. -/
def exFailing : Problem Nat Nat Unit Nat where
  unpack := fun x i => x.getD i
  put := fun _ s => (s, true)
  steps := [fun i _ _ => (10 * i, true), fun i _ s => (s, i != 2)]

/-- **C14 is false of the code.** Evaluate at 1, then at 2 (a step raises and the caller
recovers), then at 1 again: the third evaluation is answered from the cache although the
results now hold the value of the failed evaluation (20 instead of 10).  The procedure is a
function of its inputs. -/
theorem C14_counterexample :
    (trace exFailing (fresh 0 () 0) [.eval (some 1), .eval (some 2), .eval (some 1)]).map
      (fun o => (o.2, o.1.st)) = [(some .ran, 10), (some .raised, 20), (some .skipped, 20)] ∧
    Functional exFailing (fun s : Nat => s) (fun i _ => 10 * i) (fun i _ => i != 2) := by
  refine ⟨by decide, ?_, ?_, ?_, ?_⟩
  · intro i s; rfl
  · intro i s; rfl
  · intro i f s; cases h : (i != 2) <;> simp [exFailing, runSteps, h]
  · intro i f s h; simp [exFailing, runSteps] at *; split <;> rfl

/-- **C14, what holds.**  After any history (exceptions included), an evaluation whose
inputs or fidelity differ from those of the last completed one, or that is forced, runs the
whole procedure, and then leaves the right results.  (Missing: the case of inputs equal to
those of the last completed evaluation, where a failed evaluation in between goes
unnoticed; see `C14_counterexample`.) -/
theorem C14_rerun_partial {P : Problem X I F S} {res : S → R} {den : I → F → R} {ok : I → F → Bool}
    (hP : Functional P res den ok) (n : Nx I F S) (x : Option X)
    (h : n.lastInputs ≠ some (P.unpack x n.inputs) ∨ n.lastFidelity ≠ some n.fidelity ∨ n.force = true) :
    (ok (P.unpack x n.inputs) n.fidelity = true → (evaluate P n x).2 = .ran ∧
      res (evaluate P n x).1.st = den (P.unpack x n.inputs) n.fidelity) ∧
    (ok (P.unpack x n.inputs) n.fidelity = false → (evaluate P n x).2 = .raised) := by
  have hc : ¬ (n.lastInputs = some (P.unpack x n.inputs) ∧ n.lastFidelity = some n.fidelity ∧ n.force = false) := by
    rintro ⟨h1, h2, h3⟩
    rcases h with h | h | h
    · exact h h1
    · exact h h2
    · rw [h3] at h; cases h
  have e : evaluate P n x = reallyEvaluate P { n with inputs := P.unpack x n.inputs, st := (P.put (P.unpack x n.inputs) n.st).1 } := by
    simp only [evaluate, hP.put_ok, Bool.not_true, Bool.false_eq_true, if_false]
    rw [if_neg hc]
  rw [e]
  simp only [reallyEvaluate, hP.run_ok]
  constructor
  · intro ho; simp only [ho, if_true]; exact ⟨trivial, hP.run_res _ _ _ ho⟩
  · intro ho; simp [ho]

/-- **C14, setting the force flag is a work-around.** -/
theorem C14_force {P : Problem X I F S} {res : S → R} {den : I → F → R} {ok : I → F → Bool}
    (hP : Functional P res den ok) (n : Nx I F S) (hf : n.force = true) (x : Option X)
    (hok : ok (P.unpack x n.inputs) n.fidelity = true) :
    (evaluate P n x).2 = .ran ∧ res (evaluate P n x).1.st = den (P.unpack x n.inputs) n.fidelity :=
  (C14_rerun_partial hP n x (Or.inr (Or.inr hf))).1 hok

example : (fresh 3 () (0 : Nat)).lastInputs ≠ some (exFailing.unpack (some 1) 3) := by decide

/-! ### C53: finite differences and the cache -/

theorem pair_count {P : Problem X I F S} (hput : ∀ i s, (P.put i s).2 = true)
    (hun : ∀ x i, P.unpack (some x) (P.unpack (some x) i) = P.unpack (some x) i)
    (n : Nx I F S) (hforce : n.force = false) (x : X)
    (hok : (evaluate P n (some x)).2 ≠ .raised) :
    let a := (evaluate P n (some x)).1
    let b := (evaluate P a (some x)).1
    b.count ≤ n.count + 1 ∧ b.force = false ∧ b.inputs = P.unpack (some x) n.inputs ∧
      (evaluate P a (some x)).2 = .skipped := by
  intro a b
  have ha : a.lastInputs = some a.inputs ∧ a.lastFidelity = some a.fidelity ∧ a.force = false ∧
      a.inputs = P.unpack (some x) n.inputs ∧ a.count ≤ n.count + 1 := by
    simp only [a, evaluate, hput, Bool.not_true, Bool.false_eq_true, if_false] at hok ⊢
    split
    · rename_i hc
      exact ⟨hc.1, hc.2.1, hforce, rfl, Nat.le_succ _⟩
    · rename_i hc
      rw [if_neg hc] at hok
      simp only [reallyEvaluate] at hok ⊢
      split
      · exact ⟨rfl, rfl, hforce, rfl, Nat.le_refl _⟩
      · rename_i hr; rw [if_neg hr] at hok; exact absurd rfl hok
  obtain ⟨h1, h2, h3, h4, h5⟩ := ha
  have hi : P.unpack (some x) a.inputs = a.inputs := by rw [h4, hun]
  have hb : evaluate P a (some x) = ({ a with inputs := a.inputs, st := (P.put a.inputs a.st).1 }, .skipped) := by
    simp only [evaluate, hput, Bool.not_true, Bool.false_eq_true, if_false, hi]
    rw [if_pos ⟨h1, h2, h3⟩]
  have hb' : b = { a with inputs := a.inputs, st := (P.put a.inputs a.st).1 } := by simp only [b, hb]
  rw [hb', hb]
  exact ⟨h5, h3, h4, rfl⟩

/-- **C53, cost.** Without the force flag, and if no evaluation raises, a finite-difference
gradient over `n` variables runs the procedure at most `n+1` times although objective and
constraints are asked for separately at every point. -/
theorem C53_cost {P : Problem X I F S} (hput : ∀ i s, (P.put i s).2 = true)
    (hun : ∀ x i, P.unpack (some x) (P.unpack (some x) i) = P.unpack (some x) i)
    (n : Nx I F S) (hforce : n.force = false) (x : X) (pert : List X)
    (hok : ∀ o ∈ trace P n (fdOps x pert), o.2 ≠ some .raised) :
    (final P n (fdOps x pert)).count ≤ n.count + (pert.length + 1) := by
  have key : ∀ (xs : List X) (n : Nx I F S), n.force = false →
      (∀ o ∈ trace P n (xs.flatMap fun y => [Op.eval (some y), Op.eval (some y)]), o.2 ≠ some .raised) →
      (final P n (xs.flatMap fun y => [Op.eval (some y), Op.eval (some y)])).count ≤ n.count + xs.length := by
    intro xs
    induction xs with
    | nil => intro n _ _; simp [final]
    | cons y ys ih =>
      intro n hf hok
      have h0 : (evaluate P n (some y)).2 ≠ .raised := by
        have := hok (step P n (.eval (some y))) (by simp [trace])
        simpa [step] using this
      obtain ⟨p1, p2, -, -⟩ := pair_count hput hun n hf y h0
      have h1 := ih (evaluate P (evaluate P n (some y)).1 (some y)).1 p2 (by
        intro o ho
        refine hok o ?_
        simp only [List.flatMap_cons, List.cons_append, List.nil_append, trace, step]
        exact List.mem_cons_of_mem _ (List.mem_cons_of_mem _ ho))
      have h2 : final P n ((y :: ys).flatMap fun y => [Op.eval (some y), Op.eval (some y)])
          = final P (evaluate P (evaluate P n (some y)).1 (some y)).1 (ys.flatMap fun y => [Op.eval (some y), Op.eval (some y)]) := rfl
      rw [h2, List.length_cons]
      omega
  have e : (fdOps x pert : List (Op X I F)) = (x :: pert).flatMap fun y => [Op.eval (some y), Op.eval (some y)] := rfl
  rw [e] at hok ⊢
  exact key (x :: pert) n hforce hok

example : (final exProblem (fresh 0 1 (0, 0)) (fdOps 4 [5, 6])).count = 3 ∧
    (∀ o ∈ trace exProblem (fresh 0 1 (0, 0)) (fdOps 4 [5, 6]), o.2 ≠ some .raised) := by decide

/-- **C53, side effect: the design point is not restored.** After `finite_difference` the
stored inputs are those of the last perturbed point, not those of the point asked for. -/
theorem C53_design_point_moved (P : Problem X I F S) (n : Nx I F S) (x y : X) (pert : List X) :
    (final P n (fdOps x (pert ++ [y]))).inputs =
      P.unpack (some y) (P.unpack (some y) (final P n (fdOps x pert)).inputs) := by
  have hin : ∀ (n : Nx I F S) (x : Option X), (evaluate P n x).1.inputs = P.unpack x n.inputs := by
    intro n x
    simp only [evaluate]
    split
    · rfl
    · split
      · rfl
      · simp only [reallyEvaluate]; split <;> rfl
  have e : (fdOps x (pert ++ [y]) : List (Op X I F)) = fdOps x pert ++ [.eval (some y), .eval (some y)] := by
    simp [fdOps]
  rw [e]
  simp only [final, List.foldl_append, List.foldl_cons, List.foldl_nil, step, hin]

example : (final exProblem (fresh 0 1 (0, 0)) (fdOps 4 [5, 6])).inputs = 6 := by decide

end Verif.Nexus
