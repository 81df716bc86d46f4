import Verif.Mission.Process
/-! C32 (processes) and C62 (analysis containers). -/

namespace Verif.Mission

variable {A S E R : Type}

/-! ### Specification -/

/-- A position in a nested process: the tags from the outside in. -/
abbrev Path := List String

/-- What the step at a leaf does: its `evaluate` method if it has one, else itself. -/
def act (e : Option (Call A S E R)) (c : Call A S E R) : Call A S E R := e.getD c

mutual
/-- The leaves of a process in insertion order, depth first. -/
def leaves (p : Path) : Step A S E R → List (Path × Call A S E R)
  | .leaf e c => [(p, act e c)]
  | .proc l => leavesL p l
def leavesL (p : Path) : List (String × Step A S E R) → List (Path × Call A S E R)
  | [] => []
  | (t, st) :: l => leaves (p ++ [t]) st ++ leavesL p l
end

/-- Call a list of functions one after the other with the same arguments, stopping at the
first exception.  Returns the log of the calls made (path and arguments). -/
def runSeq (a : A) : List (Path × Call A S E R) → S → S × Except E (List (Path × R))
  | [], s => (s, .ok [])
  | (p, f) :: l, s => match f a s with
    | (s', .error e) => (s', .error e)
    | (s', .ok r) => match runSeq a l s' with
      | (s'', .error e) => (s'', .error e)
      | (s'', .ok rs) => (s'', .ok ((p, r) :: rs))

mutual
/-- The leaves of a result tree. -/
def resLeaves (p : Path) : Res R → List (Path × R)
  | .val r => [(p, r)]
  | .data l => resLeavesL p l
def resLeavesL (p : Path) : List (String × Res R) → List (Path × R)
  | [] => []
  | (t, r) :: l => resLeaves (p ++ [t]) r ++ resLeavesL p l
end

/-- The tags of a tree without its contents. -/
inductive Shape where
  | leaf
  | node (l : List (String × Shape))

mutual
def Step.shape : Step A S E R → Shape
  | .leaf _ _ => .leaf
  | .proc l => .node (shapeL l)
def shapeL : List (String × Step A S E R) → List (String × Shape)
  | [] => []
  | (t, st) :: l => (t, Step.shape st) :: shapeL l
end

mutual
def Res.shape : Res R → Shape
  | .val _ => .leaf
  | .data l => .node (rshapeL l)
def rshapeL : List (String × Res R) → List (String × Shape)
  | [] => []
  | (t, r) :: l => (t, Res.shape r) :: rshapeL l
end

mutual
/-- Tags are pairwise different at every level (which every `DataOrdered` guarantees, C08). -/
def Step.Distinct : Step A S E R → Prop
  | .leaf _ _ => True
  | .proc l => (l.map (·.1)).Nodup ∧ DistinctL l
def DistinctL : List (String × Step A S E R) → Prop
  | [] => True
  | (_, st) :: l => Step.Distinct st ∧ DistinctL l
end

/-! ### Helper lemmas -/

theorem putKey_fresh {V : Type} (acc : List (String × V)) (t : String) (v : V) (h : t ∉ acc.map (·.1)) :
    putKey acc t v = acc ++ [(t, v)] := by
  induction acc with
  | nil => rfl
  | cons kw acc ih =>
    obtain ⟨k, w⟩ := kw
    simp only [List.map_cons, List.mem_cons, not_or] at h
    simp [putKey, Ne.symm h.1, ih h.2]

theorem runSeq_append (a : A) (l1 l2 : List (Path × Call A S E R)) (s : S) :
    runSeq a (l1 ++ l2) s = match runSeq a l1 s with
      | (s', .error e) => (s', .error e)
      | (s', .ok r1) => match runSeq a l2 s' with
        | (s'', .error e) => (s'', .error e)
        | (s'', .ok r2) => (s'', .ok (r1 ++ r2)) := by
  induction l1 generalizing s with
  | nil =>
    simp only [List.nil_append, runSeq]
    rcases h : runSeq a l2 s with ⟨s', e | r⟩ <;> rfl
  | cons pf l1 ih =>
    obtain ⟨p, f⟩ := pf
    simp only [List.cons_append, runSeq]
    rcases hf : f a s with ⟨s', e | r⟩
    · rfl
    · simp only [ih s']
      rcases h1 : runSeq a l1 s' with ⟨s'', e | r1⟩
      · rfl
      · simp only
        rcases h2 : runSeq a l2 s'' with ⟨s3, e | r2⟩ <;> rfl

theorem resLeavesL_append (p : Path) (l1 l2 : List (String × Res R)) :
    resLeavesL p (l1 ++ l2) = resLeavesL p l1 ++ resLeavesL p l2 := by
  induction l1 with
  | nil => simp [resLeavesL]
  | cons tr l1 ih => obtain ⟨t, r⟩ := tr; simp [resLeavesL, ih]

theorem rshapeL_append (l1 l2 : List (String × Res R)) : rshapeL (l1 ++ l2) = rshapeL l1 ++ rshapeL l2 := by
  induction l1 with
  | nil => simp [rshapeL]
  | cons tr l1 ih => obtain ⟨t, r⟩ := tr; simp [rshapeL, ih]

/-- What a finished evaluation must look like, compared with the sequential run. -/
def Agrees (sh : Shape) (p : Path) (x : S × Except E (Res R)) (y : S × Except E (List (Path × R))) : Prop :=
  x.1 = y.1 ∧ match x.2, y.2 with
    | .ok r, .ok rs => resLeaves p r = rs ∧ r.shape = sh
    | .error e, .error e' => e = e'
    | _, _ => False

def AgreesL (sh : List (String × Shape)) (p : Path) (acc : List (String × Res R)) (x : S × Except E (List (String × Res R)))
    (y : S × Except E (List (Path × R))) : Prop :=
  x.1 = y.1 ∧ match x.2, y.2 with
    | .ok r, .ok rs => resLeavesL p r = resLeavesL p acc ++ rs ∧ rshapeL r = rshapeL acc ++ sh
    | .error e, .error e' => e = e'
    | _, _ => False

mutual
theorem eval_agrees (a : A) (p : Path) : ∀ (st : Step A S E R) (s : S), st.Distinct →
    Agrees st.shape p (st.eval a s) (runSeq a (leaves p st) s)
  | .leaf (some f) c, s, _ => by
    simp only [Step.eval, leaves, act, Option.getD_some, runSeq]
    rcases h : f a s with ⟨s', e | r⟩ <;> simp [Agrees, resLeaves, Res.shape, Step.shape]
  | .leaf none f, s, _ => by
    simp only [Step.eval, leaves, act, Option.getD_none, runSeq]
    rcases h : f a s with ⟨s', e | r⟩ <;> simp [Agrees, resLeaves, Res.shape, Step.shape]
  | .proc l, s, h => by
    have := evalSteps_agrees a p l s [] h.2 h.1 (by simp)
    simp only [Step.eval, leaves, Step.shape]
    rcases h1 : evalSteps a l s [] with ⟨s1, e | r⟩ <;> rw [h1] at this <;>
      rcases h2 : runSeq a (leavesL p l) s with ⟨s2, e' | r'⟩ <;> rw [h2] at this <;>
      simp_all [Agrees, AgreesL, resLeaves, resLeavesL, Res.shape, rshapeL]
theorem evalSteps_agrees (a : A) (p : Path) : ∀ (l : List (String × Step A S E R)) (s : S) (acc : List (String × Res R)),
    DistinctL l → (l.map (·.1)).Nodup → (∀ t ∈ l.map (·.1), t ∉ acc.map (·.1)) →
    AgreesL (shapeL l) p acc (evalSteps a l s acc) (runSeq a (leavesL p l) s)
  | [], s, acc, _, _, _ => by simp [evalSteps, leavesL, runSeq, AgreesL, shapeL]
  | (t, st) :: l, s, acc, hd, hn, hacc => by
    have h1 := eval_agrees a (p ++ [t]) st s hd.1
    simp only [evalSteps, leavesL, runSeq_append, shapeL]
    rcases e1 : st.eval a s with ⟨s1, e | r⟩ <;> rw [e1] at h1 <;>
      rcases e2 : runSeq a (leaves (p ++ [t]) st) s with ⟨s2, e' | r'⟩ <;> rw [e2] at h1
    · simpa [Agrees, AgreesL] using h1
    · simp [Agrees] at h1
    · simp [Agrees] at h1
    · simp only [Agrees] at h1
      obtain ⟨rfl, hr, hs⟩ := h1
      simp only [List.map_cons, List.nodup_cons] at hn
      have ht : t ∉ acc.map (·.1) := hacc t (by simp)
      simp only [putKey_fresh acc t r ht]
      have hacc' : ∀ u ∈ l.map (·.1), u ∉ (acc ++ [(t, r)]).map (·.1) := by
        intro u hu hmem
        simp only [List.map_append, List.map_cons, List.map_nil, List.mem_append, List.mem_singleton] at hmem
        rcases hmem with hmem | hmem
        · exact hacc u (by simp only [List.map_cons, List.mem_cons]; exact Or.inr hu) hmem
        · exact hn.1 (hmem ▸ hu)
      have h2 := evalSteps_agrees a p l s1 (acc ++ [(t, r)]) hd.2 hn.2 hacc'
      rcases e3 : evalSteps a l s1 (acc ++ [(t, r)]) with ⟨s3, e | q⟩ <;> rw [e3] at h2 <;>
        rcases e4 : runSeq a (leavesL p l) s1 with ⟨s4, e' | q'⟩ <;> rw [e4] at h2
      · simpa [AgreesL] using h2
      · simp [AgreesL] at h2
      · simp [AgreesL] at h2
      · simp only [AgreesL] at h2 ⊢
        obtain ⟨rfl, hq, hsh⟩ := h2
        refine ⟨rfl, ?_, ?_⟩
        · rw [hq, resLeavesL_append]; simp [resLeavesL, hr]
        · rw [hsh, rshapeL_append]; simp [rshapeL, hs]
end

/-! ### C32 -/

/-- **C32, refinement.** Evaluating a process with steps nested to any depth has the same
effect on the state as calling its leaves one after the other in insertion order with the same
arguments, up to and including the first one that raises; the exception is passed on. -/
theorem C32_sequential (a : A) (st : Step A S E R) (s : S) (h : st.Distinct) :
    (st.eval a s).1 = (runSeq a (leaves [] st) s).1 ∧
    (∀ e, (st.eval a s).2 = .error e ↔ (runSeq a (leaves [] st) s).2 = .error e) := by
  have := eval_agrees a [] st s h
  rcases e1 : st.eval a s with ⟨s1, e | r⟩ <;> rw [e1] at this <;>
    rcases e2 : runSeq a (leaves [] st) s with ⟨s2, e' | r'⟩ <;> rw [e2] at this <;> simp_all [Agrees]

/-- **C32, results.** When no step raises, every leaf's result is found under its tags, and the
tree of results has exactly the tags of the process, in order (nested processes included). -/
theorem C32_results (a : A) (st : Step A S E R) (s s' : S) (r : Res R) (h : st.Distinct) (hr : st.eval a s = (s', .ok r)) :
    runSeq a (leaves [] st) s = (s', .ok (resLeaves [] r)) ∧ r.shape = st.shape := by
  have := eval_agrees a [] st s h
  rw [hr] at this
  rcases e2 : runSeq a (leaves [] st) s with ⟨s2, e' | r'⟩ <;> rw [e2] at this <;> simp_all [Agrees]

/-! Log of calls: every leaf additionally records its name. -/

/-- `f`, recording `n` and the arguments before it acts. -/
def logged (n : Path) (f : Call A S E R) : Call A (S × List (Path × A)) E R := fun a s =>
  let r := f a s.1
  ((r.1, s.2 ++ [(n, a)]), r.2)

mutual
/-- The same process with recording leaves. -/
def Step.withLog (p : Path) : Step A S E R → Step A (S × List (Path × A)) E R
  | .leaf e c => .leaf (e.map (logged p)) (logged p c)
  | .proc l => .proc (withLogL p l)
def withLogL (p : Path) : List (String × Step A S E R) → List (String × Step A (S × List (Path × A)) E R)
  | [] => []
  | (t, st) :: l => (t, Step.withLog (p ++ [t]) st) :: withLogL p l
end

mutual
theorem leaves_withLog (p : Path) : ∀ st : Step A S E R,
    leaves p (st.withLog p) = (leaves p st).map fun x => (x.1, logged x.1 x.2)
  | .leaf e c => by cases e <;> rfl
  | .proc l => by simp only [Step.withLog, leaves]; exact leavesL_withLog p l
theorem leavesL_withLog (p : Path) : ∀ l : List (String × Step A S E R),
    leavesL p (withLogL p l) = (leavesL p l).map fun x => (x.1, logged x.1 x.2)
  | [] => rfl
  | (t, st) :: l => by simp only [withLogL, leavesL, List.map_append, leaves_withLog (p ++ [t]) st, leavesL_withLog p l]
end

mutual
theorem distinct_withLog (p : Path) : ∀ st : Step A S E R, st.Distinct → (st.withLog p).Distinct
  | .leaf e c, _ => trivial
  | .proc l, h => ⟨by rw [tags_withLogL]; exact h.1, distinctL_withLog p l h.2⟩
theorem distinctL_withLog (p : Path) : ∀ l : List (String × Step A S E R), DistinctL l → DistinctL (withLogL p l)
  | [], _ => trivial
  | (t, st) :: l, h => ⟨distinct_withLog (p ++ [t]) st h.1, distinctL_withLog p l h.2⟩
theorem tags_withLogL (p : Path) : ∀ l : List (String × Step A S E R), (withLogL p l).map (·.1) = l.map (·.1)
  | [] => rfl
  | (t, st) :: l => by simp [withLogL, tags_withLogL p l]
end

theorem runSeq_log (a : A) (l : List (Path × Call A S E R)) (s : S) (lg : List (Path × A)) :
    ∃ k, k ≤ l.length ∧
      (runSeq a (l.map fun x => (x.1, logged x.1 x.2)) (s, lg)).1.2 = lg ++ ((l.take k).map fun x => (x.1, a)) ∧
      (runSeq a (l.map fun x => (x.1, logged x.1 x.2)) (s, lg)).1.1 = (runSeq a l s).1 ∧
      ((∃ rs, (runSeq a l s).2 = .ok rs) → k = l.length) ∧
      (∀ e, (runSeq a l s).2 = .error e → ∃ j, k = j + 1 ∧ ∃ hj : j < l.length, ∃ s1 rs,
        runSeq a (l.take j) s = (s1, .ok rs) ∧ ((l[j]).2 a s1).2 = .error e) := by
  induction l generalizing s lg with
  | nil => exact ⟨0, Nat.le_refl _, by simp [runSeq], by simp [runSeq], fun _ => rfl, by simp [runSeq]⟩
  | cons pf l ih =>
    obtain ⟨p, f⟩ := pf
    rcases hf : f a s with ⟨s', e | r⟩
    · refine ⟨1, by simp, ?_, ?_, ?_, ?_⟩
      · simp [runSeq, logged, hf]
      · simp [runSeq, logged, hf]
      · rintro ⟨rs, h⟩; simp [runSeq, hf] at h
      · intro e' h
        simp only [runSeq, hf, Except.error.injEq] at h
        exact ⟨0, rfl, by simp, s, [], by simp [runSeq], by simp [hf, h]⟩
    · obtain ⟨k, hk, h1, h2, h3, h4⟩ := ih s' (lg ++ [(p, a)])
      refine ⟨k + 1, by simpa using hk, ?_, ?_, ?_, ?_⟩
      · have hl : logged p f a (s, lg) = ((s', lg ++ [(p, a)]), .ok r) := by simp [logged, hf]
        simp only [List.map_cons, runSeq, hl]
        rcases hq : runSeq a (l.map fun x => (x.1, logged x.1 x.2)) (s', lg ++ [(p, a)]) with ⟨s2, e | q⟩ <;>
          rw [hq] at h1 <;> simpa using h1
      · have hl : logged p f a (s, lg) = ((s', lg ++ [(p, a)]), .ok r) := by simp [logged, hf]
        simp only [List.map_cons, runSeq, hl, hf]
        rcases hq : runSeq a (l.map fun x => (x.1, logged x.1 x.2)) (s', lg ++ [(p, a)]) with ⟨s2, e | q⟩ <;>
          rw [hq] at h2 <;> rcases hw : runSeq a l s' with ⟨s3, e' | q'⟩ <;> rw [hw] at h2 <;> simpa using h2
      · rintro ⟨rs, h⟩
        simp only [runSeq, hf] at h
        rcases hw : runSeq a l s' with ⟨s3, e' | q'⟩
        · rw [hw] at h; simp at h
        · rw [h3 ⟨q', by rw [hw]⟩]; rfl
      · intro e h
        simp only [runSeq, hf] at h
        rcases hw : runSeq a l s' with ⟨s3, e' | q'⟩
        · rw [hw] at h
          simp only [Except.error.injEq] at h
          obtain ⟨j, hj, hjl, s1, rs, h5, h6⟩ := h4 e (by rw [hw, h])
          exact ⟨j + 1, by omega, by simpa using hjl, s1, (p, r) :: rs, by simp [runSeq, hf, h5], by simpa using h6⟩
        · rw [hw] at h; simp at h

/-- **C32, each step once and in order.** The calls made, with their arguments, are the first
`k` leaves of the process in insertion order, each once, all with the process's own arguments.
Without an exception `k` is the number of leaves; with one, the last call made is the first
leaf that raised it, and exactly the leaves before it have completed. -/
theorem C32_calls (a : A) (st : Step A S E R) (s : S) (h : st.Distinct) :
    ∃ k, k ≤ (leaves [] st).length ∧
      ((st.withLog []).eval a (s, [])).1.2 = ((leaves [] st).take k).map (fun x => (x.1, a)) ∧
      ((st.withLog []).eval a (s, [])).1.1 = (st.eval a s).1 ∧
      ((∃ r, (st.eval a s).2 = .ok r) → k = (leaves [] st).length) ∧
      (∀ e, (st.eval a s).2 = .error e → ∃ j, k = j + 1 ∧ ∃ hj : j < (leaves [] st).length, ∃ s1 rs,
        runSeq a ((leaves [] st).take j) s = (s1, .ok rs) ∧ (((leaves [] st)[j]).2 a s1).2 = .error e) := by
  obtain ⟨k, hk, h1, h2, h3, h4⟩ := runSeq_log a (leaves [] st) s []
  have e1 := C32_sequential a st s h
  have e2 := (C32_sequential a (st.withLog []) (s, []) (distinct_withLog [] st h)).1
  rw [leaves_withLog] at e2
  refine ⟨k, hk, ?_, ?_, ?_, ?_⟩
  · rw [e2, h1]; simp
  · rw [e2, h2, e1.1]
  · rintro ⟨r, hr⟩
    apply h3
    rcases hw : (runSeq a (leaves [] st) s).2 with e | rs
    · have := (e1.2 e).2 hw; rw [hr] at this; cases this
    · exact ⟨rs, rfl⟩
  · intro e he
    exact h4 e ((e1.2 e).1 he)

/-- A process with a nested process, a step with an `evaluate` method and a failing step. -/
def exProc : Step Nat (List Nat) String Nat :=
  .proc [("a", .leaf none fun x s => (s ++ [x], .ok 1)),
    ("sub", .proc [("b", .leaf (some fun x s => (s ++ [x + 1], .ok 2)) fun _ s => (s, .error "called")), ("empty", .proc [])]),
    ("c", .leaf none fun _ s => if s.length < 3 then (s ++ [9], .ok 3) else (s, .error "long"))]

example : exProc.Distinct := by simp [exProc, Step.Distinct, DistinctL]
example : (exProc.eval 5 []).1 = [5, 6, 9] := by rfl
example : (exProc.eval 5 [0]).2 = .error "long" := by rfl

/-! ### C62 -/

/-- The methods present, in order. -/
def present (pick : AnalysisObj A S E R → Option (Call A S E R)) (l : List (String × AnalysisObj A S E R)) :
    List (Path × Call A S E R) :=
  l.filterMap fun x => (pick x.2).map fun f => ([x.1], f)

theorem visit_eq (pick : AnalysisObj A S E R → Option (Call A S E R)) (a : A) (l : List (String × AnalysisObj A S E R)) (s : S) :
    (visit pick a l s).1 = (runSeq a (present pick l) s).1 ∧
    ∀ e, (visit pick a l s).2 = .error e ↔ (runSeq a (present pick l) s).2 = .error e := by
  induction l generalizing s with
  | nil => simp [visit, present, runSeq]
  | cons x l ih =>
    obtain ⟨t, o⟩ := x
    cases hp : pick o with
    | none =>
      have : present pick ((t, o) :: l) = present pick l := by simp [present, hp]
      rw [this]; simp only [visit, hp]; exact ih s
    | some f =>
      have : present pick ((t, o) :: l) = ([t], f) :: present pick l := by simp [present, hp]
      rw [this]
      simp only [visit, hp, runSeq]
      rcases hf : f a s with ⟨s', e | r⟩
      · simp
      · simp only
        have := ih s'
        rcases hw : runSeq a (present pick l) s' with ⟨s3, e' | q'⟩ <;> rw [hw] at this <;> simpa using this

/-- **C62, compile and finalize (partial).** Each analysis that has the method is visited once,
in order, with the same arguments, up to the first exception.  Missing: `initialize`. -/
theorem C62_compile_finalize_partial (a : A) (l : List (String × AnalysisObj A S E R)) (s : S) :
    ((containerCompile a l s).1 = (runSeq a (present (·.compile) l) s).1 ∧
      ∀ e, (containerCompile a l s).2 = .error e ↔ (runSeq a (present (·.compile) l) s).2 = .error e) ∧
    ((containerFinalize a l s).1 = (runSeq a (present (·.finalize) l) s).1 ∧
      ∀ e, (containerFinalize a l s).2 = .error e ↔ (runSeq a (present (·.finalize) l) s).2 = .error e) :=
  ⟨visit_eq _ a l s, visit_eq _ a l s⟩

/-- **C62 is false of the code for `initialize`**: it raises for every container, even one whose
analyses would all initialise without error, and no analysis is initialised. -/
theorem C62_initialize_counterexample (typeError : E) (a : A) (l : List (String × AnalysisObj A S E R)) (s : S) :
    containerInitialize typeError a l s = (s, .error typeError) ∧
    ∃ (l : List (String × AnalysisObj Unit Nat E Unit)),
      runSeq () (present (·.init) l) 0 = (1, .ok [(["x"], ())]) ∧
      containerInitialize typeError () l 0 = (0, .error typeError) :=
  ⟨rfl, [("x", ⟨none, some fun _ s => (s + 1, .ok ()), none⟩)], rfl, rfl⟩

end Verif.Mission
