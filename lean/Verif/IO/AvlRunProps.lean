import Verif.IO.AvlRun
/-
C399: old files before a run of AVL.
-/

namespace Verif.IO

/-- **C399, lists.** Purging a list of files removes these and no others, whether they exist or not. -/
theorem C399_purge (names : List String) (fs : Files) (x : String) : purgeFiles names fs x = if x ∈ names then none else fs x := by
  unfold purgeFiles
  induction names generalizing fs with
  | nil => simp
  | cons n l ih =>
    rw [List.foldl_cons, ih]
    by_cases h1 : x ∈ l
    · simp [h1]
    · by_cases h2 : x = n
      · simp [h2]
      · simp [h1, h2]

theorem mem_chars_length {s x : String} (h : x ∈ chars s) : x.toList.length = 1 := by
  unfold chars at h
  obtain ⟨c, _, rfl⟩ := List.mem_map.1 h
  simp

/-- **C399, regression.** In regression runs no file is touched. -/
theorem C399_regression (c : AvlCall) (h : c.regression = true) (status : ℤ) (out err : String) (fs : Files) : callAvl c status out err fs = (0, fs) := by
  unfold callAvl; rw [if_pos h]

/-- **C399, other files.** A run leaves all files as they are whose names have more than one character and are not those of the log
files. -/
theorem C399_others_partial (c : AvlCall) (status : ℤ) (out err : String) (fs : Files) (x : String) (hx : x.toList.length ≠ 1) (hl : c.log ≠ some x)
    (he : c.err ≠ some x) : (callAvl c status out err fs).2 x = fs x := by
  have hp : ∀ (n : Option String) (gs : Files), purgeNamed n gs x = gs x := by
    intro n gs
    cases n with
    | none => rfl
    | some n =>
      show purgeFiles (chars n) gs x = gs x
      rw [C399_purge, if_neg fun h => hx (mem_chars_length h)]
  have hw : ∀ (n : Option String) (t : String) (gs : Files), n ≠ some x → writeNamed n t gs x = gs x := by
    intro n t gs hn
    cases n with
    | none => rfl
    | some n =>
      show (if x = n then _ else gs x) = gs x
      exact if_neg fun h => hn (by rw [h])
  unfold callAvl
  by_cases hr : c.regression = true
  · rw [if_pos hr]
  · rw [if_neg hr]
    show writeNamed _ _ _ x = _
    rw [hw _ _ _ he, hw _ _ _ hl, hp, hp]

/-- **C399, false of the code.** The old log is not removed: what AVL prints is added to it, run after run. -/
theorem C399_log_counterexample (log : String) (hlog : log.toList.length ≠ 1) (status : ℤ) (out err old : String) (fs : Files) (h : fs log = some old) :
    (callAvl ⟨false, some log, none, true⟩ status out err fs).2 log = some (old ++ out) := by
  unfold callAvl
  rw [if_neg (by simp)]
  unfold writeNamed purgeNamed appendTo
  simp only [if_true]
  rw [C399_purge, if_neg fun h' => hlog (mem_chars_length h'), h]
  rfl

/-- **C399, quiet runs.** Without printed output a run adds nothing of it to the log, which is only created. -/
theorem C399_quiet (log : String) (hlog : log.toList.length ≠ 1) (status : ℤ) (out err : String) (fs : Files) :
    (callAvl ⟨false, some log, none, false⟩ status out err fs).2 log = some ((fs log).getD "") := by
  unfold callAvl
  rw [if_neg (by simp)]
  unfold writeNamed purgeNamed appendTo
  simp only [if_true]
  rw [C399_purge, if_neg fun h' => hlog (mem_chars_length h')]
  simp

/-- **C399, false of the code.** Files that have nothing to do with it are removed: every one whose name is one of the letters of the
log. -/
theorem C399_letters_counterexample : ∃ (c : AvlCall) (fs : Files), fs "a" = some "data" ∧ c.log = some "avl.log" ∧
    ∀ status out err, (callAvl c status out err fs).2 "a" = none := by
  refine ⟨⟨false, some "avl.log", none, true⟩, fun _ => some "data", rfl, rfl, fun status out err => ?_⟩
  unfold callAvl
  rw [if_neg (by simp)]
  unfold writeNamed purgeNamed appendTo
  simp only
  rw [if_neg (by decide), C399_purge, if_pos (by decide)]

/-- **C399, false of the code.** A failed run is not noticed: what is read afterwards does not depend on the exit status. -/
theorem C399_status_counterexample {R : Type} (c : AvlCall) (s t : ℤ) (out err : String) (fs : Files) (read : Files → R) :
    runAvl c s out err fs read = runAvl c t out err fs read := by
  unfold runAvl callAvl
  split_ifs <;> rfl

example : ("avl.log" : String).toList.length ≠ 1 := by decide
example : purgeFiles ["x.avl"] (fun n => if n = "x.avl" then some "old" else some "keep") "y.avl" = some "keep" := by
  rw [C399_purge]; decide

end Verif.IO
