import Verif.IO.AvlFolder
import Mathlib.Data.List.Basic
import Mathlib.Tactic.Common

/-!
# C422: the folder of an AVL run
-/

namespace Verif.IO

theorem evaluate_run (t : AvlTraining) (h : t.regression = false) (i : Nat) (fs : Folders) :
    t.evaluate i fs = some fun x => if x = t.run then
      (if t.keep then some ((fs t.run).getD [] ++ t.input i ++ t.output i) else none) else fs x := by
  unfold AvlTraining.evaluate
  simp only [h, Bool.false_eq_true, if_false]
  rw [if_pos]
  intro f hf
  simp [hf]

theorem loop_other (t : AvlTraining) : ∀ (n i : Nat) (fs fs' : Folders), t.loop n i fs = some fs' → ∀ x, x ≠ t.run →
    fs' x = fs x
  | 0, _, fs, fs', h, x, _ => by simp only [AvlTraining.loop, Option.some.injEq] at h; rw [h]
  | n + 1, i, fs, fs', h, x, hx => by
    unfold AvlTraining.loop at h
    cases he : t.evaluate i fs with
    | none => simp [he] at h
    | some g =>
      simp only [he] at h
      rw [loop_other t n (i + 1) g fs' h x hx]
      unfold AvlTraining.evaluate at he
      simp only at he
      generalize (fs t.run).getD [] ++ t.input i ++ (if t.regression = true then [] else t.output i) = files at he
      by_cases hc : ∀ f ∈ t.output i, f ∈ files
      · rw [if_pos hc] at he
        simp only [Option.some.injEq] at he
        rw [← he]
        simp [hx]
      · rw [if_neg hc] at he
        simp at he

/-- **C422 (other folders).** A training run changes no folder but its own. -/
theorem C422_other_folders (t : AvlTraining) (n : Nat) (fs fs' : Folders) (h : t.train n fs = some fs') (x : String)
    (hx : x ≠ t.run) : fs' x = fs x := by
  unfold AvlTraining.train at h
  cases hc : t.clean fs with
  | none => simp [hc] at h
  | some g =>
    simp only [hc] at h
    rw [loop_other t n 0 g fs' h x hx]
    unfold AvlTraining.clean at hc
    split at hc
    · unfold rmTree at hc
      split at hc
      · simp at hc
      · simp only [Option.some.injEq] at hc
        rw [← hc]
        simp [hx]
    · simp only [Option.some.injEq] at hc
      rw [hc]

theorem loop_keep (t : AvlTraining) (hr : t.regression = false) (hk : t.keep = true) : ∀ (n i : Nat) (fs : Folders),
    ∃ fs', t.loop n i fs = some fs' ∧ (0 < n → fs' t.run = some ((fs t.run).getD []
      ++ (List.range' i n).flatMap fun j => t.input j ++ t.output j))
  | 0, i, fs => ⟨fs, rfl, fun h => absurd h (by omega)⟩
  | n + 1, i, fs => by
    obtain ⟨fs', h1, h2⟩ := loop_keep t hr hk n (i + 1) (fun x => if x = t.run then
      (if t.keep then some ((fs t.run).getD [] ++ t.input i ++ t.output i) else none) else fs x)
    refine ⟨fs', by rw [AvlTraining.loop, evaluate_run t hr]; exact h1, fun _ => ?_⟩
    cases n with
    | zero =>
      simp only [AvlTraining.loop, Option.some.injEq] at h1
      rw [← h1]
      simp [hk, List.range']
    | succ m =>
      rw [h2 (by omega), List.range'_succ (s := i)]
      simp only [hk, if_true, Option.getD_some, List.flatMap_cons, List.append_assoc]

theorem loop_drop (t : AvlTraining) (hr : t.regression = false) (hk : t.keep = false) : ∀ (n i : Nat) (fs : Folders),
    ∃ fs', t.loop n i fs = some fs' ∧ (0 < n → fs' t.run = none)
  | 0, i, fs => ⟨fs, rfl, fun h => absurd h (by omega)⟩
  | n + 1, i, fs => by
    obtain ⟨fs', h1, h2⟩ := loop_drop t hr hk n (i + 1) (fun x => if x = t.run then
      (if t.keep then some ((fs t.run).getD [] ++ t.input i ++ t.output i) else none) else fs x)
    refine ⟨fs', by rw [AvlTraining.loop, evaluate_run t hr]; exact h1, fun _ => ?_⟩
    cases n with
    | zero =>
      simp only [AvlTraining.loop, Option.some.injEq] at h1
      rw [← h1]
      simp [hk]
    | succ m => exact h2 (by omega)

/-- **C422 (the default folder).** In the default folder a training run with AVL at one Mach number or more succeeds
whatever was there; kept files are exactly those of this run, in order, and nothing is left of the folder if they are not
kept. -/
theorem C422_default_partial (t : AvlTraining) (hd : t.run = "avl_files") (hr : t.regression = false) (n : Nat) (hn : 0 < n)
    (fs : Folders) :
    ∃ fs', t.train n fs = some fs' ∧ fs' t.run
      = if t.keep then some ((List.range n).flatMap fun j => t.input j ++ t.output j) else none := by
  have hc : ∃ g, t.clean fs = some g ∧ g t.run = none := by
    unfold AvlTraining.clean
    by_cases h : (fs "avl_files").isSome
    · rw [if_pos ⟨h, hr⟩]
      obtain ⟨l, hl⟩ := Option.isSome_iff_exists.1 h
      refine ⟨_, by unfold rmTree; rw [hd, hl], by simp [hd]⟩
    · rw [if_neg (by simp [h])]
      exact ⟨fs, rfl, by rw [hd]; simpa using h⟩
  obtain ⟨g, hg, hg'⟩ := hc
  unfold AvlTraining.train
  rw [hg]
  cases hk : t.keep with
  | true =>
    obtain ⟨fs', h1, h2⟩ := loop_keep t hr hk n 0 g
    exact ⟨fs', h1, by simp [h2 hn, hg', List.range_eq_range']⟩
  | false =>
    obtain ⟨fs', h1, h2⟩ := loop_drop t hr hk n 0 g
    exact ⟨fs', h1, by simp [h2 hn]⟩

/-- A run with one input and one output for each Mach number. -/
def exTraining (run : String) (regression keep : Bool) : AvlTraining :=
  ⟨run, regression, keep, fun i => [s!"deck{i}"], fun i => [s!"result{i}"]⟩

example : ∃ fs', (exTraining "avl_files" false true).train 2 (fun x => if x = "avl_files" then some ["old"] else none)
    = some fs' ∧ fs' "avl_files" = some ["deck0", "result0", "deck1", "result1"] := by
  obtain ⟨fs', h1, h2⟩ := C422_default_partial (exTraining "avl_files" false true) rfl rfl 2 (by omega)
    (fun x => if x = "avl_files" then some ["old"] else none)
  exact ⟨fs', h1, h2⟩

/-- **C422 (counterexample, other folders).** In a folder with another name files of earlier runs stay, and if there is a
folder `avl_files` but none of the name given the run fails. -/
theorem C422_name_counterexample :
    (∃ fs', (exTraining "runs" false true).train 1 (fun x => if x = "runs" then some ["old"] else none) = some fs'
      ∧ fs' "runs" = some ["old", "deck0", "result0"])
    ∧ ∀ (t : AvlTraining) (n : Nat) (fs : Folders), t.regression = false → (fs "avl_files").isSome → fs t.run = none →
      t.train n fs = none := by
  constructor
  · obtain ⟨fs', h1, h2⟩ := loop_keep (exTraining "runs" false true) rfl rfl 1 0
      (fun x => if x = "runs" then some ["old"] else none)
    exact ⟨fs', h1, h2 (by omega)⟩
  · intro t n fs hr ha ht
    unfold AvlTraining.train AvlTraining.clean rmTree
    rw [if_pos ⟨ha, hr⟩, ht]

/-- **C422 (counterexample, stored results).** With stored results and the default of not keeping files, the first Mach
number removes the results of all: for two Mach numbers or more whose results are no inputs the training always fails, and
for one it succeeds at the price of the stored files. -/
theorem C422_stored_counterexample :
    (∀ (t : AvlTraining) (n : Nat) (fs : Folders), t.regression = true → t.keep = false → 2 ≤ n →
      (∃ f ∈ t.output 1, f ∉ t.input 1) → t.train n fs = none)
    ∧ ∀ (t : AvlTraining) (fs : Folders) (l : List String), t.regression = true → t.keep = false → fs t.run = some l →
      (∀ f ∈ t.output 0, f ∈ l) → ∃ fs', t.train 1 fs = some fs' ∧ fs' t.run = none := by
  constructor
  · intro t n fs hr hk hn ⟨f, hf, hi⟩
    obtain ⟨m, rfl⟩ : ∃ m, n = m + 2 := ⟨n - 2, by omega⟩
    have hc : t.clean fs = some fs := by simp [AvlTraining.clean, hr]
    unfold AvlTraining.train
    rw [hc]
    simp only [AvlTraining.loop]
    cases he : t.evaluate 0 fs with
    | none => rfl
    | some g =>
      have hg : g t.run = none := by
        unfold AvlTraining.evaluate at he
        simp only [hk] at he
        generalize (fs t.run).getD [] ++ t.input 0 ++ (if t.regression = true then [] else t.output 0) = files at he
        by_cases hx : ∀ f ∈ t.output 0, f ∈ files
        · rw [if_pos hx] at he
          simp only [Option.some.injEq] at he
          rw [← he]
          simp
        · rw [if_neg hx] at he
          simp at he
      have h2 : t.evaluate 1 g = none := by
        unfold AvlTraining.evaluate
        simp only [hr, hg]
        rw [if_neg]
        intro h
        exact hi (by simpa using h f hf)
      simp only [Nat.zero_add, h2]
  · intro t fs l hr hk hl ho
    have hc : t.clean fs = some fs := by simp [AvlTraining.clean, hr]
    unfold AvlTraining.train
    rw [hc]
    simp only [AvlTraining.loop]
    unfold AvlTraining.evaluate
    simp only [hr, hk, hl]
    rw [if_pos (fun f hf => by simp [ho f hf])]
    exact ⟨_, rfl, by simp⟩

end Verif.IO
