import Verif.IO.Folder
import Mathlib.Data.List.Nodup

/-!
# The working directory is restored and files are carried over (C84)
-/

namespace Verif.IO.Folder

variable {D B C : Type} [DecidableEq D] [DecidableEq B]

theorem bringAll_ok (move : Bool) (cwd target : D) : ∀ (l : List (Name D B)) (fs : D × B → Option C),
    (l.map (·.base)).Nodup → (∀ n ∈ l, (fs (n.abs cwd)).isSome) →
    ∃ fs', bringAll true move cwd target l fs = (true, fs') ∧
      (∀ n ∈ l, fs' (target, n.base) = fs (n.abs cwd)) ∧
      (∀ n ∈ l, n.abs cwd ≠ (target, n.base) → fs' (n.abs cwd) = if move then none else fs (n.abs cwd)) ∧
      (∀ p, (∀ n ∈ l, p ≠ (target, n.base)) → (∀ n ∈ l, p ≠ n.abs cwd) → fs' p = fs p)
  | [], fs, _, _ => ⟨fs, rfl, by simp, by simp, by simp⟩
  | n :: l, fs, hnd, hex => by
    rw [List.map_cons, List.nodup_cons] at hnd
    have hne : ∀ m ∈ l, m.base ≠ n.base := fun m hm h => hnd.1 (h ▸ List.mem_map_of_mem hm)
    -- the first file
    have h1 : ∃ fs1, bring true move (n.abs cwd) (target, n.base) fs = (true, fs1) ∧ fs1 (target, n.base) = fs (n.abs cwd) ∧
        (n.abs cwd ≠ (target, n.base) → fs1 (n.abs cwd) = if move then none else fs (n.abs cwd)) ∧
        (∀ p, p.2 ≠ n.base → fs1 p = fs p) ∧ (∀ p, p ≠ (target, n.base) → p ≠ n.abs cwd → fs1 p = fs p) := by
      by_cases hsd : n.abs cwd = (target, n.base)
      · exact ⟨fs, by simp [bring, hsd], by rw [hsd], fun h => absurd hsd h, fun _ _ => rfl, fun _ _ _ => rfl⟩
      · obtain ⟨c, hc⟩ := Option.isSome_iff_exists.1 (hex n List.mem_cons_self)
        refine ⟨if move then put (n.abs cwd) none (put (target, n.base) (some c) (put (target, n.base) none fs)) else put (target, n.base) (some c) (put (target, n.base) none fs), ?_, ?_, ?_, ?_, ?_⟩
        · simp [bring, hsd, put, hc]
        · cases move <;> simp [put, hc, Ne.symm hsd]
        · intro _
          cases move <;> simp [put, hsd]
        · intro p hp
          have q1 : p ≠ (target, n.base) := fun h => hp (by rw [h])
          have q2 : p ≠ n.abs cwd := fun h => hp (by rw [h]; rfl)
          cases move <;> simp [put, q1, q2]
        · intro p q1 q2
          cases move <;> simp [put, q1, q2]
    obtain ⟨fs1, e1, d1, s1, b1, o1⟩ := h1
    have hfs : ∀ m ∈ l, fs1 (m.abs cwd) = fs (m.abs cwd) := fun m hm => b1 _ (hne m hm)
    obtain ⟨fs', e, d, s, o⟩ := bringAll_ok move cwd target l fs1 hnd.2 (fun m hm => by
      rw [hfs m hm]; exact hex m (List.mem_cons_of_mem _ hm))
    have hother : ∀ p : D × B, p.2 = n.base → fs' p = fs1 p := by
      intro p hp
      exact o p (fun m hm h => hne m hm (by rw [← hp, h])) (fun m hm h => hne m hm (by rw [← hp, h]; rfl))
    refine ⟨fs', by simp only [bringAll, e1, e], ?_, ?_, ?_⟩
    · intro m hm
      rcases List.mem_cons.1 hm with rfl | hm
      · rw [hother _ rfl, d1]
      · rw [d m hm, hfs m hm]
    · intro m hm hmd
      rcases List.mem_cons.1 hm with rfl | hm
      · rw [hother _ rfl, s1 hmd]
      · rw [s m hm hmd, hfs m hm]
    · intro p h1 h2
      rw [o p (fun m hm => h1 m (List.mem_cons_of_mem _ hm)) (fun m hm => h2 m (List.mem_cons_of_mem _ hm)),
        o1 p (h1 n List.mem_cons_self) (h2 n List.mem_cons_self)]

/-- **C84, entering.** With existing files of distinct names, entering succeeds; the working directory
is the folder, it holds each pulled file with the contents of the original, and nothing else changes. -/
theorem C84_pull (origin folder : D) (pull : List (Name D B)) (w : World D B C) (hf : folder ≠ origin)
    (hnd : (pull.map (·.base)).Nodup) (hex : ∀ n ∈ pull, (w.fs (n.abs w.cwd)).isSome) :
    ∃ w', enter origin folder pull true w = (true, w') ∧ w'.cwd = folder ∧
      (∀ n ∈ pull, w'.fs (folder, n.base) = w.fs (n.abs w.cwd)) ∧
      ∀ p, (∀ n ∈ pull, p ≠ (folder, n.base)) → w'.fs p = w.fs p := by
  obtain ⟨fs', e, d, s, o⟩ := bringAll_ok (C := C) false w.cwd folder pull w.fs hnd hex
  refine ⟨⟨folder, fs'⟩, by simp only [enter, if_neg hf, e], rfl, d, ?_⟩
  intro p hp
  by_cases hs : ∃ n ∈ pull, p = n.abs w.cwd
  · obtain ⟨n, hn, rfl⟩ := hs
    have := s n hn (hp n hn)
    simpa using this
  · push Not at hs
    exact o p hp hs

/-- **C84, leaving.** If the pushed files exist when the block ends and have distinct names, leaving
succeeds whatever the block did; the working directory is the original one, it holds each pushed file,
the moved files are gone from where they were and nothing else changes. -/
theorem C84_push (origin folder : D) (push : List (Name D B)) (w : World D B C) (hf : folder ≠ origin)
    (hnd : (push.map (·.base)).Nodup) (hex : ∀ n ∈ push, (w.fs (n.abs w.cwd)).isSome) :
    ∃ w', leave origin folder push true w = (true, w') ∧ w'.cwd = origin ∧
      (∀ n ∈ push, w'.fs (origin, n.base) = w.fs (n.abs w.cwd)) ∧
      (∀ n ∈ push, n.abs w.cwd ≠ (origin, n.base) → w'.fs (n.abs w.cwd) = none) ∧
      ∀ p, (∀ n ∈ push, p ≠ (origin, n.base)) → (∀ n ∈ push, p ≠ n.abs w.cwd) → w'.fs p = w.fs p := by
  obtain ⟨fs', e, d, s, o⟩ := bringAll_ok (C := C) true w.cwd origin push w.fs hnd hex
  refine ⟨⟨origin, fs'⟩, by simp only [leave, if_neg hf, e], rfl, d, ?_, o⟩
  intro n hn h
  simpa using s n hn h

/-- **C84.** After a block in another folder, whether the body succeeds or raises and wherever it goes,
the working directory is the one before, provided the files it asked to push exist when it ends; an
exception of the body is passed on.
Missing: files to push that do not exist, and a block in the current folder; see the counterexamples. -/
theorem C84_restored_partial (f : D) (pull : List (Name D B)) (force : Bool)
    (body : World D B C → Bool × List (Name D B) × World D B C) (w : World D B C) (hf : f ≠ w.cwd)
    (hb : ∀ w', enter w.cwd f pull force w = (true, w') →
      ((body w').2.1.map (·.base)).Nodup ∧ (∀ n ∈ (body w').2.1, ((body w').2.2.fs (n.abs (body w').2.2.cwd)).isSome) ∧ force = true ∨ (body w').2.1 = []) :
    (withFolder f pull force body w).2.cwd = w.cwd ∧
    ∀ w', enter w.cwd f pull force w = (true, w') → (withFolder f pull force body w).1 = (body w').1 := by
  unfold withFolder
  rcases he : enter w.cwd f pull force w with ⟨r, w'⟩
  cases r with
  | false =>
    simp only
    refine ⟨?_, by simp⟩
    unfold enter at he
    rw [if_neg hf] at he
    rcases hb : bringAll force false w.cwd f pull w.fs with ⟨r, fs⟩
    rw [hb] at he
    cases r with
    | true => simp at he
    | false => simp only [Prod.mk.injEq] at he; rw [← he.2]
  | true =>
    have key : ∃ w2, leave w.cwd f (body w').2.1 force (body w').2.2 = (true, w2) ∧ w2.cwd = w.cwd := by
      rcases hb w' he with ⟨h1, h2, rfl⟩ | h
      · obtain ⟨w2, h3, h4, -⟩ := C84_push w.cwd f _ (body w').2.2 hf h1 h2
        exact ⟨w2, h3, h4⟩
      · rw [h]
        exact ⟨⟨w.cwd, (body w').2.2.fs⟩, by simp [leave, if_neg hf, bringAll], rfl⟩
    obtain ⟨w2, h3, h4⟩ := key
    simp only [h3, Bool.and_true]
    refine ⟨h4, ?_⟩
    intro w'' h
    simp only [Prod.mk.injEq, true_and] at h
    rw [h]

/-- Directories 0 and 1; file `a` in directory 0. -/
def start : World ℕ String String := ⟨0, fun p => if p = (0, "a") then some "x" else none⟩

/-- A body that works on `a`, makes `b`, asks to push `b` from another directory, and raises. -/
def work (w : World ℕ String String) : Bool × List (Name ℕ String) × World ℕ String String :=
  (false, [⟨some 1, "b"⟩], ⟨5, put (1, "b") ((w.fs (1, "a")).map (· ++ "y")) w.fs⟩)

example : (1 : ℕ) ≠ start.cwd ∧ (∀ w', enter start.cwd 1 [⟨none, "a"⟩] true start = (true, w') →
      ((work w').2.1.map (·.base)).Nodup ∧ (∀ n ∈ (work w').2.1, ((work w').2.2.fs (n.abs (work w').2.2.cwd)).isSome) ∧ true = true ∨ (work w').2.1 = []) ∧
    (withFolder 1 [⟨none, "a"⟩] true work start).2.fs (0, "b") = some "xy" ∧ (withFolder 1 [⟨none, "a"⟩] true work start).1 = false := by
  refine ⟨by decide, ?_, by decide, by decide⟩
  intro w' h
  left
  have hw : w'.fs (1, "a") = some "x" := by
    have : (enter start.cwd 1 [⟨none, "a"⟩] true start).2.fs (1, "a") = some "x" := by decide
    rw [h] at this; exact this
  refine ⟨by simp [work], ?_, rfl⟩
  intro n hn
  simp only [work, List.mem_singleton] at hn
  subst hn
  simp [work, Name.abs, put, hw]

/-- C84 is false when a file to push does not exist: the exception leaves the process in the folder,
and a file of that name in the original directory has been deleted. -/
theorem C84_missing_counterexample :
    (withFolder 1 [] true (fun w => (true, [⟨none, "a"⟩], w)) start).1 = false ∧
    (withFolder 1 [] true (fun w => (true, [⟨none, "a"⟩], w)) start).2.cwd = 1 ∧
    start.fs (0, "a") = some "x" ∧
    (withFolder 1 [] true (fun w => (true, [⟨none, "a"⟩], w)) start).2.fs (0, "a") = none := by decide

/-- C84 is false for a block in the current folder whose body changes directory. -/
theorem C84_same_folder_counterexample :
    (withFolder 0 [] true (fun w => (true, [], { w with cwd := 7 })) start).2.cwd = 7 := by decide

end Verif.IO.Folder
