import Verif.IO.Redirect
import Mathlib.Tactic.Linarith

/-!
# Output redirection is scoped (C48)

The specification is an interpreter without `sys.stdout` and `sys.stderr`: the two streams are passed
down as an environment, so they cannot leak out of a block.
-/

namespace Verif.IO.Redirect

/-- The stream an argument stands for in an environment with current stream `cur`, and the next
stream number; `none` if the file cannot be opened. -/
def pick (a : Arg) (cur n : ℕ) : Option ℕ × ℕ :=
  match a with
  | .none => (some cur, n)
  | .stream s => (some s, n)
  | .file true => (some n, n + 1)
  | .file false => (none, n)

/-- Lexically scoped meaning: with current streams `o` and `e` and next stream number `n`, does the
program end normally, what does it write where, and the next stream number. -/
def lexical : Prog → ℕ → ℕ → ℕ → Bool × List (ℕ × String) × ℕ
  | .skip, _, _, n => (true, [], n)
  | .raise, _, _, n => (false, [], n)
  | .printOut t, o, _, n => (true, [(o, t)], n)
  | .printErr t, _, e, n => (true, [(e, t)], n)
  | .seq p q, o, e, n =>
    match lexical p o e n with
    | (false, l, n) => (false, l, n)
    | (true, l, n) => let r := lexical q o e n; (r.1, l ++ r.2.1, r.2.2)
  | .attempt p h, o, e, n =>
    match lexical p o e n with
    | (true, l, n) => (true, l, n)
    | (false, l, n) => let r := lexical h o e n; (r.1, l ++ r.2.1, r.2.2)
  | .withNew a b body, o, e, n =>
    match pick a o n with
    | (none, n) => (false, [], n)
    | (some o', n) =>
      match pick b e n with
      | (none, n) => (false, [], n)
      | (some e', n) => lexical body o' e' n
  | .close _, _, _, n => (true, [], n)
  | .create _ _ _, _, _, n => (true, [], n)
  | .withObj _ _, _, _, n => (true, [], n)

/-- A stream argument given by the user is older than `n`. -/
def Arg.Old (n : ℕ) : Arg → Prop
  | .stream s => s < n
  | _ => True

/-- Programs that make a new `output` object for every block, pass only streams older than `n`, and
close no stream themselves. -/
def Plain (n : ℕ) : Prog → Prop
  | .skip => True
  | .raise => True
  | .printOut _ => True
  | .printErr _ => True
  | .close _ => False
  | .seq p q => Plain n p ∧ Plain n q
  | .attempt p h => Plain n p ∧ Plain n h
  | .withNew o e body => o.Old n ∧ e.Old n ∧ Plain n body
  | .create _ _ _ => False
  | .withObj _ _ => False

/-- A sound start: the current streams and all streams older than `n` are open, as are the streams
still to come. -/
structure Good (n : ℕ) (w : World) : Prop where
  le : n ≤ w.next
  out : w.out < w.next
  err : w.err < w.next
  openOut : w.closed w.out = false
  openErr : w.closed w.err = false
  old : ∀ s < n, w.closed s = false
  new : ∀ s, w.next ≤ s → w.closed s = false

/-- What a run leaves behind: streams restored, only streams opened meanwhile are closed. -/
structure Kept (w w' : World) (l : List (ℕ × String)) (k : ℕ) : Prop where
  out : w'.out = w.out
  err : w'.err = w.err
  log : w'.log = w.log ++ l
  next : w'.next = k
  le : w.next ≤ w'.next
  same : ∀ s < w.next, w'.closed s = w.closed s
  new : ∀ s, w'.next ≤ s → w'.closed s = false

theorem Kept.good {n : ℕ} {w w' : World} {l : List (ℕ × String)} {k : ℕ} (h : Kept w w' l k) (g : Good n w) : Good n w' := by
  refine ⟨g.le.trans h.le, ?_, ?_, ?_, ?_, ?_, h.new⟩
  · rw [h.out]; exact lt_of_lt_of_le g.out h.le
  · rw [h.err]; exact lt_of_lt_of_le g.err h.le
  · rw [h.out, h.same _ g.out]; exact g.openOut
  · rw [h.err, h.same _ g.err]; exact g.openErr
  · intro s hs
    rw [h.same s (lt_of_lt_of_le hs g.le)]; exact g.old s hs

theorem Kept.trans {w w' w'' : World} {l l' : List (ℕ × String)} {k k' : ℕ} (h : Kept w w' l k) (h' : Kept w' w'' l' k') :
    Kept w w'' (l ++ l') k' := by
  refine ⟨h'.out.trans h.out, h'.err.trans h.err, ?_, h'.next, h.le.trans h'.le, ?_, h'.new⟩
  · rw [h'.log, h.log, List.append_assoc]
  · intro s hs
    rw [h'.same s (lt_of_lt_of_le hs h.le), h.same s hs]

theorem openArg_spec (a : Arg) (cur : ℕ) (n : ℕ) (ha : a.Old n) (w : World) (hle : n ≤ w.next) (hcur : cur < w.next) :
    ∃ so no k, openArg a w = (so.map fun x => (x, no), { w with next := k }) ∧ w.next ≤ k ∧
      (pick a cur w.next) = (so.map (·.getD cur), k) ∧
      (∀ x, so = some x → x.getD cur < k ∧ (no = true → w.next ≤ x.getD cur) ∧ (no = false → x.getD cur = cur ∨ x.getD cur < n)) := by
  match a with
  | .none => exact ⟨some none, false, w.next, rfl, le_rfl, rfl, by intro x hx; obtain rfl : none = x := by simpa using hx
                                                                   simp [hcur]⟩
  | .stream s =>
    refine ⟨some (some s), false, w.next, rfl, le_rfl, rfl, ?_⟩
    rintro x hx
    obtain rfl : some s = x := by simpa using hx
    have : s < n := ha
    simp [this, lt_of_lt_of_le this hle]
  | .file true =>
    refine ⟨some (some w.next), true, w.next + 1, rfl, by omega, rfl, ?_⟩
    rintro x hx
    obtain rfl : some w.next = x := by simpa using hx
    simp
  | .file false => exact ⟨none, false, w.next, rfl, le_rfl, rfl, by simp⟩

theorem run_lexical (n : ℕ) : ∀ (p : Prog), Plain n p → ∀ (w : World), Good n w →
    (run p w).1 = (lexical p w.out w.err w.next).1 ∧
    Kept w (run p w).2 (lexical p w.out w.err w.next).2.1 (lexical p w.out w.err w.next).2.2
  | .skip, _, w, g => ⟨rfl, rfl, rfl, by simp [run, lexical], rfl, le_rfl, fun _ _ => rfl, g.new⟩
  | .raise, _, w, g => ⟨rfl, rfl, rfl, by simp [run, lexical], rfl, le_rfl, fun _ _ => rfl, g.new⟩
  | .printOut t, _, w, g => by
    have : run (.printOut t) w = (true, { w with log := w.log ++ [(w.out, t)] }) := by simp [run, write, g.openOut]
    rw [this]
    exact ⟨rfl, rfl, rfl, rfl, rfl, le_rfl, fun _ _ => rfl, g.new⟩
  | .printErr t, _, w, g => by
    have : run (.printErr t) w = (true, { w with log := w.log ++ [(w.err, t)] }) := by simp [run, write, g.openErr]
    rw [this]
    exact ⟨rfl, rfl, rfl, rfl, rfl, le_rfl, fun _ _ => rfl, g.new⟩
  | .close _, h, _, _ => h.elim
  | .create _ _ _, h, _, _ => h.elim
  | .withObj _ _, h, _, _ => h.elim
  | .seq p q, h, w, g => by
    obtain ⟨h1, k1⟩ := run_lexical n p h.1 w g
    rcases hr : run p w with ⟨r, w1⟩
    rcases hs : lexical p w.out w.err w.next with ⟨r', l, n1⟩
    rw [hr, hs] at h1 k1
    simp only at h1 k1
    subst h1
    cases r with
    | false => simp only [run, lexical, hr, hs]; exact ⟨trivial, k1⟩
    | true =>
      obtain ⟨h2, k2⟩ := run_lexical n q h.2 w1 (k1.good g)
      rw [k1.out, k1.err, k1.next] at h2 k2
      simp only [run, lexical, hr, hs]
      exact ⟨h2, k1.trans k2⟩
  | .attempt p q, h, w, g => by
    obtain ⟨h1, k1⟩ := run_lexical n p h.1 w g
    rcases hr : run p w with ⟨r, w1⟩
    rcases hs : lexical p w.out w.err w.next with ⟨r', l, n1⟩
    rw [hr, hs] at h1 k1
    simp only at h1 k1
    subst h1
    cases r with
    | true => simp only [run, lexical, hr, hs]; exact ⟨trivial, k1⟩
    | false =>
      obtain ⟨h2, k2⟩ := run_lexical n q h.2 w1 (k1.good g)
      rw [k1.out, k1.err, k1.next] at h2 k2
      simp only [run, lexical, hr, hs]
      exact ⟨h2, k1.trans k2⟩
  | .withNew a b body, h, w, g => by
    obtain ⟨ha, hb, hbody⟩ := h
    obtain ⟨so, no, k1, e1, le1, p1, s1⟩ := openArg_spec a w.out n ha w g.le g.out
    obtain ⟨se, ne, k2, e2, le2, p2, s2⟩ := openArg_spec b w.err n hb { w with next := k1 } (g.le.trans le1) (lt_of_lt_of_le g.err le1)
    simp only at e2 p2 le2 s2
    cases so with
    | none =>
      simp only [run, lexical, init, e1, p1, Option.map_none]
      exact ⟨trivial, rfl, rfl, by simp, rfl, le1, fun _ _ => rfl, fun s hs => g.new s (le1.trans hs)⟩
    | some o =>
      cases se with
      | none =>
        simp only [run, lexical, init, e1, p1, e2, p2, Option.map_none, Option.map_some]
        exact ⟨trivial, rfl, rfl, by simp, rfl, le1.trans le2, fun _ _ => rfl, fun s hs => g.new s ((le1.trans le2).trans hs)⟩
      | some e =>
        obtain ⟨ho1, ho2, ho3⟩ := s1 o rfl
        obtain ⟨he1, he2, he3⟩ := s2 e rfl
        have oo : w.closed (o.getD w.out) = false := by
          cases no with
          | true => exact g.new _ (ho2 rfl)
          | false =>
            rcases ho3 rfl with hh | hh
            · rw [hh]; exact g.openOut
            · exact g.old _ hh
        have oe : w.closed (e.getD w.err) = false := by
          cases ne with
          | true => exact g.new _ (le1.trans (he2 rfl))
          | false =>
            rcases he3 rfl with hh | hh
            · rw [hh]; exact g.openErr
            · exact g.old _ hh
        let w1 : World := { w with next := k2, out := o.getD w.out, err := e.getD w.err }
        have g1 : Good n w1 := ⟨(g.le.trans le1).trans le2, lt_of_lt_of_le ho1 le2, he1, oo, oe, g.old,
          fun s hs => g.new s ((le1.trans le2).trans hs)⟩
        obtain ⟨h3, k3⟩ := run_lexical n body hbody w1 g1
        have hent : enter ⟨o.getD w.out, e.getD w.err, no, ne, 0, 0⟩ { w with next := k2 } =
            some (⟨o.getD w.out, e.getD w.err, no, ne, w.out, w.err⟩, w1) := by
          simp [enter, g.openOut, g.openErr, w1]
        rcases hr : run body w1 with ⟨r, w2⟩
        rw [hr] at h3 k3
        simp only at h3 k3
        have c1 : w2.closed (o.getD w.out) = false := by rw [k3.same _ g1.out]; exact oo
        have c2 : w2.closed (e.getD w.err) = false := by rw [k3.same _ g1.err]; exact oe
        have hsc : lexical (.withNew a b body) w.out w.err w.next = lexical body w1.out w1.err w1.next := by
          simp only [lexical, p1, p2, Option.map_some, w1]
        have hrun : run (.withNew a b body) w = (r, (exit ⟨o.getD w.out, e.getD w.err, no, ne, w.out, w.err⟩ w2).2) ∧
            (exit ⟨o.getD w.out, e.getD w.err, no, ne, w.out, w.err⟩ w2).2 =
              (if ne then closeStream (e.getD w.err) else id) ((if no then closeStream (o.getD w.out) else id) { w2 with out := w.out, err := w.err }) := by
          constructor
          · simp only [run, init, e1, e2, Option.map_some, hent, hr]
            simp only [exit, c1, c2, Bool.or_false, Bool.false_eq_true, if_false, Bool.and_true]
          · simp only [exit, c1, c2, Bool.or_false, Bool.false_eq_true, if_false]
            cases no <;> cases ne <;> rfl
        rw [hsc, hrun.1]
        refine ⟨h3, ?_⟩
        simp only
        rw [hrun.2]
        have hnew : ∀ s, s < w.next → (no = true → s ≠ o.getD w.out) ∧ (ne = true → s ≠ e.getD w.err) := by
          intro s hs
          exact ⟨fun hh h' => by have := ho2 hh; omega, fun hh h' => by have := he2 hh; omega⟩
        have hlog := k3.log
        have hle : k2 ≤ w2.next := k3.le
        have hnext := k3.next
        have hsame : ∀ s < k2, w2.closed s = w.closed s := k3.same
        have hkn := k3.new
        have hop : ∀ s, w2.next ≤ s → s ≠ o.getD w.out ∧ s ≠ e.getD w.err := by
          intro s hs
          constructor
          · intro h'; omega
          · intro h'; omega
        have hwk : w.next ≤ k2 := le1.trans le2
        refine ⟨?_, ?_, ?_, ?_, ?_, ?_, ?_⟩
        · cases no <;> cases ne <;> rfl
        · cases no <;> cases ne <;> rfl
        · cases no <;> cases ne <;> exact hlog
        · cases no <;> cases ne <;> exact hnext
        · cases no <;> cases ne <;> exact (le1.trans le2).trans hle
        · intro s hs
          obtain ⟨q1, q2⟩ := hnew s hs
          have q3 := hsame s (lt_of_lt_of_le hs hwk)
          have r1 : no = true → (s == o.getD w.out) = false := fun h => beq_eq_false_iff_ne.2 (q1 h)
          have r2 : ne = true → (s == e.getD w.err) = false := fun h => beq_eq_false_iff_ne.2 (q2 h)
          clear * - r1 r2 q3
          cases no <;> cases ne
          · exact q3
          · simp only [closeStream, if_true, id, Bool.false_eq_true, if_false]; rw [r2 rfl]; exact q3
          · simp only [closeStream, if_true, id, Bool.false_eq_true, if_false]; rw [r1 rfl]; exact q3
          · simp only [closeStream, if_true]; rw [r1 rfl, r2 rfl]; exact q3
        · intro s hs
          have hs' : w2.next ≤ s := by cases no <;> cases ne <;> exact hs
          obtain ⟨q1, q2⟩ := hop s hs'
          have q3 := hkn s hs'
          clear * - q1 q2 q3
          cases no <;> cases ne <;> simp_all [closeStream]

/-- **C48.** If every block makes its own `output` object and no stream is closed by hand, then after
any program, however nested and whether or not an exception escapes, standard output and error are
the ones from before, and no stream that existed before was closed.
Missing: reuse of one object, and streams closed inside a block; see the counterexamples. -/
theorem C48_restored_partial (p : Prog) (w : World) (hp : Plain w.next p) (g : Good w.next w) :
    (run p w).2.out = w.out ∧ (run p w).2.err = w.err ∧ ∀ s < w.next, (run p w).2.closed s = w.closed s :=
  have h := (run_lexical w.next p hp w g).2
  ⟨h.out, h.err, h.same⟩

/-- **C48, delivery.** Such programs write to the streams given by lexical scope, and exceptions are
neither swallowed nor added by the blocks. -/
theorem C48_scoped (p : Prog) (w : World) (hp : Plain w.next p) (g : Good w.next w) :
    (run p w).1 = (lexical p w.out w.err w.next).1 ∧ (run p w).2.log = w.log ++ (lexical p w.out w.err w.next).2.1 :=
  have h := run_lexical w.next p hp w g
  ⟨h.1, h.2.log⟩

/-- Streams 0 and 1 as standard output and error, 2 another open stream. -/
def start : World := ⟨0, 1, fun _ => false, 3, [], fun _ => none⟩

/-- Nested blocks with an exception inside, caught outside. -/
def sample : Prog :=
  .seq (.attempt (.withNew (.file true) .none (.seq (.printOut "a") (.withNew (.stream 2) (.file true)
    (.seq (.printOut "b") .raise)))) (.printErr "c")) (.printOut "d")

example : Plain start.next sample ∧ Good start.next start ∧
    (run sample start).2.log = [(3, "a"), (2, "b"), (1, "c"), (0, "d")] := by
  refine ⟨by simp [Plain, sample, Arg.Old, start], ⟨le_rfl, ?_, ?_, rfl, rfl, fun _ _ => rfl, fun _ _ => rfl⟩, by decide⟩ <;> simp [start]

/-- C48 is false when one object is entered again inside its own block. -/
theorem C48_reentered_counterexample :
    (run (.seq (.create 0 (.stream 2) .none) (.withObj 0 (.withObj 0 .skip))) start).2.out = 2 := by decide

/-- C48 is false when an object that opened a file is used a second time: the file is closed, flushing
it raises before the streams are put back. -/
theorem C48_reused_counterexample :
    (run (.seq (.create 0 (.file true) .none) (.seq (.withObj 0 .skip) (.withObj 0 .skip))) start).1 = false ∧
    (run (.seq (.create 0 (.file true) .none) (.seq (.withObj 0 .skip) (.withObj 0 .skip))) start).2.out = 3 := by decide

/-- C48 is false when the stream redirected to is closed inside the block. -/
theorem C48_closed_counterexample :
    (run (.withNew (.stream 2) .none (.close 2)) start).1 = false ∧ (run (.withNew (.stream 2) .none (.close 2)) start).2.out = 2 := by
  decide

end Verif.IO.Redirect
