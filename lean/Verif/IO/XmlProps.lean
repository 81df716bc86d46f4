import Verif.IO.Xml
import Mathlib.Data.List.TakeWhile
import Mathlib.Data.List.DropRight
import Mathlib.Tactic.Linarith

/-!
# XML round trip (C44)
-/

namespace Verif.IO.Xml

mutual
/-- A tree with every content stripped of surrounding white space. -/
def trim (ws : Char → Bool) : E → E
  | .node tag attrs content elements => .node tag attrs (strip ws content) (trimL ws elements)
def trimL (ws : Char → Bool) : List E → List E
  | [] => []
  | a :: l => trim ws a :: trimL ws l
end

mutual
/-- No content has surrounding white space. -/
def Trimmed (ws : Char → Bool) : E → Prop
  | .node _ _ content elements => strip ws content = content ∧ TrimmedL ws elements
def TrimmedL (ws : Char → Bool) : List E → Prop
  | [] => True
  | a :: l => Trimmed ws a ∧ TrimmedL ws l
end

mutual
theorem trim_id (ws : Char → Bool) : ∀ e : E, Trimmed ws e → trim ws e = e
  | .node tag attrs content elements, h => by
    rw [Trimmed] at h
    rw [trim, h.1, trimL_id ws elements h.2]
theorem trimL_id (ws : Char → Bool) : ∀ l : List E, TrimmedL ws l → trimL ws l = l
  | [], _ => by rw [trimL]
  | a :: l, h => by
    rw [TrimmedL] at h
    rw [trimL, trim_id ws a h.1, trimL_id ws l h.2]
end

theorem strip_blank_right (ws : Char → Bool) (s w : List Char) (hw : blank ws w = true) : strip ws (s ++ w) = strip ws s := by
  unfold strip blank at *
  rw [List.all_eq_true] at hw
  have hdw : w.dropWhile ws = [] := List.dropWhile_eq_nil_iff.2 hw
  by_cases hs : ∀ c ∈ s, ws c = true
  · have h1 : s.dropWhile ws = [] := List.dropWhile_eq_nil_iff.2 hs
    have h2 : (s ++ w).dropWhile ws = [] := List.dropWhile_eq_nil_iff.2 (by
      intro c hc
      rcases List.mem_append.1 hc with h | h
      · exact hs c h
      · exact hw c h)
    rw [h1, h2]
  · have h1 : (s ++ w).dropWhile ws = s.dropWhile ws ++ w := by
      rw [List.dropWhile_append]
      have : (s.dropWhile ws).isEmpty = false := by
        rw [List.isEmpty_eq_false_iff]
        intro h
        exact hs (List.dropWhile_eq_nil_iff.1 h)
      rw [this]; rfl
    rw [h1, List.reverse_append, List.dropWhile_append]
    have h2 : (w.reverse.dropWhile ws) = [] := List.dropWhile_eq_nil_iff.2 (by intro c hc; exact hw c (List.mem_reverse.1 hc))
    rw [h2]; rfl

theorem strip_blank (ws : Char → Bool) (w : List Char) (hw : blank ws w = true) : strip ws w = [] := by
  have := strip_blank_right ws [] w hw
  simpa [strip] using this

theorem strip_idem (ws : Char → Bool) (s : List Char) : strip ws (strip ws s) = strip ws s := by
  -- s = a ++ strip s ++ b with a, b blank
  have h1 : ∃ b, blank ws b = true ∧ s.dropWhile ws = strip ws s ++ b := by
    refine ⟨((s.dropWhile ws).reverse.takeWhile ws).reverse, ?_, ?_⟩
    · unfold blank
      rw [List.all_eq_true]
      intro c hc
      exact List.mem_takeWhile_imp (List.mem_reverse.1 hc)
    · unfold strip
      rw [← List.reverse_append, List.takeWhile_append_dropWhile, List.reverse_reverse]
  obtain ⟨b, hb, hs⟩ := h1
  have h2 : strip ws (s.dropWhile ws) = strip ws s := by
    have : (s.dropWhile ws).dropWhile ws = s.dropWhile ws := List.dropWhile_idempotent _ _
    unfold strip
    rw [this]
  rw [hs, strip_blank_right ws _ _ hb] at h2
  exact h2

mutual
/-- What a written tree is read as: content is the text and the tails of the children, stripped. -/
def readT (ws : Char → Bool) : T → E
  | .node tag attrs text _ ch => .node tag attrs (strip ws (text ++ tailsL ch)) (readL ws ch)
def readL (ws : Char → Bool) : List T → List E
  | [] => []
  | a :: l => readT ws a :: readL ws l
/-- The tails of consecutive nodes. -/
def tailsL : List T → List Char
  | [] => []
  | .node _ _ _ tail _ :: l => tail ++ tailsL l
end

/-- The tail of a node. -/
def tailOf : T → List Char
  | .node _ _ _ tail _ => tail

theorem run_append (ws : Char → Bool) (a b : List Ev) : ∀ st, run ws st (a ++ b) = (run ws st a).bind fun st => run ws st b := by
  induction a with
  | nil => intro st; rfl
  | cons e a ih =>
    intro st
    simp only [List.cons_append, run]
    rcases step ws st e with _ | st'
    · rfl
    · simp [ih]

theorem run_chars (ws : Char → Bool) {t : List Char} {l : List Ev} (h : Chars t l) :
    ∀ st : St, ∃ p, run ws st l = some { st with parts := p } ∧ p.flatten = st.parts.flatten ++ t := by
  induction h with
  | nil => intro st; exact ⟨st.parts, rfl, by simp⟩
  | cons s _ ih =>
    intro st
    obtain ⟨p, h1, h2⟩ := ih { st with parts := st.parts ++ [s] }
    refine ⟨p, by simp only [run, step, Option.bind_some]; exact h1, ?_⟩
    rw [h2]; simp

/-- Append several elements. -/
def appendAll : E → List E → E
  | .node tag attrs content elements, l => .node tag attrs content (elements ++ l)

theorem appendAll_cons (c a : E) (l : List E) : appendAll (appendTo c a) l = appendAll c (a :: l) := by
  cases c; simp [appendTo, appendAll]

mutual
theorem run_written (ws : Char → Bool) : ∀ {t : T} {l : List Ev}, Written t l → ∀ st : St,
    ∃ p, run ws st l = some ⟨appendTo st.current (readT ws t), p, st.stack⟩ ∧ p.flatten = st.parts.flatten ++ tailOf t
  | _, _, .mk (tag := tag) (attrs := attrs) (text := text) (tail := tail) (ch := ch) (a := a) (b := b) (c := c) ha hb hc, st => by
    simp only [run, step, Option.bind_some]
    obtain ⟨p1, e1, f1⟩ := run_chars ws ha ⟨.node tag attrs [] [], [], (st.current, st.parts) :: st.stack⟩
    obtain ⟨p2, e2, f2⟩ := run_writtenL ws hb ⟨.node tag attrs [] [], p1, (st.current, st.parts) :: st.stack⟩
    obtain ⟨p3, e3, f3⟩ := run_chars ws hc ⟨appendTo st.current (readT ws (.node tag attrs text tail ch)), st.parts, st.stack⟩
    refine ⟨p3, ?_, f3⟩
    rw [run_append, e1]
    simp only [Option.bind_some]
    rw [run_append, e2]
    simp only [Option.bind_some, run, step]
    have : setContent (strip ws p2.flatten) (appendAll (.node tag attrs [] []) (readL ws ch)) = readT ws (.node tag attrs text tail ch) := by
      simp only [setContent, appendAll, readT, List.nil_append]
      rw [f2, f1]; simp
    rw [this]
    exact e3
theorem run_writtenL (ws : Char → Bool) : ∀ {ts : List T} {l : List Ev}, WrittenL ts l → ∀ st : St,
    ∃ p, run ws st l = some ⟨appendAll st.current (readL ws ts), p, st.stack⟩ ∧ p.flatten = st.parts.flatten ++ tailsL ts
  | _, _, .nil, st => by
    refine ⟨st.parts, ?_, by simp [tailsL]⟩
    obtain ⟨⟨tag, attrs, content, elements⟩, parts, stack⟩ := st
    simp [run, readL, appendAll]
  | _, _, .cons (t := t) (l := l) (a := a) (b := b) ha hb, st => by
    obtain ⟨p1, e1, f1⟩ := run_written ws ha st
    obtain ⟨p2, e2, f2⟩ := run_writtenL ws hb ⟨appendTo st.current (readT ws t), p1, st.stack⟩
    refine ⟨p2, ?_, ?_⟩
    · rw [run_append, e1]
      simp only [Option.bind_some]
      rw [e2, appendAll_cons]
      simp [readL]
    · rw [f2, f1]
      cases t
      simp [tailOf, tailsL]
end

/-- Tails are blank throughout. -/
def BlankTail (ws : Char → Bool) (t : T) : Prop := blank ws (tailOf t) = true

theorem blank_append (ws : Char → Bool) (a b : List Char) : blank ws (a ++ b) = (blank ws a && blank ws b) := by
  simp [blank]

theorem newline_blank (ws : Char → Bool) (hn : ws '\n' = true) (hs : ws ' ' = true) (k : ℕ) : blank ws (newline k) = true := by
  simp [blank, newline, hn, hs]

theorem setLastTail_read (ws : Char → Bool) (i : List Char) : ∀ l : List T, readL ws (setLastTail ws i l) = readL ws l
  | [] => by rw [setLastTail]
  | [.node tag attrs text tail ch] => by simp [setLastTail, readL, readT]
  | a :: b :: l => by rw [setLastTail, readL, setLastTail_read ws i (b :: l), ← readL]

theorem setLastTail_blank (ws : Char → Bool) (i : List Char) (hi : blank ws i = true) :
    ∀ l : List T, blank ws (tailsL l) = true → blank ws (tailsL (setLastTail ws i l)) = true
  | [], _ => by simp [setLastTail, tailsL, blank]
  | [.node tag attrs text tail ch], h => by
    simp only [setLastTail, tailsL, List.append_nil] at h ⊢
    rw [if_pos h]; exact hi
  | .node tag attrs text tail ch :: b :: l, h => by
    rw [setLastTail, tailsL, blank_append, Bool.and_eq_true]
    rw [tailsL, blank_append, Bool.and_eq_true] at h
    exact ⟨h.1, setLastTail_blank ws i hi (b :: l) h.2⟩

mutual
theorem read_indent (ws : Char → Bool) (hn : ws '\n' = true) (hs : ws ' ' = true) : ∀ (e : E) (level : ℕ),
    readT ws (indent ws level (toElement e)) = trim ws e ∧ blank ws (tailOf (indent ws level (toElement e))) = true
  | .node tag attrs content [], level => by
    rw [toElement, toElements, indent, readT, trim, trimL, readL, tailsL, tailOf]
    refine ⟨by simp, ?_⟩
    split_ifs with h
    · exact newline_blank ws hn hs level
    · rfl
  | .node tag attrs content (a :: l), level => by
    rw [toElement, toElements, indent, readT, trim, tailOf]
    refine ⟨?_, rfl⟩
    obtain ⟨h1, h2⟩ := read_indent ws hn hs a (level + 1)
    obtain ⟨h3, h4⟩ := read_indentL ws hn hs l (level + 1)
    have hbl : blank ws (tailsL (indent ws (level + 1) (toElement a) :: indentL ws (level + 1) (toElements l))) = true := by
      cases hi : indent ws (level + 1) (toElement a) with
      | node tag' attrs' text' tail' ch' =>
        rw [hi, tailOf] at h2
        rw [tailsL, blank_append, h2, h4]; rfl
    rw [setLastTail_read, readL, h1, h3, trimL]
    have hb2 := setLastTail_blank ws (newline level) (newline_blank ws hn hs level) _ hbl
    congr 1
    rw [strip_blank_right ws _ _ hb2]
    split_ifs with hb
    · rw [strip_blank ws content hb, strip_blank]
      rw [blank_append, newline_blank ws hn hs]; simp [blank, hs]
    · rfl
theorem read_indentL (ws : Char → Bool) (hn : ws '\n' = true) (hs : ws ' ' = true) : ∀ (l : List E) (level : ℕ),
    readL ws (indentL ws level (toElements l)) = trimL ws l ∧ blank ws (tailsL (indentL ws level (toElements l))) = true
  | [], level => by rw [toElements, indentL, readL, trimL, tailsL]; exact ⟨rfl, rfl⟩
  | a :: l, level => by
    obtain ⟨h1, h2⟩ := read_indent ws hn hs a level
    obtain ⟨h3, h4⟩ := read_indentL ws hn hs l level
    rw [toElements, indentL, readL, h1, h3, trimL]
    refine ⟨rfl, ?_⟩
    cases hi : indent ws level (toElement a) with
    | node tag' attrs' text' tail' ch' =>
      rw [hi, tailOf] at h2
      rw [tailsL, blank_append, h2, h4]; rfl
end

/-- What `save` writes for a tree, as one of its possible event streams followed by white space. -/
def Saved (ws : Char → Bool) (e : E) (evs : List Ev) : Prop := Written (indent ws 0 (toElement e)) evs

/-- **C44, general.** Loading what was saved gives the same tags, attributes and elements in the same
order, with every content stripped of surrounding white space; however the parser cuts the text. -/
theorem C44_trimmed (ws : Char → Bool) (hn : ws '\n' = true) (hs : ws ' ' = true) (e : E) (evs : List Ev) (h : Saved ws e evs) :
    load ws evs = some (trim ws e) := by
  obtain ⟨p, h1, -⟩ := run_written ws h ⟨.node "" [] [] [], [], []⟩
  unfold load
  rw [h1, (read_indent ws hn hs e 0).1]
  simp [appendTo]

/-- **C44.** If no content begins or ends with white space, loading gives back the same tree.
Missing: contents with surrounding white space, see the counterexample. -/
theorem C44_round_trip_partial (ws : Char → Bool) (hn : ws '\n' = true) (hs : ws ' ' = true) (e : E) (evs : List Ev)
    (ht : Trimmed ws e) (h : Saved ws e evs) : load ws evs = some e := by
  rw [C44_trimmed ws hn hs e evs h, trim_id ws e ht]

mutual
theorem trimmed_trim (ws : Char → Bool) : ∀ e : E, Trimmed ws (trim ws e)
  | .node tag attrs content elements => by
    rw [trim, Trimmed]; exact ⟨strip_idem ws content, trimmed_trimL ws elements⟩
theorem trimmed_trimL (ws : Char → Bool) : ∀ l : List E, TrimmedL ws (trimL ws l)
  | [] => by rw [trimL, TrimmedL]; trivial
  | a :: l => by rw [trimL, TrimmedL]; exact ⟨trimmed_trim ws a, trimmed_trimL ws l⟩
end

/-- A second save and load changes nothing any more. -/
theorem C44_stable (ws : Char → Bool) (hn : ws '\n' = true) (hs : ws ' ' = true) (e e1 : E) (evs evs1 : List Ev)
    (h : Saved ws e evs) (h1 : load ws evs = some e1) (h2 : Saved ws e1 evs1) : load ws evs1 = some e1 := by
  rw [C44_trimmed ws hn hs e evs h] at h1
  cases h1
  rw [C44_trimmed ws hn hs _ evs1 h2]
  congr 1
  apply trim_id
  exact trimmed_trim ws e

/-- White space of the example. -/
def isWs (c : Char) : Bool := c == ' ' || c == '\n' || c == '\t'

/-- Every tree has an event stream. -/
theorem chars_exist (s : List Char) : Chars s [.chars s] := by
  have := Chars.cons s Chars.nil
  simpa using this

mutual
theorem written_exist : ∀ t : T, ∃ l, Written t l
  | .node tag attrs text tail ch => by
    obtain ⟨b, hb⟩ := writtenL_exist ch
    exact ⟨_, .mk (chars_exist text) hb (chars_exist tail)⟩
theorem writtenL_exist : ∀ ts : List T, ∃ l, WrittenL ts l
  | [] => ⟨_, .nil⟩
  | a :: l => by
    obtain ⟨x, hx⟩ := written_exist a
    obtain ⟨y, hy⟩ := writtenL_exist l
    exact ⟨_, .cons hx hy⟩
end

example : ∃ evs, Saved isWs (.node "vehicle" [("id", "1")] "text".toList [.node "wing" [] "a b".toList [], .node "x" [] [] []]) evs ∧
    Trimmed isWs (.node "vehicle" [("id", "1")] "text".toList [.node "wing" [] "a b".toList [], .node "x" [] [] []]) := by
  obtain ⟨l, hl⟩ := written_exist (indent isWs 0 (toElement (.node "vehicle" [("id", "1")] "text".toList [.node "wing" [] "a b".toList [], .node "x" [] [] []])))
  refine ⟨l, hl, ?_⟩
  simp only [Trimmed, TrimmedL]
  decide +kernel

/-- C44 is false for content with surrounding white space. -/
theorem C44_counterexample : ∃ evs, Saved isWs (.node "a" [] " b".toList []) evs ∧
    load isWs evs = some (.node "a" [] "b".toList []) ∧ load isWs evs ≠ some (.node "a" [] " b".toList []) := by
  obtain ⟨l, hl⟩ := written_exist (indent isWs 0 (toElement (.node "a" [] " b".toList [])))
  have h : load isWs l = some (.node "a" [] "b".toList []) := by rw [C44_trimmed isWs rfl rfl _ _ hl]; rfl
  refine ⟨l, hl, h, ?_⟩
  rw [h]
  intro h2
  injection h2 with h2
  injection h2 with _ _ h3 _
  revert h3; decide +kernel

/-- The tag of an element. -/
def tagOf : E → String
  | .node tag _ _ _ => tag

/-- **C44, dictionaries.** The tree made from a dictionary has one element per key, in order. -/
theorem C44_from_dict (own : List String → List D → String) : ∀ (keys : List String) (vals : List D), keys.length = vals.length →
    (fromDictL own keys vals).map tagOf = keys
  | [], [], _ => by rw [fromDictL]; · rfl
                    · simp
  | k :: keys, v :: vals, h => by
    rw [fromDictL, List.map_cons, C44_from_dict own keys vals (by simpa using h)]
    cases hv : fromDict own v
    rfl

end Verif.IO.Xml
