import Verif.IO.History
import Mathlib.Data.Rat.Defs
import Mathlib.Algebra.Order.Ring.Rat
import Mathlib.Tactic.NormNum

/-!
# Optimization history round trip (C51)
-/

namespace Verif.IO.History

/-- How numbers are printed: not empty, and none of the characters used for punctuation or the
characters `t` and `o`.  (`str` of a float uses digits and the characters of `.+-einfa`.) -/
structure Token (t : List Char) : Prop where
  ne : t ≠ []
  ok : ∀ c ∈ t, c ≠ ' ' ∧ c ≠ '\n' ∧ c ≠ '[' ∧ c ≠ ']' ∧ c ≠ ',' ∧ c ≠ 't' ∧ c ≠ 'o'

/-- `float` undoes `str`, also with a line end, and fails on blank text. -/
structure Good {N : Type} (render : N → List Char) (parse : List Char → Option N) : Prop where
  token : ∀ x, Token (render x)
  inv : ∀ x, parse (render x) = some x
  line : ∀ x, parse (render x ++ ['\n']) = some x
  empty : parse [] = none
  blank : parse ['\n'] = none

theorem remove_skip (pat : List Char) : ∀ (a s : List Char), remove pat a.length (a ++ s) = remove pat 0 s
  | [], s => rfl
  | c :: a, s => by
    rw [List.length_cons, List.cons_append, remove]
    exact remove_skip pat a s

/-- An occurrence is removed. -/
theorem remove_hit (c : Char) (p s : List Char) : remove (c :: p) 0 ((c :: p) ++ s) = remove (c :: p) 0 s := by
  rw [List.cons_append, remove]
  have : (c :: p).isPrefixOf (c :: (p ++ s)) = true := by
    rw [List.isPrefixOf_iff_prefix]; exact ⟨s, rfl⟩
  rw [this]
  simp only [List.length_cons, Nat.add_sub_cancel]
  exact remove_skip _ p s

theorem remove_miss {pat : List Char} {c : Char} {s : List Char} (h : ¬ pat <+: c :: s) : remove pat 0 (c :: s) = c :: remove pat 0 s := by
  rw [remove]
  have : pat.isPrefixOf (c :: s) = false := by
    rw [Bool.eq_false_iff]; intro h'; exact h (List.isPrefixOf_iff_prefix.1 h')
  rw [this]

theorem remove_char (c : Char) : ∀ s : List Char, remove [c] 0 s = s.filter (· ≠ c)
  | [] => rfl
  | a :: s => by
    by_cases h : c = a
    · subst h
      have : remove [c] 0 (c :: s) = remove [c] 0 s := remove_hit c [] s
      rw [this, remove_char c s]; simp
    · have : remove [c] 0 (a :: s) = a :: remove [c] 0 s := remove_miss (by
        rintro ⟨r, hr⟩
        simp only [List.cons_append, List.nil_append, List.cons.injEq] at hr
        exact h hr.1)
      rw [this, remove_char c s]; simp [Ne.symm h]

/-- Text that ends a number. -/
def Sep (s : List Char) : Prop := ∀ c s', s = c :: s' → c = ' ' ∨ c = '\n'

/-- A label `w ++ ' ' :: more` whose word contains a `t` does not begin inside a number. -/
theorem remove_word (w more : List Char) (ht : 't' ∈ w) (hw : ∀ c ∈ w, c ≠ ' ' ∧ c ≠ '\n') (s : List Char) (hs : Sep s) :
    ∀ t : List Char, (∀ c ∈ t, c ≠ 't') → remove (w ++ ' ' :: more) 0 (t ++ s) = t ++ remove (w ++ ' ' :: more) 0 s
  | [], _ => rfl
  | c :: t, h => by
    rw [List.cons_append, remove_miss, remove_word w more ht hw s hs t fun a ha => h a (List.mem_cons_of_mem _ ha), List.cons_append]
    rintro ⟨r, hr⟩
    -- the word is inside the number
    have key : ∀ (w t : List Char) (x : List Char), (∀ c ∈ w, c ≠ ' ' ∧ c ≠ '\n') → w ++ x = t ++ s → ∀ c ∈ w, c ∈ t := by
      intro w
      induction w with
      | nil => intro t x _ _ c hc; simp at hc
      | cons a w ih =>
        intro t x hw e c hc
        cases t with
        | nil =>
          rw [List.nil_append] at e
          have := hs a (w ++ x) e.symm
          have h2 := hw a List.mem_cons_self
          rcases this with h3 | h3
          · exact absurd h3 h2.1
          · exact absurd h3 h2.2
        | cons b t =>
          simp only [List.cons_append, List.cons.injEq] at e
          rcases List.mem_cons.1 hc with rfl | hc
          · rw [e.1]; exact List.mem_cons_self
          · exact List.mem_cons_of_mem _ (ih t x (fun c hc => hw c (List.mem_cons_of_mem _ hc)) e.2 c hc)
    have := key w (c :: t) (' ' :: more ++ r) hw (by rw [← List.append_assoc, ]; simpa using hr) 't' ht
    exact h 't' this rfl

/-- A label beginning with a space does not begin inside a number. -/
theorem remove_space (p s : List Char) : ∀ t : List Char, (∀ c ∈ t, c ≠ ' ') → remove (' ' :: p) 0 (t ++ s) = t ++ remove (' ' :: p) 0 s
  | [], _ => rfl
  | c :: t, h => by
    rw [List.cons_append, remove_miss, remove_space p s t fun a ha => h a (List.mem_cons_of_mem _ ha), List.cons_append]
    rintro ⟨r, hr⟩
    simp only [List.cons_append, List.cons.injEq] at hr
    exact h c List.mem_cons_self hr.1.symm

theorem Token.cons {t : List Char} (h : Token t) : ∃ c t', t = c :: t' ∧ c ≠ 'o' := by
  obtain ⟨c, t', rfl⟩ := List.exists_cons_of_ne_nil h.ne
  exact ⟨c, t', rfl, (h.ok c List.mem_cons_self).2.2.2.2.2.2⟩

/-- The same for several numbers joined by spaces. -/
theorem remove_word_join (w more : List Char) (a : Char) (w' : List Char) (hwa : w = a :: w') (ht : 't' ∈ w) (hw : ∀ c ∈ w, c ≠ ' ' ∧ c ≠ '\n') (s : List Char) (hs : Sep s) :
    ∀ l : List (List Char), (∀ t ∈ l, Token t) → remove (w ++ ' ' :: more) 0 (join [' '] l ++ s) = join [' '] l ++ remove (w ++ ' ' :: more) 0 s
  | [], _ => rfl
  | [t], h => by
    rw [join]; exact remove_word w more ht hw s hs t fun c hc => ((h t (by simp)).ok c hc).2.2.2.2.2.1
  | t :: u :: l, h => by
    rw [join, List.append_assoc, List.append_assoc]
    rw [remove_word w more ht hw _ _ t fun c hc => ((h t (by simp)).ok c hc).2.2.2.2.2.1]
    · rw [List.singleton_append, remove_miss, remove_word_join w more a w' hwa ht hw s hs (u :: l) fun x hx => h x (List.mem_cons_of_mem _ hx)]
      · simp
      · rintro ⟨r, hr⟩
        rw [hwa] at hr
        simp only [List.cons_append, List.cons.injEq] at hr
        exact (hw a (by rw [hwa]; simp)).1 hr.1
    · intro c s' e
      simp only [List.cons_append, List.cons.injEq] at e
      exact Or.inl e.1.symm

theorem join_cons_char (sep : List Char) (l : List (List Char)) (hl : l ≠ []) (h : ∀ t ∈ l, Token t) : ∃ c t', join sep l = c :: t' ∧ c ≠ 'o' := by
  match l, hl with
  | [t], _ => exact (h t (by simp)).cons
  | t :: u :: l, _ =>
    obtain ⟨c, t', e, hc⟩ := (h t (by simp)).cons
    exact ⟨c, t' ++ sep ++ join sep (u :: l), by rw [join, e]; rfl, hc⟩

theorem remove_obj_miss (c : Char) (s : List Char) (hc : c ≠ 'o') : remove tObjSp 0 (' ' :: c :: s) = ' ' :: remove tObjSp 0 (c :: s) := by
  apply remove_miss
  rintro ⟨r, hr⟩
  simp only [tObjSp, tObj, List.cons_append, List.cons.injEq] at hr
  exact hc hr.2.1.symm

theorem remove_obj_join (s : List Char) : ∀ l : List (List Char), (∀ t ∈ l, Token t) →
    remove tObjSp 0 (join [' '] l ++ s) = join [' '] l ++ remove tObjSp 0 s
  | [], _ => rfl
  | [t], h => by rw [join]; exact remove_space tObj s t fun c hc => ((h t (by simp)).ok c hc).1
  | t :: u :: l, h => by
    rw [join, List.append_assoc, List.append_assoc]
    have e1 : remove tObjSp 0 (t ++ ([' '] ++ (join [' '] (u :: l) ++ s))) = t ++ remove tObjSp 0 ([' '] ++ (join [' '] (u :: l) ++ s)) :=
      remove_space tObj _ t fun c hc => ((h t (by simp)).ok c hc).1
    rw [e1]
    obtain ⟨c, t', e, hc⟩ := join_cons_char [' '] (u :: l) (by simp) fun x hx => h x (List.mem_cons_of_mem _ hx)
    have e2 : remove tObjSp 0 ([' '] ++ (join [' '] (u :: l) ++ s)) = ' ' :: remove tObjSp 0 (join [' '] (u :: l) ++ s) := by
      rw [e]; exact remove_obj_miss c _ hc
    rw [e2, remove_obj_join s (u :: l) fun x hx => h x (List.mem_cons_of_mem _ hx)]
    simp

theorem filter_token (c : Char) (hc : c = '[' ∨ c = ']' ∨ c = ',') (t : List Char) (h : Token t) : t.filter (· ≠ c) = t := by
  rw [List.filter_eq_self]
  intro a ha
  have := h.ok a ha
  rcases hc with rfl | rfl | rfl
  · simpa using this.2.2.1
  · simpa using this.2.2.2.1
  · simpa using this.2.2.2.2.1

/-- Brackets and commas are removed from a printed list. -/
theorem filter_join : ∀ l : List (List Char), (∀ t ∈ l, Token t) →
    (join [',', ' '] l).filter (fun c => c ≠ '[') = join [',', ' '] l ∧ (join [',', ' '] l).filter (fun c => c ≠ ']') = join [',', ' '] l ∧
    (join [',', ' '] l).filter (fun c => c ≠ ',') = join [' '] l
  | [], _ => ⟨rfl, rfl, rfl⟩
  | [t], h => by
    have := h t (by simp)
    exact ⟨filter_token _ (Or.inl rfl) t this, filter_token _ (Or.inr (Or.inl rfl)) t this, filter_token _ (Or.inr (Or.inr rfl)) t this⟩
  | t :: u :: l, h => by
    have ht := h t (by simp)
    obtain ⟨h1, h2, h3⟩ := filter_join (u :: l) fun x hx => h x (List.mem_cons_of_mem _ hx)
    simp only [join, List.filter_append, h1, h2, h3, filter_token '[' (Or.inl rfl) t ht, filter_token ']' (Or.inr (Or.inl rfl)) t ht,
      filter_token ',' (Or.inr (Or.inr rfl)) t ht]
    refine ⟨rfl, rfl, rfl⟩

/-- A line after the brackets and commas are gone. -/
theorem clean_chars (i o : List Char) (ts cs : List (List Char)) (hi : Token i) (ho : Token o) (hts : ∀ t ∈ ts, Token t) (hcs : ∀ t ∈ cs, Token t) :
    remove [','] 0 (remove [']'] 0 (remove ['['] 0 (tIter ++ i ++ tComma ++ tObj ++ o ++ [',', ' '] ++ tInputs ++
      showList ts ++ [',', ' '] ++ tConstr ++ showList cs ++ ['\n']))) =
    tIter ++ (i ++ (' ' :: (tObjSp ++ (o ++ (' ' :: (tInputs ++ (join [' '] ts ++ (' ' :: (tConstr ++ (join [' '] cs ++ ['\n'])))))))))) := by
  rw [remove_char, remove_char, remove_char]
  obtain ⟨a1, a2, a3⟩ := filter_join ts hts
  obtain ⟨b1, b2, b3⟩ := filter_join cs hcs
  have l1 : ∀ c, c = '[' ∨ c = ']' ∨ c = ',' → tIter.filter (fun x => x ≠ c) = tIter ∧ tObj.filter (fun x => x ≠ c) = tObj ∧
      tInputs.filter (fun x => x ≠ c) = tInputs ∧ tConstr.filter (fun x => x ≠ c) = tConstr := by
    rintro c (rfl | rfl | rfl) <;> decide
  obtain ⟨p1, p2, p3, p4⟩ := l1 '[' (Or.inl rfl)
  obtain ⟨q1, q2, q3, q4⟩ := l1 ']' (Or.inr (Or.inl rfl))
  obtain ⟨r1, r2, r3, r4⟩ := l1 ',' (Or.inr (Or.inr rfl))
  have m1 : tComma.filter (fun x => x ≠ '[') = tComma ∧ tComma.filter (fun x => x ≠ ']') = tComma ∧ tComma.filter (fun x => x ≠ ',') = [' ', ' '] := by decide
  have m2 : [',', ' '].filter (fun x => x ≠ '[') = [',', ' '] ∧ [',', ' '].filter (fun x => x ≠ ']') = [',', ' '] ∧ [',', ' '].filter (fun x => x ≠ ',') = [' '] := by decide
  have m3 : ['\n'].filter (fun x => x ≠ '[') = ['\n'] ∧ ['\n'].filter (fun x => x ≠ ']') = ['\n'] ∧ ['\n'].filter (fun x => x ≠ ',') = ['\n'] := by decide
  have s1 : ∀ l : List (List Char), (join [',', ' '] l).filter (fun x => x ≠ '[') = join [',', ' '] l →
      (showList l).filter (fun x => x ≠ '[') = join [',', ' '] l ++ [']'] := by
    intro l h
    rw [showList, List.filter_cons, if_neg (by decide), List.filter_append, h]; rfl
  have s2 : ∀ l : List (List Char), (join [',', ' '] l).filter (fun x => x ≠ ']') = join [',', ' '] l →
      (join [',', ' '] l ++ [']']).filter (fun x => x ≠ ']') = join [',', ' '] l := by
    intro l h
    rw [List.filter_append, h]; simp
  have e1 : (tIter ++ i ++ tComma ++ tObj ++ o ++ [',', ' '] ++ tInputs ++ showList ts ++ [',', ' '] ++ tConstr ++ showList cs ++ ['\n']).filter (fun x => x ≠ '[') =
      tIter ++ i ++ tComma ++ tObj ++ o ++ [',', ' '] ++ tInputs ++ (join [',', ' '] ts ++ [']']) ++ [',', ' '] ++ tConstr ++ (join [',', ' '] cs ++ [']']) ++ ['\n'] := by
    rw [List.filter_append, List.filter_append, List.filter_append, List.filter_append, List.filter_append, List.filter_append, List.filter_append,
      List.filter_append, List.filter_append, List.filter_append, List.filter_append, p1, p2, p3, p4, m1.1, m2.1, m3.1, s1 ts a1, s1 cs b1,
      filter_token '[' (Or.inl rfl) _ hi, filter_token '[' (Or.inl rfl) _ ho]
  have e2 : (tIter ++ i ++ tComma ++ tObj ++ o ++ [',', ' '] ++ tInputs ++ (join [',', ' '] ts ++ [']']) ++ [',', ' '] ++ tConstr ++ (join [',', ' '] cs ++ [']']) ++ ['\n']).filter (fun x => x ≠ ']') =
      tIter ++ i ++ tComma ++ tObj ++ o ++ [',', ' '] ++ tInputs ++ join [',', ' '] ts ++ [',', ' '] ++ tConstr ++ join [',', ' '] cs ++ ['\n'] := by
    rw [List.filter_append, List.filter_append, List.filter_append, List.filter_append, List.filter_append, List.filter_append, List.filter_append,
      List.filter_append, List.filter_append, List.filter_append, List.filter_append, q1, q2, q3, q4, m1.2.1, m2.2.1, m3.2.1, s2 ts a2, s2 cs b2,
      filter_token ']' (Or.inr (Or.inl rfl)) _ hi, filter_token ']' (Or.inr (Or.inl rfl)) _ ho]
  rw [e1, e2, List.filter_append, List.filter_append, List.filter_append, List.filter_append, List.filter_append, List.filter_append, List.filter_append,
    List.filter_append, List.filter_append, List.filter_append, List.filter_append, r1, r2, r3, r4, m1.2.2, m2.2.2, m3.2.2, a3, b3,
    filter_token ',' (Or.inr (Or.inr rfl)) _ hi, filter_token ',' (Or.inr (Or.inr rfl)) _ ho]
  simp [tObjSp, List.append_assoc]

theorem sep_space (s : List Char) : Sep (' ' :: s) := by
  intro c s' e; simp only [List.cons.injEq] at e; exact Or.inl e.1.symm

theorem sep_nl : Sep ['\n'] := by
  intro c s' e; simp only [List.cons.injEq] at e; exact Or.inr e.1.symm

/-- Labels do not occur inside other labels. -/
theorem lit1 (s : List Char) : remove tIter 0 (' ' :: (tObjSp ++ s)) = ' ' :: (tObjSp ++ remove tIter 0 s) := rfl
theorem lit2 (s : List Char) : remove tIter 0 (' ' :: (tInputs ++ s)) = ' ' :: (tInputs ++ remove tIter 0 s) := rfl
theorem lit3 (s : List Char) : remove tIter 0 (' ' :: (tConstr ++ s)) = ' ' :: (tConstr ++ remove tIter 0 s) := rfl
theorem lit4 (c : Char) (hc : c ≠ 'o') (s : List Char) : remove tObjSp 0 (' ' :: (tInputs ++ c :: s)) = ' ' :: (tInputs ++ remove tObjSp 0 (c :: s)) := by
  have : remove tObjSp 0 (' ' :: (tInputs ++ c :: s)) = ' ' :: 'i' :: 'n' :: 'p' :: 'u' :: 't' :: 's' :: ' ' :: '=' :: remove tObjSp 0 (' ' :: c :: s) := rfl
  rw [this, remove_obj_miss c s hc]; rfl
theorem lit5 (c : Char) (hc : c ≠ 'o') (s : List Char) : remove tObjSp 0 (' ' :: (tConstr ++ c :: s)) = ' ' :: (tConstr ++ remove tObjSp 0 (c :: s)) := by
  have : remove tObjSp 0 (' ' :: (tConstr ++ c :: s)) = ' ' :: 'c' :: 'o' :: 'n' :: 's' :: 't' :: 'r' :: 'a' :: 'i' :: 'n' :: 't' :: 's' :: ' ' :: '=' :: remove tObjSp 0 (' ' :: c :: s) := rfl
  rw [this, remove_obj_miss c s hc]; rfl
theorem lit6 (s : List Char) : remove tInputs 0 (' ' :: (tConstr ++ s)) = ' ' :: (tConstr ++ remove tInputs 0 s) := rfl

theorem tIter_word : tIter = ['i', 't', 'e', 'r', 'a', 't', 'i', 'o', 'n'] ++ ' ' :: ['=', ' '] := rfl
theorem tInputs_word : tInputs = ['i', 'n', 'p', 'u', 't', 's'] ++ ' ' :: ['=', ' '] := rfl
theorem tConstr_word : tConstr = ['c', 'o', 'n', 's', 't', 'r', 'a', 'i', 'n', 't', 's'] ++ ' ' :: ['=', ' '] := rfl

/-- The three word labels pass over a number and over a list of numbers. -/
theorem word_pass (L : List Char) (hL : L = tIter ∨ L = tInputs ∨ L = tConstr) (s : List Char) (hs : Sep s) (l : List (List Char)) (h : ∀ t ∈ l, Token t) :
    remove L 0 (join [' '] l ++ s) = join [' '] l ++ remove L 0 s := by
  rcases hL with rfl | rfl | rfl
  · rw [tIter_word]; exact remove_word_join _ _ _ _ rfl (by decide) (by decide) s hs l h
  · rw [tInputs_word]; exact remove_word_join _ _ _ _ rfl (by decide) (by decide) s hs l h
  · rw [tConstr_word]; exact remove_word_join _ _ _ _ rfl (by decide) (by decide) s hs l h

theorem word_pass1 (L : List Char) (hL : L = tIter ∨ L = tInputs ∨ L = tConstr) (s : List Char) (hs : Sep s) (t : List Char) (h : Token t) :
    remove L 0 (t ++ s) = t ++ remove L 0 s := by
  have := word_pass L hL s hs [t] (by simpa using h)
  simpa [join] using this

theorem nl_pass (L : List Char) (hL : L = tIter ∨ L = tInputs ∨ L = tConstr ∨ L = tObjSp) : remove L 0 ['\n'] = ['\n'] := by
  rcases hL with rfl | rfl | rfl | rfl <;> rfl

theorem sp_pass (L : List Char) (hL : L = tInputs ∨ L = tConstr) (s : List Char) : remove L 0 (' ' :: s) = ' ' :: remove L 0 s := by
  rcases hL with rfl | rfl
  · apply remove_miss; rintro ⟨r, hr⟩; simp [tInputs] at hr
  · apply remove_miss; rintro ⟨r, hr⟩; simp [tConstr] at hr

theorem clean_line (i o : List Char) (ts cs : List (List Char)) (hi : Token i) (ho : Token o) (hts : ∀ t ∈ ts, Token t) (hcs : ∀ t ∈ cs, Token t)
    (hn : ts ≠ []) (hm : cs ≠ []) :
    clean (tIter ++ i ++ tComma ++ tObj ++ o ++ [',', ' '] ++ tInputs ++ showList ts ++ [',', ' '] ++ tConstr ++ showList cs ++ ['\n']) =
      i ++ (' ' :: (o ++ (' ' :: (join [' '] ts ++ (' ' :: (join [' '] cs ++ ['\n'])))))) := by
  unfold clean
  rw [clean_chars i o ts cs hi ho hts hcs]
  -- iteration
  have h1 : ∀ s, remove tIter 0 (tIter ++ s) = remove tIter 0 s := fun s => remove_hit _ _ s
  rw [h1, word_pass1 _ (Or.inl rfl) _ (sep_space _) i hi, lit1, word_pass1 _ (Or.inl rfl) _ (sep_space _) o ho, lit2,
    word_pass _ (Or.inl rfl) _ (sep_space _) ts hts, lit3, word_pass _ (Or.inl rfl) _ sep_nl cs hcs, nl_pass _ (Or.inl rfl)]
  -- objective
  have h2 : ∀ s, remove tObjSp 0 (tObjSp ++ s) = remove tObjSp 0 s := fun s => remove_hit _ _ s
  have h3 : ∀ t s, Token t → remove tObjSp 0 (t ++ s) = t ++ remove tObjSp 0 s := fun t s ht => remove_space tObj s t fun c hc => (ht.ok c hc).1
  have h4 : ∀ s, remove tObjSp 0 (' ' :: (tObjSp ++ s)) = ' ' :: remove tObjSp 0 (tObjSp ++ s) := fun s => remove_obj_miss ' ' _ (by decide)
  obtain ⟨c1, t1, e1, d1⟩ := join_cons_char [' '] ts hn hts
  obtain ⟨c2, t2, e2, d2⟩ := join_cons_char [' '] cs hm hcs
  have h5 : ∀ s, remove tObjSp 0 (' ' :: (tInputs ++ (join [' '] ts ++ s))) = ' ' :: (tInputs ++ remove tObjSp 0 (join [' '] ts ++ s)) := by
    intro s; rw [e1]; exact lit4 c1 d1 _
  have h6 : ∀ s, remove tObjSp 0 (' ' :: (tConstr ++ (join [' '] cs ++ s))) = ' ' :: (tConstr ++ remove tObjSp 0 (join [' '] cs ++ s)) := by
    intro s; rw [e2]; exact lit5 c2 d2 _
  rw [h3 i _ hi, h4, h2, h3 o _ ho, h5, remove_obj_join _ ts hts, h6, remove_obj_join _ cs hcs, nl_pass _ (by simp)]
  -- inputs
  have h7 : ∀ s, remove tInputs 0 (tInputs ++ s) = remove tInputs 0 s := fun s => remove_hit _ _ s
  rw [word_pass1 _ (Or.inr (Or.inl rfl)) _ (sep_space _) i hi, sp_pass _ (Or.inl rfl), word_pass1 _ (Or.inr (Or.inl rfl)) _ (sep_space _) o ho,
    sp_pass _ (Or.inl rfl), h7, word_pass _ (Or.inr (Or.inl rfl)) _ (sep_space _) ts hts, lit6,
    word_pass _ (Or.inr (Or.inl rfl)) _ sep_nl cs hcs, nl_pass _ (by simp)]
  -- constraints
  have h8 : ∀ s, remove tConstr 0 (tConstr ++ s) = remove tConstr 0 s := fun s => remove_hit _ _ s
  rw [word_pass1 _ (Or.inr (Or.inr rfl)) _ (sep_space _) i hi, sp_pass _ (Or.inr rfl), word_pass1 _ (Or.inr (Or.inr rfl)) _ (sep_space _) o ho,
    sp_pass _ (Or.inr rfl), word_pass _ (Or.inr (Or.inr rfl)) _ (sep_space _) ts hts, sp_pass _ (Or.inr rfl), h8,
    word_pass _ (Or.inr (Or.inr rfl)) _ sep_nl cs hcs, nl_pass _ (by simp)]

theorem split_ne (s : List Char) : split s ≠ [] := by
  cases s with
  | nil => simp [split]
  | cons c s =>
    rw [split]
    cases split s with
    | nil => simp
    | cons a l => simp only; split_ifs <;> simp

theorem split_append (s : List Char) : ∀ t : List Char, (∀ c ∈ t, c ≠ ' ') → ∀ a l, split s = a :: l → split (t ++ s) = (t ++ a) :: l
  | [], _, a, l, h => h
  | c :: t, ht, a, l, h => by
    rw [List.cons_append, split, split_append s t (fun x hx => ht x (List.mem_cons_of_mem _ hx)) a l h]
    simp only
    rw [if_neg (ht c List.mem_cons_self)]; rfl

theorem split_space (s : List Char) : split (' ' :: s) = [] :: split s := by
  rw [split]
  rcases h : split s with _ | ⟨a, l⟩
  · exact absurd h (split_ne s)
  · simp

theorem split_token (t s : List Char) (h : Token t) : split (t ++ ' ' :: s) = t :: split s := by
  have := split_append (' ' :: s) t (fun c hc => (h.ok c hc).1) [] (split s) (split_space s)
  simpa using this

theorem split_last (t : List Char) (h : Token t) : split (t ++ ['\n']) = [t ++ ['\n']] :=
  split_append ['\n'] t (fun c hc => (h.ok c hc).1) ['\n'] [] rfl

theorem split_join (s : List Char) : ∀ l : List (List Char), l ≠ [] → (∀ t ∈ l, Token t) → split (join [' '] l ++ ' ' :: s) = l ++ split s
  | [t], _, h => by rw [join, split_token t s (h t (by simp))]; rfl
  | t :: u :: l, _, h => by
    rw [join]
    have := split_join s (u :: l) (by simp) fun x hx => h x (List.mem_cons_of_mem _ hx)
    rw [List.append_assoc, List.append_assoc, List.singleton_append, split_token t _ (h t (by simp)), this]; rfl

theorem parse_last {N : Type} (render : N → List Char) (parse : List Char → Option N) (g : Good render parse) :
    ∀ cs : List N, cs ≠ [] → (split (join [' '] (cs.map render) ++ ['\n'])).mapM parse = some cs
  | [c], _ => by simp [join, split_last _ (g.token c), g.line]
  | c :: d :: l, _ => by
    have := parse_last render parse g (d :: l) (by simp)
    have e : join [' '] ((c :: d :: l).map render) ++ ['\n'] = render c ++ ' ' :: (join [' '] ((d :: l).map render) ++ ['\n']) := by
      simp [join, List.append_assoc]
    rw [e, split_token _ _ (g.token c), List.mapM_cons, g.inv c, this]
    rfl

theorem mapM_append {N : Type} (parse : List Char → Option N) (a b : List (List Char)) (x y : List N) (ha : a.mapM parse = some x) (hb : b.mapM parse = some y) :
    (a ++ b).mapM parse = some (x ++ y) := by
  rw [List.mapM_append, ha, hb]; rfl

theorem mapM_render {N : Type} (render : N → List Char) (parse : List Char → Option N) (g : Good render parse) : ∀ l : List N, (l.map render).mapM parse = some l
  | [] => rfl
  | a :: l => by rw [List.map_cons, List.mapM_cons, g.inv, mapM_render render parse g l]; rfl

/-- **C51, text.** With at least one input and one constraint, reading a written history gives back, line
by line, the iteration, objective, inputs and constraints that were written. -/
theorem C51_text {N : Type} [Div N] (render : N → List Char) (parse : List Char → Option N) (g : Good render parse) (ni nc : ℕ) (hi : 0 < ni) (hc : 0 < nc) :
    ∀ h : List (Rec N), (∀ r ∈ h, r.inputs.length = ni ∧ r.constraints.length = nc) →
      read parse ni nc (h.map (line render)) =
        some (h.map fun r => (r.iteration, r.objective, r.inputs.map (fun x => x.value / x.upper), r.constraints))
  | [], _ => rfl
  | r :: h, hr => by
    have ih := C51_text render parse g ni nc hi hc h fun x hx => hr x (List.mem_cons_of_mem _ hx)
    obtain ⟨l1, l2⟩ := hr r List.mem_cons_self
    have hn : (writtenInputs r.inputs) ≠ [] := by
      intro e; have := congrArg List.length e; simp [writtenInputs, l1] at this; omega
    have hm : r.constraints ≠ [] := by intro e; rw [e] at l2; simp at l2; omega
    have tok : ∀ l : List N, ∀ t ∈ l.map render, Token t := by
      intro l t ht
      obtain ⟨x, -, rfl⟩ := List.mem_map.1 ht
      exact g.token x
    have e : numbers parse (line render r) = some (r.iteration :: r.objective :: (writtenInputs r.inputs ++ r.constraints)) := by
      unfold numbers line
      rw [clean_line _ _ _ _ (g.token _) (g.token _) (tok _) (tok _) (by simpa using hn) (by simpa using hm)]
      rw [split_token _ _ (g.token _), split_token _ _ (g.token _), split_join _ _ (by simpa using hn) (tok _)]
      rw [List.mapM_cons, g.inv, List.mapM_cons, g.inv, mapM_append parse _ _ _ _ (mapM_render render parse g _) (parse_last render parse g _ hm)]
      rfl
    have e2 : readRow parse ni nc (line render r) = some (r.iteration, r.objective, writtenInputs r.inputs, r.constraints) := by
      have hl : (writtenInputs r.inputs).length = ni := by simp [writtenInputs, l1]
      unfold readRow
      rw [e]
      simp only [Option.some.injEq, Prod.mk.injEq, true_and]
      constructor
      · rw [← hl, List.take_left']; rfl
      · rw [← hl, List.drop_left' rfl, List.take_of_length_le (by omega)]
    unfold read at ih ⊢
    rw [List.map_cons, List.mapM_cons, e2, ih]
    rfl

/-- **C51.** The inputs read back are the scaled ones the optimizer used, provided the upper bound of
every input equals its scale.  Missing: all other tables, and problems without constraints; see the counterexamples. -/
theorem C51_round_trip_partial {N : Type} [Div N] (render : N → List Char) (parse : List Char → Option N) (g : Good render parse) (ni nc : ℕ) (hi : 0 < ni) (hc : 0 < nc)
    (h : List (Rec N)) (hr : ∀ r ∈ h, r.inputs.length = ni ∧ r.constraints.length = nc) (hs : ∀ r ∈ h, ∀ x ∈ r.inputs, x.upper = x.scale) :
    ∃ out, read parse ni nc (h.map (line render)) = some out ∧
      out.map (fun o => o.2.2.1) = h.map fun r => r.inputs.map fun x => x.value / x.scale := by
  refine ⟨_, C51_text render parse g ni nc hi hc h hr, ?_⟩
  rw [List.map_map]
  apply List.map_congr_left
  intro r hr'
  simp only [Function.comp]
  apply List.map_congr_left
  intro x hx
  rw [hs r hr' x hx]

/-- Printing that satisfies the assumptions: a natural number as so many strokes. -/
def strokes (n : ℕ) : List Char := '-' :: List.replicate n '1'
def countStrokes : List Char → Option ℕ
  | '-' :: s => some (s.count '1')
  | _ => none

theorem strokes_good : Good strokes countStrokes := by
  refine ⟨?_, ?_, ?_, rfl, rfl⟩
  · intro x
    refine ⟨by simp [strokes], ?_⟩
    intro c hc
    simp only [strokes, List.mem_cons, List.mem_replicate] at hc
    rcases hc with rfl | ⟨-, rfl⟩ <;> decide
  · intro x; simp [strokes, countStrokes]
  · intro x; simp [strokes, countStrokes]

example : ∃ r : Rec ℕ, r.inputs.length = 1 ∧ r.constraints.length = 1 ∧ (∀ x ∈ r.inputs, x.upper = x.scale) ∧
    read countStrokes 1 1 [line strokes r] = some [(3, 1, [3], [5])] := by
  refine ⟨⟨3, 1, [⟨6, 0, 2, 2⟩], [5]⟩, rfl, rfl, by simp, ?_⟩
  exact C51_text strokes countStrokes strokes_good 1 1 (by simp) (by simp) [⟨3, 1, [⟨6, 0, 2, 2⟩], [5]⟩] (by simp)

/-- C51 is false: an input of 6 with bounds 0 and 3 and scale 1 is used as 6 and read back as 2. -/
theorem C51_scale_counterexample :
    read countStrokes 1 1 [line strokes (⟨0, 0, [⟨6, 0, 3, 1⟩], [0]⟩ : Rec ℕ)] = some [(0, 0, [2], [0])] ∧ (6 : ℕ) / 1 ≠ 2 :=
  ⟨C51_text strokes countStrokes strokes_good 1 1 (by simp) (by simp) [⟨0, 0, [⟨6, 0, 3, 1⟩], [0]⟩] (by simp), by decide⟩

/-- C51 is false for problems without constraints: the history cannot be read at all. -/
theorem C51_unconstrained_counterexample :
    read countStrokes 1 0 [line strokes (⟨0, 0, [⟨6, 0, 1, 1⟩], []⟩ : Rec ℕ)] = none := by decide

end Verif.IO.History
