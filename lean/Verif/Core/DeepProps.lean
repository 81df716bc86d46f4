import Verif.Core.UpdateLemmas
/-!
Properties C03 and C04: `Data.deep_set` / `Data.deep_get`.
-/

namespace Verif.Core
variable {R : Type}

/-! Helper equations. -/

theorem deepGet_cons (d : Val R) (k : Key) (ks : List Key) (h : ks ≠ []) :
    deepGet d (k :: ks) = (getItem d k).bind (fun d' => deepGet d' ks) := by
  cases ks with
  | nil => exact absurd rfl h
  | cons a t => rfl

theorem deepSet_cons (d : Val R) (k : Key) (ks : List Key) (v : Val R) (h : ks ≠ []) :
    deepSet d (k :: ks) v = (getItem d k).bind (fun d' => (deepSet d' ks v).bind (fun d'' =>
      match d with
      | .leaf _ => .error .typeError
      | .node kvs => .ok (.node (kvs.set k d'')))) := by
  cases ks with
  | nil => exact absurd rfl h
  | cons a t => rfl

/-- A plain (not index-suffixed, non-empty) key. -/
def PlainKey (k : Key) : Prop := k ≠ [] ∧ k.getLast? ≠ some ']'

theorem setLast_plain (kvs : Items R) (k : Key) (hk : PlainKey k) (v : Val R) :
    setLast (.node kvs) k v = .ok (.node (kvs.set k v)) := by
  unfold setLast
  cases h : k.getLast? with
  | none => simp [hk.1] at h
  | some c =>
    have : c ≠ ']' := by rintro rfl; exact hk.2 h
    simp [this]

theorem setLast_leaf (x : Leaf R) (k : Key) (v : Val R) :
    ∃ e, setLast (.leaf x) k v = .error e := by
  unfold setLast
  cases h : k.getLast? with
  | none => exact ⟨_, rfl⟩
  | some c =>
    by_cases hc : c = ']'
    · simp [hc, getItem, bind, Except.bind]
    · simp [hc]

/-- **C03 (deep_get).** `deep_get` returns exactly what attribute access reads; it raises
exactly when there is nothing to read. -/
theorem C03_deepGet_iff (d : Val R) (p : List Key) (hp : p ≠ []) (v : Val R) :
    deepGet d p = .ok v ↔ d.get p = some v := by
  induction p generalizing d with
  | nil => exact absurd rfl hp
  | cons k ks ih =>
    cases d with
    | leaf x =>
      cases ks with
      | nil => simp [deepGet, getItem, Val.get]
      | cons a t => simp [deepGet, getItem, Val.get, bind, Except.bind]
    | node kvs =>
      cases hf : kvs.find? k with
      | none =>
        cases ks with
        | nil => simp [deepGet, getItem, Val.get, hf]
        | cons a t => simp [deepGet, getItem, Val.get, hf, bind, Except.bind]
      | some w =>
        cases ks with
        | nil => simp [deepGet, getItem, Val.get, hf]
        | cons a t =>
          rw [deepGet_cons _ _ _ (by simp)]
          simp only [getItem, hf, Except.bind, Val.get]
          exact ih w (by simp)

/-- **C03 (deep_set succeeds and is read back; frame; order and uniqueness of keys).**
If the path up to its last key leads to a `Data`, `deep_set` succeeds; afterwards
`deep_get` of the path returns the value, and reading any path that is neither a prefix
nor an extension of it gives what it gave before. -/
theorem C03_deepSet_spec (d : Val R) (hd : d.WF) (init : List Key) (k : Key)
    (hk : PlainKey k) (v : Val R) (hv : v.WF) (xs : Items R)
    (h : d.get init = some (.node xs)) :
    ∃ d', deepSet d (init ++ [k]) v = .ok d' ∧ d'.WF ∧
      deepGet d' (init ++ [k]) = .ok v ∧
      d'.get init = some (.node (xs.set k v)) ∧
      ∀ q, ¬ q <+: (init ++ [k]) → ¬ (init ++ [k]) <+: q → d'.get q = d.get q := by
  suffices hs : ∃ d', deepSet d (init ++ [k]) v = .ok d' ∧ d'.WF ∧
      d'.get (init ++ [k]) = some v ∧ d'.get init = some (.node (xs.set k v)) ∧
      ∀ q, ¬ q <+: (init ++ [k]) → ¬ (init ++ [k]) <+: q → d'.get q = d.get q by
    obtain ⟨d', h1, h2, h3, h4, h5⟩ := hs
    exact ⟨d', h1, h2, (C03_deepGet_iff _ _ (by simp) _).2 h3, h4, h5⟩
  induction init generalizing d with
  | nil =>
    simp only [Val.get, Option.some.injEq] at h
    subst h
    simp only [Val.WF] at hd
    refine ⟨.node (xs.set k v), setLast_plain xs k hk v, ?_, ?_, ?_, ?_⟩
    · simpa [Val.WF] using hd.set hv
    · simp [Val.get, Items.find?_set_self]
    · simp [Val.get]
    · intro q h1 h2
      cases q with
      | nil => simp at h1
      | cons m q =>
        have hm : k ≠ m := by
          rintro rfl
          exact h2 (by simp)
        simp [Val.get, Items.find?_set_ne _ _ _ _ hm]
  | cons j init ih =>
    cases d with
    | leaf x => simp [Val.get] at h
    | node kvs =>
      simp only [Val.get] at h
      cases hf : kvs.find? j with
      | none => simp [hf] at h
      | some w =>
        simp only [hf] at h
        simp only [Val.WF] at hd
        obtain ⟨d', h1, h2, h3, h4, h5⟩ := ih w (hd.find hf) h
        refine ⟨.node (kvs.set j d'), ?_, ?_, ?_, ?_, ?_⟩
        · rw [List.cons_append, deepSet_cons _ _ _ _ (by simp)]
          simp [getItem, hf, Except.bind, h1]
        · simpa [Val.WF] using hd.set h2
        · simpa [Val.get, Items.find?_set_self] using h3
        · simpa [Val.get, Items.find?_set_self] using h4
        · intro q hq1 hq2
          cases q with
          | nil => simp at hq1
          | cons m q =>
            by_cases hm : j = m
            · subst hm
              simp only [Val.get, Items.find?_set_self, hf]
              apply h5
              · intro hc; exact hq1 (by simpa using hc)
              · intro hc; exact hq2 (by simpa using hc)
            · simp [Val.get, Items.find?_set_ne _ _ _ _ hm]

/-- **C03 (error branch).** If the path up to its last key does not lead to a `Data`,
`deep_set` raises (and, returning no tree, changes nothing). -/
theorem C03_deepSet_error (d : Val R) (init : List Key) (k : Key) (v : Val R)
    (h : ∀ xs, d.get init ≠ some (.node xs)) :
    ∃ e, deepSet d (init ++ [k]) v = .error e := by
  induction init generalizing d with
  | nil =>
    cases d with
    | leaf x => exact setLast_leaf x k v
    | node kvs => exact absurd rfl (h kvs)
  | cons j init ih =>
    rw [List.cons_append, deepSet_cons _ _ _ _ (by simp)]
    cases d with
    | leaf x => exact ⟨_, rfl⟩
    | node kvs =>
      cases hf : kvs.find? j with
      | none => exact ⟨.keyError, by simp [getItem, hf, Except.bind]⟩
      | some w =>
        obtain ⟨e, he⟩ := ih w (fun xs hx => h xs (by simpa [Val.get, hf] using hx))
        exact ⟨e, by simp [getItem, hf, Except.bind, he]⟩

/-- **C03 (last write wins).** Setting the same path twice is setting it once. -/
theorem C03_deepSet_twice (d d1 : Val R) (init : List Key) (k : Key)
    (hk : PlainKey k) (v w : Val R) (h : deepSet d (init ++ [k]) v = .ok d1) :
    deepSet d1 (init ++ [k]) w = deepSet d (init ++ [k]) w := by
  induction init generalizing d d1 with
  | nil =>
    cases d with
    | leaf x =>
      obtain ⟨e, he⟩ := setLast_leaf x k v
      simp [deepSet, he] at h
    | node kvs =>
      simp only [List.nil_append, deepSet, setLast_plain _ _ hk] at h ⊢
      cases h
      rw [setLast_plain _ _ hk, Items.set_set_self]
  | cons j init ih =>
    rw [List.cons_append, deepSet_cons _ _ _ _ (by simp)] at h ⊢
    rw [deepSet_cons _ _ _ _ (by simp)]
    cases d with
    | leaf x => simp [getItem, Except.bind] at h
    | node kvs =>
      cases hf : kvs.find? j with
      | none => simp [getItem, hf, Except.bind] at h
      | some u =>
        cases hs : deepSet u (init ++ [k]) v with
        | error e => simp [getItem, hf, Except.bind, hs] at h
        | ok u' =>
          simp only [getItem, hf, Except.bind, hs, Except.ok.injEq] at h
          subst h
          simp only [getItem, Items.find?_set_self, Except.bind, hf, ih u u' hs,
            Items.set_set_self]

/-- `{a: {x: [1,2,3]}}`. -/
def exDeep : Val Int :=
  .node (.cons ['a'] (.node (.cons ['x'] (.leaf (.vec [1, 2, 3])) .nil)) .nil)

example : exDeep.WF ∧ PlainKey ['y'] ∧
    (∃ xs, exDeep.get [['a']] = some (.node xs)) ∧
    (∃ d, deepSet exDeep [['a'], ['y']] (.leaf (.num 4)) = .ok d ∧
      deepGet d [['a'], ['y']] = .ok (.leaf (.num 4)) ∧
      deepGet d [['a'], ['x']] = .ok (.leaf (.vec [1, 2, 3]))) := by
  refine ⟨by simp [exDeep, Val.WF, Items.WF, Items.keys], by simp [PlainKey], ⟨_, rfl⟩, _, rfl,
    rfl, rfl⟩

example : (∀ xs, exDeep.get [['b']] ≠ some (.node xs)) := by
  intro xs h; simp [exDeep, Val.get, Items.find?] at h

/-! ### C04: index-suffixed names -/

mutual
/-- No key anywhere in the tree ends with ']' (true of all attribute names). -/
def Val.NoBracket : Val R → Prop
  | .leaf _ => True
  | .node kvs => Items.NoBracket kvs
def Items.NoBracket : Items R → Prop
  | .nil => True
  | .cons k v rest => k.getLast? ≠ some ']' ∧ Val.NoBracket v ∧ Items.NoBracket rest
end

theorem Items.NoBracket.find : {a : Items R} → a.NoBracket → {k : Key} → {v : Val R} →
    a.find? k = some v → k.getLast? ≠ some ']' ∧ v.NoBracket
  | .nil, _, _, _, hf => by simp at hf
  | .cons k' v' rest, h, k, v, hf => by
    simp only [Items.NoBracket] at h
    by_cases hk : k' = k
    · simp [Items.find?, hk] at hf; subst hf; exact ⟨hk ▸ h.1, h.2.1⟩
    · simp [Items.find?, hk] at hf; exact Items.NoBracket.find h.2.2 hf

/-- **C04 is false of the code**: `deep_get` never finds an index-suffixed name (in trees
whose attribute names do not end with ']'), so a name `deep_set` wrote cannot be read back
through the same name. -/
theorem C04_indexed_get_fails (d : Val R) (hd : d.NoBracket) (init : List Key) (k : Key)
    (hk : k.getLast? = some ']') : ∃ e, deepGet d (init ++ [k]) = .error e := by
  have hnone : d.get (init ++ [k]) = none := by
    induction init generalizing d with
    | nil =>
      cases d with
      | leaf x => rfl
      | node kvs =>
        simp only [List.nil_append, Val.get]
        cases hf : kvs.find? k with
        | none => rfl
        | some w =>
          simp only [Val.NoBracket] at hd
          exact absurd hk (hd.find hf).1
    | cons j init ih =>
      cases d with
      | leaf x => rfl
      | node kvs =>
        simp only [List.cons_append, Val.get]
        cases hf : kvs.find? j with
        | none => rfl
        | some w =>
          simp only [Val.NoBracket] at hd
          exact ih w (hd.find hf).2
  cases h : deepGet d (init ++ [k]) with
  | error e => exact ⟨e, rfl⟩
  | ok v =>
    have := (C03_deepGet_iff d (init ++ [k]) (by simp) v).1 h
    simp [hnone] at this

/-- Concrete history: `deep_set('a.x[1]', 9)` succeeds, `deep_get('a.x[1]')` raises. -/
theorem C04_counterexample : ∃ d : Val Int,
    deepSet exDeep [['a'], ['x', '[', '1', ']']] (.leaf (.num 9)) = .ok d ∧
    deepGet d [['a'], ['x', '[', '1', ']']] = .error .keyError :=
  ⟨.node (.cons ['a'] (.node (.cons ['x'] (.leaf (.vec [1, 9, 3])) .nil)) .nil), rfl, rfl⟩

/-- The index-suffixed key written by a user: `base[i]` with decimal `i`. -/
def indexedKey (base : Key) (i : Nat) : Key := base ++ '[' :: (Nat.toDigits 10 i ++ [']'])

theorem splitBracket_no (s : Key) (h : '[' ∉ s) : splitBracket s = [s] := by
  induction s with
  | nil => rfl
  | cons c cs ih =>
    simp only [List.mem_cons, not_or] at h
    simp [splitBracket, Ne.symm h.1, ih h.2]

theorem splitBracket_append (s t : Key) (h : '[' ∉ s) :
    splitBracket (s ++ '[' :: t) = s :: splitBracket t := by
  induction s with
  | nil => simp [splitBracket]
  | cons c cs ih =>
    simp only [List.mem_cons, not_or] at h
    simp [splitBracket, Ne.symm h.1, ih h.2]

theorem parseNat_digits (i : Nat) : parseNat (Nat.toDigits 10 i) = .ok i := by
  unfold parseNat
  have h1 : (Nat.toDigits 10 i).isEmpty = false := by
    simp [List.isEmpty_eq_false_iff, Nat.toDigits_ne_nil]
  have h2 : (Nat.toDigits 10 i).all Char.isDigit = true := by
    rw [List.all_eq_true]
    intro c hc
    exact Nat.isDigit_of_mem_toDigits (by omega) (by omega) hc
  have h3 : (Nat.toDigits 10 i).foldl (fun n c => 10 * n + (c.toNat - '0'.toNat)) 0 = i :=
    Nat.ofDigitChars_ten_toDigits
  simp only [h1, h2, h3, if_true, Bool.false_eq_true, if_false]

theorem bracket_not_mem_digits (i : Nat) : '[' ∉ Nat.toDigits 10 i := by
  intro h
  have := Nat.isDigit_of_mem_toDigits (by omega) (by omega) h
  simp [Char.isDigit] at this

theorem splitBracket_indexedKey (base : Key) (hb : '[' ∉ base) (i : Nat) :
    splitBracket (indexedKey base i) = [base, Nat.toDigits 10 i ++ [']']] := by
  unfold indexedKey
  rw [splitBracket_append _ _ hb, splitBracket_no]
  simp [bracket_not_mem_digits]

/-- **C04 (what does hold).** `deep_set` of `a.b[i]` on a one-dimensional array writes
element `i` of the array at `a.b` and nothing else (it is the same as setting `a.b` to the
array with that element replaced); an index outside the array raises IndexError.
Missing from the full statement: reading the name back, which is false
(`C04_indexed_get_fails`). -/
theorem C04_indexed_set_partial (d : Val R) (init : List Key) (base : Key)
    (hb : '[' ∉ base) (hplain : PlainKey base) (xs : Items R) (ys : List R)
    (h : d.get init = some (.node xs)) (hy : xs.find? base = some (.leaf (.vec ys)))
    (i : Nat) (x : R) :
    deepSet d (init ++ [indexedKey base i]) (.leaf (.num x)) =
      if i < ys.length then deepSet d (init ++ [base]) (.leaf (.vec (ys.set i x)))
      else .error .indexError := by
  induction init generalizing d with
  | nil =>
    simp only [Val.get, Option.some.injEq] at h
    subst h
    have hlast : (indexedKey base i).getLast? = some ']' := by
      rw [show indexedKey base i = (base ++ '[' :: Nat.toDigits 10 i) ++ [']'] by
        simp [indexedKey]]
      exact List.getLast?_concat
    simp only [List.nil_append, deepSet, setLast_plain _ _ hplain]
    unfold setLast keyIndices
    simp only [hlast, splitBracket_indexedKey base hb i, getItem, List.headD_cons, hy,
      List.drop_succ_cons, List.drop_zero, List.mapM_cons, List.mapM_nil,
      List.dropLast_concat, parseNat_digits, asNum, setIndexed, setAt]
    by_cases hi : i < ys.length <;> simp [hi, bind, Except.bind, pure, Except.pure]
  | cons j init ih =>
    rw [List.cons_append, List.cons_append, deepSet_cons _ _ _ _ (by simp),
      deepSet_cons _ _ _ _ (by simp)]
    cases d with
    | leaf x => simp [Val.get] at h
    | node kvs =>
      simp only [Val.get] at h
      cases hf : kvs.find? j with
      | none => simp [hf] at h
      | some w =>
        simp only [hf] at h
        simp only [getItem, hf, Except.bind, ih w h]
        by_cases hi : i < ys.length <;> simp [hi]

example : ∃ xs, exDeep.get [['a']] = some (.node xs) ∧
    xs.find? ['x'] = some (.leaf (.vec [1, 2, 3])) ∧ PlainKey ['x'] ∧
    deepSet exDeep [['a'], indexedKey ['x'] 2] (.leaf (.num 9)) =
      .ok (.node (.cons ['a'] (.node (.cons ['x'] (.leaf (.vec [1, 2, 9])) .nil)) .nil)) :=
  ⟨_, rfl, rfl, by simp [PlainKey], rfl⟩

end Verif.Core
