import Verif.Nexus.Alias
import Verif.Core.DeepProps
/-!
C17: design variables reach exactly the aliased fields; constraint rows read their own
alias path.
-/

namespace Verif.Nexus
open Verif.Core

variable {R : Type}

/-! ### Vocabulary -/

/-- Neither path is a prefix of the other. -/
def Apart (p q : Path) : Prop := ¬ p <+: q ∧ ¬ q <+: p

/-- The path names a field of an existing container of the tree, written without index
suffix. -/
def Field (d : Val R) (p : Path) : Prop :=
  ∃ init k xs, p = init ++ [k] ∧ PlainKey k ∧ d.get init = some (.node xs)

/-- No component contains a star. -/
def Plain (p : Path) : Prop := ∀ k ∈ p, hasStar k = false

/-- Every name has exactly one alias row, and `tgt` gives its target. -/
def OneAlias (names : List Key) (aliases : List Alias) (tgt : Key → Pointer) : Prop :=
  ∀ n ∈ names, aliases.filter (fun a => n = a.name) = [⟨n, tgt n⟩]

theorem pointers_one {names : List Key} {aliases : List Alias} {tgt : Key → Pointer}
    (h : OneAlias names aliases tgt) : pointers names aliases = names.map tgt := by
  induction names with
  | nil => rfl
  | cons n names ih =>
    have h1 := h n (by simp)
    have h2 := ih (fun m hm => h m (by simp [hm]))
    unfold pointers at h2 ⊢
    rw [List.flatMap_cons, h1, h2]; rfl

/-! ### Writing -/

theorem Apart.symm {p q : Path} (h : Apart p q) : Apart q p := ⟨h.2, h.1⟩

/-- Being a writable field survives a write to a path apart from it. -/
theorem field_preserved {d d' : Val R} {p q : Path} (hq : Field d q) (hap : Apart p q)
    (hframe : ∀ r, ¬ r <+: p → ¬ p <+: r → d'.get r = d.get r)
    (hpre : ∀ r, r <+: p → r ≠ p → ∃ ys, d'.get r = some (.node ys)) : Field d' q := by
  obtain ⟨init, k, xs, rfl, hk, hg⟩ := hq
  by_cases h1 : init <+: p
  · have hne : init ≠ p := by
      rintro rfl; exact hap.1 (List.prefix_append _ _)
    obtain ⟨ys, hy⟩ := hpre init h1 hne
    exact ⟨init, k, ys, rfl, hk, hy⟩
  · have h2 : ¬ p <+: init := fun h => hap.1 (h.trans (List.prefix_append _ _))
    exact ⟨init, k, xs, rfl, hk, by rw [hframe init h1 h2]; exact hg⟩

theorem get_append (d : Val R) (p q : Path) :
    d.get (p ++ q) = (d.get p).bind fun v => v.get q := by
  induction p generalizing d with
  | nil => simp [Val.get]
  | cons k ks ih =>
    cases d with
    | leaf x => simp [Val.get]
    | node kvs =>
      simp only [List.cons_append, Val.get]
      cases kvs.find? k with
      | none => rfl
      | some v => exact ih v

/-- One `deep_set` of a number to a writable field. -/
theorem deepSet_num (d : Val R) (hd : d.WF) (p : Path) (hp : Field d p) (v : R) :
    ∃ d', deepSet d p (.leaf (.num v)) = .ok d' ∧ d'.WF ∧ d'.get p = some (.leaf (.num v)) ∧
      (∀ q, Apart p q → d'.get q = d.get q) ∧
      (∀ q, Field d q → Apart p q → Field d' q) := by
  obtain ⟨init, k, xs, rfl, hk, hg⟩ := hp
  obtain ⟨d', h1, h2, h3, h4, h5⟩ := C03_deepSet_spec d hd init k hk (.leaf (.num v)) (by simp [Val.WF]) xs hg
  have h3' := (C03_deepGet_iff d' (init ++ [k]) (by simp) _).1 h3
  refine ⟨d', h1, h2, h3', fun q hq => h5 q hq.2 hq.1, ?_⟩
  intro q hq hap
  refine field_preserved hq hap
    (fun r hr1 hr2 => h5 r hr1 hr2) ?_
  intro r hr hne
  -- r is a prefix of init, and init still holds a node
  have hri : r <+: init := by
    rcases List.prefix_concat_iff.1 hr with h | h
    · exact absurd h hne
    · exact h
  obtain ⟨t, rfl⟩ := hri
  rw [get_append] at h4
  cases hdr : d'.get r with
  | none => simp [hdr] at h4
  | some w =>
    cases w with
    | node ys => exact ⟨ys, rfl⟩
    | leaf x =>
      cases t with
      | nil => simp [hdr, Val.get] at h4
      | cons a t => simp [hdr, Val.get] at h4

/-- Writing one value to several pairwise separate fields. -/
theorem setPaths_spec (d : Val R) (hd : d.WF) (v : R) (ps : List Path)
    (hf : ∀ p ∈ ps, Field d p) (hap : ps.Pairwise Apart) :
    ∃ d', setPaths d v ps = .ok d' ∧ d'.WF ∧ (∀ p ∈ ps, d'.get p = some (.leaf (.num v))) ∧
      (∀ q, (∀ p ∈ ps, Apart p q) → d'.get q = d.get q) ∧
      (∀ q, Field d q → (∀ p ∈ ps, Apart p q) → Field d' q) := by
  induction ps generalizing d with
  | nil => exact ⟨d, rfl, hd, by simp, by simp, by intro q h _; exact h⟩
  | cons p ps ih =>
    rw [List.pairwise_cons] at hap
    obtain ⟨d1, h1, h2, h3, h4, h5⟩ := deepSet_num d hd p (hf p (by simp)) v
    obtain ⟨d2, g1, g2, g3, g4, g5⟩ := ih d1 h2
      (fun q hq => h5 q (hf q (by simp [hq])) (hap.1 q hq)) hap.2
    refine ⟨d2, ?_, g2, ?_, ?_, ?_⟩
    · simp only [setPaths, h1]; exact g1
    · intro q hq
      rcases List.mem_cons.1 hq with e | e
      · subst e
        rw [g4 q (fun r hr => (hap.1 r hr).symm)]; exact h3
      · exact g3 q e
    · intro q hq
      rw [g4 q (fun r hr => hq r (by simp [hr])), h4 q (hq p (by simp))]
    · intro q hq hall
      exact g5 q (h5 q hq (hall p (by simp))) (fun r hr => hall r (by simp [hr]))

theorem splitLastStar_plain (p : Path) (h : Plain p) : splitLastStar p = none := by
  induction p with
  | nil => rfl
  | cons k ks ih =>
    simp [splitLastStar, ih (fun a ha => h a (by simp [ha])), h k (by simp)]

theorem setPointer_plain (d : Val R) (v : R) (ps : List Path) (h : ∀ p ∈ ps, Plain p) :
    setPointer d v ps = setPaths d v ps := by
  induction ps generalizing d with
  | nil => rfl
  | cons p ps ih =>
    have hw : writtenPaths d p = .ok [p] := by
      unfold writtenPaths; rw [splitLastStar_plain p (h p (by simp))]
    simp only [setPointer, hw, setPaths]
    show (setPaths d v [p] >>= fun d => setPointer d v ps) = _
    simp only [setPaths]
    cases deepSet d p (.leaf (.num v)) with
    | error e => rfl
    | ok d1 => exact ih d1 (fun q hq => h q (by simp [hq]))

/-- **C17, writing.** Let every design variable have exactly one alias row, listing any
number of plain paths to fields of existing containers, all these paths pairwise separate.
Then the write succeeds, every listed path holds its own variable's value, and every path
not touching a listed one reads as before.  (Partial: the property asks for all alias
tables; with zero or several rows for a name it is false, see the counterexamples below.) -/
theorem C17_setValues_partial (d : Val R) (hd : d.WF) (names : List Key) (values : List R)
    (aliases : List Alias) (tgt : Key → Pointer) (h1 : OneAlias names aliases tgt)
    (hlen : names.length = values.length)
    (hplain : ∀ n ∈ names, ∀ p ∈ (tgt n).paths, Plain p ∧ Field d p)
    (hap : (names.flatMap fun n => (tgt n).paths).Pairwise Apart) :
    ∃ d', setValues d names values aliases = .ok d' ∧ d'.WF ∧
      (∀ (i : Nat) (n : Key) (v : R), names[i]? = some n → values[i]? = some v →
        ∀ p ∈ (tgt n).paths, d'.get p = some (.leaf (.num v))) ∧
      (∀ q, (∀ n ∈ names, ∀ p ∈ (tgt n).paths, Apart p q) → d'.get q = d.get q) := by
  unfold setValues
  rw [pointers_one h1]
  clear h1
  induction names generalizing d values with
  | nil => exact ⟨d, by simp [setLoop], hd, by simp, by simp⟩
  | cons n names ih =>
    cases values with
    | nil => simp at hlen
    | cons v values =>
      simp only [List.length_cons, Nat.add_right_cancel_iff] at hlen
      rw [List.flatMap_cons, List.pairwise_append] at hap
      obtain ⟨d1, a1, a2, a3, a4, a5⟩ := setPaths_spec d hd v (tgt n).paths
        (fun p hp => (hplain n (by simp) p hp).2) hap.1
      have hsep : ∀ m ∈ names, ∀ q ∈ (tgt m).paths, ∀ p ∈ (tgt n).paths, Apart p q :=
        fun m hm q hq p hp => hap.2.2 p hp q (List.mem_flatMap.2 ⟨m, hm, hq⟩)
      obtain ⟨d2, b1, b2, b3, b4⟩ := ih d1 a2 values hlen
        (fun m hm p hp => ⟨(hplain m (by simp [hm]) p hp).1,
          a5 p (hplain m (by simp [hm]) p hp).2 (hsep m hm p hp)⟩) hap.2.1
      refine ⟨d2, ?_, b2, ?_, ?_⟩
      · simp only [List.map_cons, setLoop]
        rw [setPointer_plain d v _ (fun p hp => (hplain n (by simp) p hp).1), a1]
        exact b1
      · intro i m w hi hw p hp
        cases i with
        | zero =>
          simp only [List.getElem?_cons_zero, Option.some.injEq] at hi hw
          subst hi; subst hw
          rw [b4 p (fun m hm q hq => (hsep m hm q hq p hp).symm)]
          exact a3 p hp
        | succ i =>
          simp only [List.getElem?_cons_succ] at hi hw
          exact b3 i m w hi hw p hp
      · intro q hq
        rw [b4 q (fun m hm p hp => hq m (by simp [hm]) p hp), a4 q (hq n (by simp))]

theorem follow_iff (d : Val R) (p : Path) (v : Val R) : follow d p = .ok v ↔ d.get p = some v := by
  induction p generalizing d with
  | nil => simp [follow, Val.get]
  | cons k ks ih =>
    cases d with
    | leaf x =>
      simp only [follow, getItem, Val.get]
      constructor
      · intro h; cases h
      · intro h; cases h
    | node kvs =>
      simp only [follow, getItem, Val.get]
      cases kvs.find? k with
      | none =>
        constructor
        · intro h; cases h
        · intro h; cases h
      | some w => exact ih w

theorem splitLastStar_star (pre post : Path) (s : Key) (hs : hasStar s = true) (hpost : Plain post) :
    splitLastStar (pre ++ s :: post) = some (pre, post) := by
  induction pre with
  | nil => simp [splitLastStar, splitLastStar_plain post hpost, hs]
  | cons k ks ih => simp [splitLastStar, ih]

/-- **C17, starred alias.** A path `a.*.b` writes the value to `a.k.b` for every key `k`
under `a`, provided each `a.k.b` is a field of an existing container, and touches nothing
else. -/
theorem C17_star (d : Val R) (hd : d.WF) (pre post : Path) (s : Key) (kvs : Items R) (v : R)
    (hs : hasStar s = true) (hpre : Plain pre) (hpost : Plain post)
    (hpre0 : pre ≠ []) (hpost0 : post ≠ []) (hc : d.get pre = some (.node kvs))
    (hf : ∀ k ∈ kvs.keys, Field d (pre ++ k :: post)) :
    ∃ d', setPointer d v [pre ++ s :: post] = .ok d' ∧
      (∀ k ∈ kvs.keys, d'.get (pre ++ k :: post) = some (.leaf (.num v))) ∧
      (∀ q, (∀ k ∈ kvs.keys, Apart (pre ++ k :: post) q) → d'.get q = d.get q) := by
  have hw : writtenPaths d (pre ++ s :: post) = .ok (kvs.keys.map fun k => pre ++ k :: post) := by
    unfold writtenPaths
    rw [splitLastStar_star pre post s hs hpost]
    have h1 : pre.any hasStar = false := by
      rw [List.any_eq_false]; intro k hk; simp [hpre k hk]
    have h2 : pre.isEmpty = false := by simpa using hpre0
    have h3 : post.isEmpty = false := by simpa using hpost0
    simp only [expandStar, h1, (follow_iff d pre _).2 hc, h2, h3]
    rfl
  have hnd : kvs.keys.Nodup := by
    have : ∀ (d : Val R) (p : Path) (w : Val R), d.WF → d.get p = some w → w.WF := by
      intro d p
      induction p generalizing d with
      | nil => intro w hd h; simp [Val.get] at h; subst h; exact hd
      | cons k ks ih =>
        intro w hd h
        cases d with
        | leaf x => simp [Val.get] at h
        | node xs =>
          simp only [Val.get] at h
          cases hx : xs.find? k with
          | none => simp [hx] at h
          | some u =>
            simp only [hx] at h
            exact ih u w (Items.WF.find hd hx) h
    exact Items.WF.nodup (this d pre _ hd hc)
  have hapart : (kvs.keys.map fun k => pre ++ k :: post).Pairwise Apart := by
    rw [List.pairwise_map]
    refine List.Pairwise.imp ?_ hnd
    intro a b hab
    constructor
    · intro h
      rw [List.prefix_append_right_inj] at h
      exact hab (List.cons_prefix_cons.1 h).1
    · intro h
      rw [List.prefix_append_right_inj] at h
      exact hab (List.cons_prefix_cons.1 h).1.symm
  obtain ⟨d', g1, -, g3, g4, -⟩ := setPaths_spec d hd v (kvs.keys.map fun k => pre ++ k :: post)
    (by intro p hp; obtain ⟨k, hk, rfl⟩ := List.mem_map.1 hp; exact hf k hk) hapart
  refine ⟨d', ?_, ?_, ?_⟩
  · simp only [setPointer, hw]
    show (setPaths d v _ >>= fun d => Except.ok d) = _
    rw [g1]; rfl
  · intro k hk; exact g3 _ (List.mem_map.2 ⟨k, hk, rfl⟩)
  · intro q hq; exact g4 q (by intro p hp; obtain ⟨k, hk, rfl⟩ := List.mem_map.1 hp; exact hq k hk)

/-! ### Reading -/

theorem mapM_range' {β : Type} (f : Nat → Except Err β) (l : List β) (a : Nat)
    (h : ∀ (i : Nat) (b : β), l[i]? = some b → f (a + i) = .ok b) :
    (List.range' a l.length).mapM f = .ok l := by
  induction l generalizing a with
  | nil => rfl
  | cons b l ih =>
    rw [List.length_cons, List.range'_succ, List.mapM_cons, show f a = .ok b from h 0 b (by simp),
      ih (a + 1) (by intro i c hi; rw [Nat.add_assoc, Nat.add_comm 1 i]; exact h (i + 1) c (by simpa using hi))]
    rfl

/-- **C17, reading.** If every row's name has exactly one alias, a plain single path at which
the tree holds the number `vals[i]`, then the values returned are, row by row, those
numbers.  (Partial for the same reason.) -/
theorem C17_getValues_partial (d : Val R) (names : List Key) (aliases : List Alias) (path : Key → Path)
    (vals : List R) (h1 : OneAlias names aliases (fun n => .one (path n)))
    (hlen : names.length = vals.length) (hp : ∀ n ∈ names, Plain (path n))
    (hv : ∀ (i : Nat) (n : Key) (v : R), names[i]? = some n → vals[i]? = some v →
      d.get (path n) = some (.leaf (.num v))) :
    getValues d names aliases = .ok vals := by
  unfold getValues
  rw [pointers_one h1, hlen, List.range_eq_range']
  apply mapM_range'
  intro i v hi
  rw [Nat.zero_add]
  have hlt : i < names.length := by
    rw [hlen]; exact (List.getElem?_eq_some_iff.1 hi).1
  have hn := List.getElem?_eq_getElem hlt
  have hmem := List.mem_of_getElem? hn
  have h2 : (path names[i]).any hasStar = false := by
    rw [List.any_eq_false]; intro k hk; simp [hp _ hmem k hk]
  simp only [List.getElem?_map, hn, Option.map_some, getPointer, h2,
    (follow_iff d (path names[i]) _).2 (hv i _ v hn hi)]
  rfl

/-- **C17, write then read**: the values written through the aliases are the values read
through them. -/
theorem C17_write_read (d : Val R) (hd : d.WF) (names : List Key) (values : List R)
    (aliases : List Alias) (path : Key → Path)
    (h1 : OneAlias names aliases (fun n => .one (path n)))
    (hlen : names.length = values.length)
    (hf : ∀ n ∈ names, Plain (path n) ∧ Field d (path n))
    (hap : names.Pairwise fun a b => Apart (path a) (path b)) :
    ∃ d', setValues d names values aliases = .ok d' ∧ getValues d' names aliases = .ok values := by
  obtain ⟨d', g1, -, g3, -⟩ := C17_setValues_partial d hd names values aliases (fun n => .one (path n)) h1 hlen
    (by intro n hn p hp; simp [Pointer.paths] at hp; subst hp; exact hf n hn)
    (by
      have : ∀ l : List Key, (l.flatMap fun n => (Pointer.one (path n)).paths) = l.map path := by
        intro l
        induction l with
        | nil => rfl
        | cons a l ih => rw [List.flatMap_cons, ih]; rfl
      rw [this, List.pairwise_map]; exact hap)
  exact ⟨d', g1, C17_getValues_partial d' names aliases path values h1 hlen (fun n hn => (hf n hn).1)
    (fun i n v hn hv => g3 i n v hn hv (path n) (by simp [Pointer.paths]))⟩

/-! ### Concrete cases and what fails -/

/-- A small vehicle: `wing.span`, `wing.area`, `engines.a.thrust`, `engines.b.thrust`. -/
def exTree : Val Int :=
  .node (.cons "wing".toList (.node (.cons "span".toList (.leaf (.num 1)) (.cons "area".toList (.leaf (.num 2)) .nil)))
    (.cons "engines".toList (.node (.cons "a".toList (.node (.cons "thrust".toList (.leaf (.num 3)) .nil))
      (.cons "b".toList (.node (.cons "thrust".toList (.leaf (.num 4)) .nil)) .nil))) .nil))

example : ∃ d', setValues exTree ["s".toList, "t".toList] [10, 20]
      [⟨"s".toList, .one ["wing".toList, "span".toList]⟩,
       ⟨"t".toList, .one ["engines".toList, "*".toList, "thrust".toList]⟩] = .ok d' ∧
    d'.get ["wing".toList, "span".toList] = some (.leaf (.num 10)) ∧
    d'.get ["wing".toList, "area".toList] = some (.leaf (.num 2)) ∧
    d'.get ["engines".toList, "b".toList, "thrust".toList] = some (.leaf (.num 20)) := by
  refine ⟨_, rfl, rfl, rfl, rfl⟩

/-- The hypotheses of `C17_write_read` are met by the small vehicle. -/
example : ∃ d', setValues exTree ["s".toList, "t".toList] [10, 20]
      [⟨"s".toList, .one ["wing".toList, "span".toList]⟩, ⟨"t".toList, .one ["wing".toList, "area".toList]⟩] = .ok d' ∧
    getValues d' ["s".toList, "t".toList]
      [⟨"s".toList, .one ["wing".toList, "span".toList]⟩, ⟨"t".toList, .one ["wing".toList, "area".toList]⟩] = .ok [10, 20] := by
  apply C17_write_read _ _ _ _ _ (fun n => if n = "s".toList then ["wing".toList, "span".toList] else ["wing".toList, "area".toList])
  · intro n hn
    simp only [List.mem_cons, List.not_mem_nil, or_false] at hn
    rcases hn with rfl | rfl <;> rfl
  · rfl
  · intro n hn
    simp only [List.mem_cons, List.not_mem_nil, or_false] at hn
    rcases hn with rfl | rfl
    · exact ⟨by unfold Plain; decide, ["wing".toList], "span".toList, _, rfl, by unfold PlainKey; decide, rfl⟩
    · exact ⟨by unfold Plain; decide, ["wing".toList], "area".toList, _, rfl, by unfold PlainKey; decide, rfl⟩
  · simp only [List.pairwise_cons, List.mem_singleton, forall_eq, List.not_mem_nil, false_imp_iff, implies_true, List.Pairwise.nil, and_true]
    unfold Apart; decide
  · simp [exTree, Val.WF, Items.WF, Items.keys]

/-- **C17 is false of the code when a name has two alias rows** (a natural way to drive two
fields with one variable): the second row consumes the next variable's value, so the
variable `t` reaches `s`'s second field, and one value too few is left. -/
theorem C17_two_rows_counterexample :
    setValues exTree ["s".toList] [10]
      [⟨"s".toList, .one ["wing".toList, "span".toList]⟩, ⟨"s".toList, .one ["wing".toList, "area".toList]⟩]
      = .error .indexError ∧
    ∃ d', setValues exTree ["s".toList, "t".toList, "u".toList] [10, 20, 30]
      [⟨"s".toList, .one ["wing".toList, "span".toList]⟩, ⟨"s".toList, .one ["wing".toList, "area".toList]⟩,
       ⟨"t".toList, .one ["engines".toList, "a".toList, "thrust".toList]⟩] = .ok d' ∧
      d'.get ["wing".toList, "area".toList] = some (.leaf (.num 20)) ∧
      d'.get ["engines".toList, "a".toList, "thrust".toList] = some (.leaf (.num 30)) :=
  ⟨rfl, _, rfl, rfl, rfl⟩

/-- **C17 is false of the code when a name has no alias row**: nothing is raised on writing
and the following variables shift into each other's fields. -/
theorem C17_missing_row_counterexample :
    ∃ d', setValues exTree ["s".toList, "t".toList] [10, 20]
      [⟨"t".toList, .one ["wing".toList, "area".toList]⟩] = .ok d' ∧
      d'.get ["wing".toList, "area".toList] = some (.leaf (.num 10)) :=
  ⟨_, rfl, rfl⟩

/-- **C17, reading with a duplicated alias row**: row `t` is answered with `s`'s second
alias. -/
theorem C17_read_counterexample :
    getValues exTree ["s".toList, "t".toList]
      [⟨"s".toList, .one ["wing".toList, "span".toList]⟩, ⟨"s".toList, .one ["wing".toList, "area".toList]⟩,
       ⟨"t".toList, .one ["engines".toList, "a".toList, "thrust".toList]⟩] = .ok [1, 2] := by
  rfl

end Verif.Nexus
