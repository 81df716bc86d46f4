import Verif.Units.Graph
import Mathlib.Data.Finset.Card
import Mathlib.Order.WellFoundedSet
import Mathlib.Logic.Relation
import Mathlib.Data.List.Nodup
import Mathlib.Tactic.Linarith
import Mathlib.Data.Fintype.Fin
import Mathlib.Tactic.FinCases

/-!
# Dependency layers and path search (C46, C47)
-/

namespace Verif.Units

variable {α : Type} [DecidableEq α]

/-! ### C46 -/

/-- `i` must come before `k`. -/
def Before (d : Deps α) (i k : α) : Prop := k ∈ d.keys ∧ i ∈ d.dep k

/-- No name depends on itself, directly or through others. -/
def Acyclic (d : Deps α) : Prop := ∀ k, ¬ Relation.TransGen (Before d) k k

/-- All names mentioned in the dictionary. -/
def names (d : Deps α) : Finset α := d.keys ∪ d.keys.biUnion d.dep

/-- The layers cover the names, each once, and dependencies come in earlier layers. -/
structure Layered (d : Deps α) (r : List (Finset α)) : Prop where
  cover : ∀ k, k ∈ names d ↔ ∃ t ∈ r, k ∈ t
  once : r.Pairwise Disjoint
  order : ∀ (i k : α) (a b : ℕ) (ta tb : Finset α), Before d i k → r[a]? = some ta → r[b]? = some tb → i ∈ ta → k ∈ tb → a < b

theorem names_next (d : Deps α) : names (next d) = names d \ layer d := by
  ext x
  simp only [names, next, layer, Finset.mem_union, Finset.mem_filter, Finset.mem_biUnion, Finset.mem_sdiff, not_or, not_and]
  constructor
  · rintro (⟨h1, h2⟩ | ⟨k, ⟨hk, hk2⟩, hx, hx1, hx2⟩)
    · exact ⟨Or.inl h1, fun _ => not_not.2 h1, fun _ => h2⟩
    · exact ⟨Or.inr ⟨k, hk, hx⟩, hx1, hx2⟩
  · rintro ⟨h1, h2, h3⟩
    left
    rcases h1 with h1 | ⟨k, hk, hx⟩
    · exact ⟨h1, h3 h1⟩
    · have : x ∈ d.keys := by
        by_contra hn
        exact h2 ⟨k, hk, hx⟩ hn
      exact ⟨this, h3 this⟩

theorem layer_subset (d : Deps α) : layer d ⊆ names d := by
  intro x
  simp only [names, layer, Finset.mem_union, Finset.mem_filter, Finset.mem_sdiff]
  tauto

theorem solve_layered : ∀ (n : ℕ) (d : Deps α) (r : List (Finset α)), solve n d = some r → Layered d r := by
  have hempty : ∀ d : Deps α, d.keys = ∅ → Layered d [] := fun d h =>
    ⟨by simp [names, h], List.Pairwise.nil, by simp⟩
  intro n
  induction n with
  | zero =>
    intro d r h
    unfold solve at h
    split_ifs at h with hk
    cases h; exact hempty d hk
  | succ n ih =>
    intro d r h
    unfold solve at h
    split_ifs at h with hk
    · cases h; exact hempty d hk
    · obtain ⟨r', hr', rfl⟩ := Option.map_eq_some_iff.1 h
      have L := ih _ _ hr'
      have hdis : ∀ t ∈ r', Disjoint (layer d) t := by
        intro t ht
        rw [Finset.disjoint_left]
        intro x hx hxt
        have : x ∈ names (next d) := (L.cover x).2 ⟨t, ht, hxt⟩
        rw [names_next] at this
        exact (Finset.mem_sdiff.1 this).2 hx
      refine ⟨?_, List.pairwise_cons.2 ⟨hdis, L.once⟩, ?_⟩
      · intro k
        constructor
        · intro hk
          by_cases hl : k ∈ layer d
          · exact ⟨_, by simp, hl⟩
          · have : k ∈ names (next d) := by rw [names_next]; exact Finset.mem_sdiff.2 ⟨hk, hl⟩
            obtain ⟨t, ht, hkt⟩ := (L.cover k).1 this
            exact ⟨t, by simp [ht], hkt⟩
        · rintro ⟨t, ht, hkt⟩
          rcases List.mem_cons.1 ht with rfl | ht
          · exact layer_subset d hkt
          · have : k ∈ names (next d) := (L.cover k).2 ⟨t, ht, hkt⟩
            rw [names_next] at this
            exact (Finset.mem_sdiff.1 this).1
      · intro i k a b ta tb hb ha hb' hia hkb
        have hdep : d.dep k ≠ ∅ := Finset.ne_empty_of_mem hb.2
        have hkl : k ∉ layer d := by
          simp only [layer, Finset.mem_union, Finset.mem_filter, Finset.mem_sdiff, not_or, not_and, not_not]
          exact ⟨fun _ => hb.1, fun _ => hdep⟩
        cases b with
        | zero =>
          simp only [List.getElem?_cons_zero, Option.some.injEq] at hb'
          subst hb'; exact absurd hkb hkl
        | succ b =>
          cases a with
          | zero => omega
          | succ a =>
            simp only [List.getElem?_cons_succ] at ha hb'
            have hil : i ∉ layer d := fun hil => Finset.disjoint_left.1 (hdis ta (List.mem_of_getElem? ha)) hil hia
            have hb2 : Before (next d) i k :=
              ⟨by simp only [next, Finset.mem_filter]; exact ⟨hb.1, hdep⟩, by simp only [next, Finset.mem_sdiff]; exact ⟨hb.2, hil⟩⟩
            have := L.order i k a b ta tb hb2 ha hb' hia hkb
            omega

/-- **C46, order.** Whatever the dictionary, if the loop ends, every name is in exactly one layer and
everything a name depends on is in an earlier one. -/
theorem C46_layers (n : ℕ) (d : Deps α) (r : List (Finset α)) (h : solve n d = some r) : Layered d r := solve_layered n d r h

theorem layer_nonempty (d : Deps α) (h : Acyclic d) (hk : d.keys ≠ ∅) : (layer d).Nonempty := by
  by_contra hn
  rw [Finset.not_nonempty_iff_eq_empty] at hn
  have h1 : ∀ k ∈ d.keys, ∃ i ∈ d.keys, Before d i k := by
    intro k hk
    have hne : d.dep k ≠ ∅ := by
      intro he
      have : k ∈ layer d := by simp only [layer, Finset.mem_union, Finset.mem_filter]; exact Or.inr ⟨hk, he⟩
      rw [hn] at this; simp at this
    obtain ⟨i, hi⟩ := Finset.nonempty_iff_ne_empty.2 hne
    refine ⟨i, ?_, hk, hi⟩
    by_contra hik
    have : i ∈ layer d := by
      simp only [layer, Finset.mem_union, Finset.mem_sdiff, Finset.mem_biUnion]
      exact Or.inl ⟨⟨k, hk, hi⟩, hik⟩
    rw [hn] at this; simp at this
  have : IsStrictOrder α (Relation.TransGen (Before d)) :=
    { irrefl := h, trans := fun _ _ _ => Relation.TransGen.trans }
  have hwf := d.keys.finite_toSet.wellFoundedOn (r := Relation.TransGen (Before d))
  obtain ⟨k0, hk0⟩ := Finset.nonempty_iff_ne_empty.2 hk
  obtain ⟨m, -, hm⟩ := hwf.has_min Set.univ ⟨⟨k0, hk0⟩, trivial⟩
  obtain ⟨i, hi, hb⟩ := h1 m.1 m.2
  exact hm ⟨i, hi⟩ trivial (Relation.TransGen.single hb)

theorem Acyclic.next {d : Deps α} (h : Acyclic d) : Acyclic (next d) := by
  intro k hk
  refine h k (Relation.TransGen.mono ?_ _ _ hk)
  rintro a b ⟨h1, h2⟩
  simp only [Units.next, Finset.mem_filter, Finset.mem_sdiff] at h1 h2
  exact ⟨h1.1, h2.1⟩

theorem solve_ends : ∀ (n : ℕ) (d : Deps α), Acyclic d → (names d).card ≤ n → ∃ r, solve n d = some r := by
  intro n
  induction n with
  | zero =>
    intro d _ hc
    have : names d = ∅ := Finset.card_eq_zero.1 (by omega)
    have hk : d.keys = ∅ := by
      apply Finset.subset_empty.1
      rw [← this]; exact Finset.subset_union_left
    exact ⟨[], by simp [solve, hk]⟩
  | succ n ih =>
    intro d ha hc
    by_cases hk : d.keys = ∅
    · exact ⟨[], by simp [solve, hk]⟩
    · have hl := layer_nonempty d ha hk
      have hlt : (names (next d)).card < (names d).card := by
        rw [names_next]
        apply Finset.card_lt_card
        refine ⟨Finset.sdiff_subset, fun hs => ?_⟩
        obtain ⟨x, hx⟩ := hl
        exact (Finset.mem_sdiff.1 (hs (layer_subset d hx))).2 hx
      obtain ⟨r, hr⟩ := ih _ ha.next (by omega)
      exact ⟨layer d :: r, by simp [solve, hk, hr]⟩

/-- **C46, termination.** The loop ends exactly for acyclic dictionaries, and then within as many
passes as there are names. -/
theorem C46_terminates (d : Deps α) :
    (Acyclic d → ∃ r, solve (names d).card d = some r) ∧ (¬ Acyclic d → ∀ n, solve n d = none) := by
  refine ⟨fun h => solve_ends _ d h le_rfl, fun h n => ?_⟩
  unfold Acyclic at h
  push Not at h
  obtain ⟨k, hk⟩ := h
  by_contra hne
  obtain ⟨r, hr⟩ := Option.ne_none_iff_exists'.1 hne
  have L := solve_layered n d r hr
  have hpos : ∀ x, x ∈ names d → ∃ (a : ℕ) (t : Finset α), r[a]? = some t ∧ x ∈ t := by
    intro x hx
    obtain ⟨t, ht, hxt⟩ := (L.cover x).1 hx
    obtain ⟨a, ha⟩ := List.mem_iff_getElem?.1 ht
    exact ⟨a, t, ha, hxt⟩
  have hnames : ∀ i k, Before d i k → i ∈ names d ∧ k ∈ names d := by
    rintro i k ⟨h1, h2⟩
    exact ⟨Finset.mem_union_right _ (Finset.mem_biUnion.2 ⟨k, h1, h2⟩), Finset.mem_union_left _ h1⟩
  have key : ∀ i k, Relation.TransGen (Before d) i k → ∀ (a b : ℕ) (ta tb : Finset α),
      r[a]? = some ta → r[b]? = some tb → i ∈ ta → k ∈ tb → a < b := by
    intro i k hik
    induction hik with
    | single hb => intro a b ta tb h1 h2 h3 h4; exact L.order _ _ _ _ _ _ hb h1 h2 h3 h4
    | tail _ hb ih =>
      intro a b ta tb h1 h2 h3 h4
      obtain ⟨c, t, hc, hct⟩ := hpos _ (hnames _ _ hb).1
      have e1 := ih a c ta t h1 hc h3 hct
      have e2 := L.order _ _ _ _ _ _ hb hc h2 hct h4
      omega
  have hkn : k ∈ names d := by
    rcases hk with hb | ⟨_, hb⟩
    · exact (hnames _ _ hb).1
    · exact (hnames _ _ hb).2
  obtain ⟨a, t, ha, hat⟩ := hpos k hkn
  have := key k k hk a a t t ha ha hat hat
  omega

/-- A registry: foot needs meter, acre needs foot, meter needs its dimension 0. -/
example : Acyclic (⟨{1, 2, 3}, fun k => if k = 1 then {0} else if k = 2 then {1} else {1, 2}⟩ : Deps ℕ) := by
  have h : ∀ i k, Relation.TransGen (Before (⟨{1, 2, 3}, fun k => if k = 1 then {0} else if k = 2 then {1} else {1, 2}⟩ : Deps ℕ)) i k → i < k := by
    intro i k hik
    have step : ∀ i k, Before (⟨{1, 2, 3}, fun k => if k = 1 then {0} else if k = 2 then {1} else {1, 2}⟩ : Deps ℕ) i k → i < k := by
      rintro i k ⟨h1, h2⟩
      simp only [Finset.mem_insert, Finset.mem_singleton] at h1 h2
      rcases h1 with rfl | rfl | rfl <;> simp at h2 <;> omega
    induction hik with
    | single h => exact step _ _ h
    | tail _ h ih => exact lt_trans ih (step _ _ h)
  exact fun k hk => lt_irrefl _ (h k k hk)

/-! ### C47 -/

/-- A walk along the edges of the graph, as the list of its nodes. -/
inductive Walk (g : α → Option (List α)) (e : α) : α → List α → Prop
  | refl : Walk g e e [e]
  | cons {a b : α} {l q : List α} : g a = some l → b ∈ l → Walk g e b q → Walk g e a (a :: q)

omit [DecidableEq α] in
/-- The loop keeps a shortest of the paths it has seen. -/
theorem fold_spec (f : α → Option (List α)) (skip : α → Prop) [DecidablePred skip] (l : List α) :
    ∀ s0 : Option (List α),
      (∀ p, l.foldl (fun s node => if skip node then s else better s (f node)) s0 = some p →
        (s0 = some p ∨ ∃ n ∈ l, ¬ skip n ∧ f n = some p)) ∧
      ((∀ q, s0 = some q → ∃ p, l.foldl (fun s node => if skip node then s else better s (f node)) s0 = some p ∧ p.length ≤ q.length) ∧
       ∀ n ∈ l, ¬ skip n → ∀ q, f n = some q → ∃ p, l.foldl (fun s node => if skip node then s else better s (f node)) s0 = some p ∧ p.length ≤ q.length) := by
  induction l with
  | nil => intro s0; exact ⟨fun p hp => Or.inl hp, fun q hq => ⟨q, hq, le_rfl⟩, by simp⟩
  | cons a l ih =>
    intro s0
    simp only [List.foldl_cons]
    have hb : ∀ p, better s0 (f a) = some p → s0 = some p ∨ f a = some p := by
      intro p hp
      unfold better at hp
      split at hp
      · exact Or.inl hp
      · split at hp
        · exact Or.inr (by rw [← hp]; assumption)
        · split_ifs at hp
          · exact Or.inr (by rw [← hp]; assumption)
          · exact Or.inl hp
    have hb1 : ∀ q, s0 = some q → ∃ p, better s0 (f a) = some p ∧ p.length ≤ q.length := by
      rintro q rfl
      unfold better
      split
      · exact ⟨q, rfl, le_rfl⟩
      · rename_i p hp
        dsimp only
        split_ifs with h
        · exact ⟨p, rfl, h.le⟩
        · exact ⟨q, rfl, le_rfl⟩
    have hb2 : ∀ q, f a = some q → ∃ p, better s0 (f a) = some p ∧ p.length ≤ q.length := by
      intro q hq
      rw [hq]; unfold better; dsimp only
      split
      · exact ⟨q, rfl, le_rfl⟩
      · split_ifs with h
        · exact ⟨q, rfl, le_rfl⟩
        · rename_i s; exact ⟨s, rfl, not_lt.1 h⟩
    by_cases hs : skip a
    · simp only [if_pos hs]
      obtain ⟨i1, i2, i3⟩ := ih s0
      refine ⟨fun p hp => ?_, i2, ?_⟩
      · rcases i1 p hp with h | ⟨n, hn, h⟩
        · exact Or.inl h
        · exact Or.inr ⟨n, by simp [hn], h⟩
      · intro n hn hns q hq
        rcases List.mem_cons.1 hn with rfl | hn
        · exact absurd hs hns
        · exact i3 n hn hns q hq
    · simp only [if_neg hs]
      obtain ⟨i1, i2, i3⟩ := ih (better s0 (f a))
      refine ⟨fun p hp => ?_, fun q hq => ?_, ?_⟩
      · rcases i1 p hp with h | ⟨n, hn, h⟩
        · rcases hb p h with h | h
          · exact Or.inl h
          · exact Or.inr ⟨a, by simp, hs, h⟩
        · exact Or.inr ⟨n, by simp [hn], h⟩
      · obtain ⟨p, hp, hle⟩ := hb1 q hq
        obtain ⟨p', hp', hle'⟩ := i2 p hp
        exact ⟨p', hp', hle'.trans hle⟩
      · intro n hn hns q hq
        rcases List.mem_cons.1 hn with rfl | hn
        · obtain ⟨p, hp, hle⟩ := hb2 q hq
          obtain ⟨p', hp', hle'⟩ := i2 p hp
          exact ⟨p', hp', hle'.trans hle⟩
        · exact i3 n hn hns q hq

theorem search_sound (g : α → Option (List α)) (e : α) : ∀ (n : ℕ) (s : α) (path p : List α), s ∉ path →
    search g e n s path = some p → ∃ q, p = path ++ q ∧ Walk g e s q ∧ q.Nodup ∧ ∀ x ∈ q, x ∉ path := by
  intro n
  induction n with
  | zero => intro s path p _ h; simp [search] at h
  | succ n ih =>
    intro s path p hs h
    simp only [search] at h
    split_ifs at h with he
    · subst he; cases h
      exact ⟨[s], rfl, Walk.refl, by simp, by simpa using hs⟩
    · split at h
      · simp at h
      · rename_i nodes hg
        obtain ⟨h1, -⟩ := fold_spec (fun node => search g e n node (path ++ [s])) (fun node => node ∈ path ++ [s]) nodes none
        rcases h1 p h with h | ⟨m, hm, hmp, hsearch⟩
        · simp at h
        · obtain ⟨q, rfl, hw, hnd, hdis⟩ := ih m (path ++ [s]) p hmp hsearch
          refine ⟨s :: q, by simp, Walk.cons hg hm hw, ?_, ?_⟩
          · rw [List.nodup_cons]
            exact ⟨fun hsq => hdis s hsq (by simp), hnd⟩
          · intro x hx
            rcases List.mem_cons.1 hx with rfl | hx
            · exact hs
            · exact fun hxp => hdis x hx (by simp [hxp])

theorem search_complete (g : α → Option (List α)) (e : α) : ∀ (n : ℕ) (s : α) (path q : List α),
    Walk g e s q → q.Nodup → (∀ x ∈ q, x ∉ path) → q.length ≤ n →
    ∃ p, search g e n s path = some p ∧ p.length ≤ path.length + q.length := by
  intro n
  induction n with
  | zero =>
    intro s path q hw _ _ hl
    cases hw <;> simp at hl
  | succ n ih =>
    intro s path q hw hnd hdis hl
    simp only [search]
    by_cases he : s = e
    · rw [if_pos he]
      refine ⟨_, rfl, ?_⟩
      cases hw <;> simp
    · rw [if_neg he]
      cases hw with
      | refl => exact absurd rfl he
      | cons hg hb hw =>
        rename_i b l q
        rw [hg]; dsimp only
        rw [List.nodup_cons] at hnd
        have hbq : b ∈ q := by cases hw <;> simp
        have hnot : ∀ x ∈ q, x ∉ path ++ [s] := by
          intro x hx hxp
          rcases List.mem_append.1 hxp with h | h
          · exact hdis x (by simp [hx]) h
          · simp only [List.mem_singleton] at h; subst h; exact hnd.1 hx
        obtain ⟨p, hp, hle⟩ := ih b (path ++ [s]) q hw hnd.2 hnot (by simpa using hl)
        obtain ⟨-, -, h3⟩ := fold_spec (fun node => search g e n node (path ++ [s])) (fun node => node ∈ path ++ [s]) l none
        obtain ⟨p', hp', hle'⟩ := h3 b hb (hnot b hbq) p hp
        refine ⟨p', hp', ?_⟩
        simp only [List.length_append, List.length_cons, List.length_nil] at hle ⊢
        omega

omit [DecidableEq α] in
theorem walk_from {g : α → Option (List α)} {e b a : α} {q : List α} (hw : Walk g e b q) (hnd : q.Nodup) (ha : a ∈ q) :
    ∃ q', Walk g e a q' ∧ q'.Nodup ∧ q'.length ≤ q.length := by
  induction hw with
  | refl => simp only [List.mem_singleton] at ha; subst ha; exact ⟨[a], Walk.refl, by simp, le_rfl⟩
  | cons hg hb hw ih =>
    rcases List.mem_cons.1 ha with rfl | ha
    · exact ⟨_, Walk.cons hg hb hw, hnd, le_rfl⟩
    · obtain ⟨q', h1, h2, h3⟩ := ih (List.nodup_cons.1 hnd).2 ha
      exact ⟨q', h1, h2, h3.trans (by simp)⟩

theorem walk_simple {g : α → Option (List α)} {e s : α} {q : List α} (hw : Walk g e s q) :
    ∃ q', Walk g e s q' ∧ q'.Nodup ∧ q'.length ≤ q.length := by
  induction hw with
  | refl => exact ⟨_, Walk.refl, by simp, le_rfl⟩
  | @cons a b l q hg hb hw ih =>
    obtain ⟨q', h1, h2, h3⟩ := ih
    by_cases ha : a ∈ q'
    · obtain ⟨q'', e1, e2, e3⟩ := walk_from h1 h2 ha
      exact ⟨q'', e1, e2, by simp only [List.length_cons]; omega⟩
    · exact ⟨a :: q', Walk.cons hg hb h1, List.nodup_cons.2 ⟨ha, h2⟩, by simp only [List.length_cons]; omega⟩

/-- **C47.** On every finite graph: a path that is returned leads from start to end along edges, does
not repeat a node and is no longer than any walk; nothing is returned exactly when there is no walk. -/
theorem C47_shortest [Fintype α] (g : α → Option (List α)) (s e : α) :
    (∀ p, findShortestPath g s e = some p → Walk g e s p ∧ p.Nodup ∧ ∀ q, Walk g e s q → p.length ≤ q.length) ∧
    (findShortestPath g s e = none ↔ ¬ ∃ q, Walk g e s q) := by
  have hcomp : ∀ q, Walk g e s q → ∃ p, findShortestPath g s e = some p ∧ p.length ≤ q.length := by
    intro q hq
    obtain ⟨q', h1, h2, h3⟩ := walk_simple hq
    obtain ⟨p, hp, hle⟩ := search_complete g e (Fintype.card α + 1) s [] q' h1 h2 (by simp) (by
      have := h2.length_le_card; omega)
    exact ⟨p, hp, by simp only [List.length_nil] at hle; omega⟩
  constructor
  · intro p hp
    obtain ⟨q, hpq, hw, hnd, -⟩ := search_sound g e _ s [] p (by simp) hp
    rw [List.nil_append] at hpq
    subst hpq
    refine ⟨hw, hnd, fun q' hq' => ?_⟩
    obtain ⟨p, hp', hle⟩ := hcomp q' hq'
    rw [hp] at hp'; cases hp'; exact hle
  · constructor
    · rintro h ⟨q, hq⟩
      obtain ⟨p, hp, -⟩ := hcomp q hq
      rw [h] at hp; simp at hp
    · intro h
      by_contra hne
      obtain ⟨p, hp⟩ := Option.ne_none_iff_exists'.1 hne
      obtain ⟨q, -, hw, -⟩ := search_sound g e _ s [] p (by simp) hp
      exact h ⟨q, hw⟩

/-- A graph with a detour 0-1-2-3 and a short way 0-2-3. -/
example : findShortestPath (α := Fin 4) (fun i => if i = 0 then some [1, 2] else if i = 1 then some [2] else if i = 2 then some [3] else none) 0 3 = some [0, 2, 3] := by decide +kernel

end Verif.Units
