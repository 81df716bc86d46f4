import Verif.Ordered.Model
import Verif.Ordered.Spec
import Mathlib.Data.List.Nodup
import Mathlib.Data.List.Perm.Subperm
/-! Helper lemmas: the linked list represents the order of the dictionary. -/

namespace Verif.Ordered
open Verif.Core (Key Err isPrivate norm)

variable {V α : Type}

/-! #### association lists -/

theorem dget_none_iff (l : List (Key × α)) (k : Key) : dget l k = none ↔ k ∉ l.map Prod.fst := by
  induction l with
  | nil => simp [dget]
  | cons p r ih =>
    obtain ⟨a, b⟩ := p
    by_cases h : a = k
    · simp [dget, h]
    · have h' : ¬ k = a := fun e => h e.symm
      simp [dget, h, h', ih]

theorem dset_new (l : List (Key × α)) (k : Key) (v : α) (h : k ∉ l.map Prod.fst) :
    dset l k v = l ++ [(k, v)] := by
  induction l with
  | nil => rfl
  | cons p r ih =>
    obtain ⟨a, b⟩ := p
    simp only [List.map_cons, List.mem_cons, not_or] at h
    have h' : ¬ a = k := fun e => h.1 e.symm
    simp [dset, h', ih h.2]

theorem keys_dset_old (l : List (Key × α)) (k : Key) (v : α) (h : k ∈ l.map Prod.fst) :
    (dset l k v).map Prod.fst = l.map Prod.fst := by
  induction l with
  | nil => simp at h
  | cons p r ih =>
    obtain ⟨a, b⟩ := p
    by_cases e : a = k
    · simp [dset, e]
    · have h' : ¬ k = a := fun e' => e e'.symm
      simp only [List.map_cons, List.mem_cons, h', false_or] at h
      simp [dset, e, ih h]

theorem dget_split (l : List (Key × α)) (k : Key) (v : α) (h : dget l k = some v) :
    ∃ xs zs, l = xs ++ (k, v) :: zs ∧ k ∉ xs.map Prod.fst ∧ ddel l k = xs ++ zs := by
  induction l with
  | nil => simp [dget] at h
  | cons p r ih =>
    obtain ⟨a, b⟩ := p
    by_cases e : a = k
    · subst e
      simp [dget] at h
      exact ⟨[], r, by simp [h], by simp, by simp [ddel]⟩
    · simp [dget, e] at h
      obtain ⟨xs, zs, h1, h2, h3⟩ := ih h
      refine ⟨(a, b) :: xs, zs, by simp [h1], ?_, by simp [ddel, e, h3]⟩
      have h' : ¬ k = a := fun e' => e e'.symm
      simpa [h'] using h2

theorem spec_has (l : List (Key × α)) (k : Key) : Spec.has l k = true ↔ k ∈ l.map Prod.fst := by
  simp [Spec.has]

theorem spec_get (l : List (Key × α)) (k : Key) : Spec.get l k = dget l k := by
  induction l with
  | nil => rfl
  | cons p r ih =>
    obtain ⟨a, b⟩ := p
    by_cases e : a = k
    · subst e; simp [Spec.get, dget]
    · have : (a == k) = false := by simp [e]
      simp only [Spec.get] at ih
      simp [Spec.get, dget, e, this, ih]

theorem map_ite_self (l : List (Key × α)) (k : Key) (v : α) (h : k ∉ l.map Prod.fst) :
    (l.map fun p => if p.1 == k then (k, v) else p) = l := by
  induction l with
  | nil => rfl
  | cons p r ih =>
    obtain ⟨a, b⟩ := p
    simp only [List.map_cons, List.mem_cons, not_or] at h
    have h' : ¬ a = k := fun e => h.1 e.symm
    rw [List.map_cons, ih h.2]
    simp [h']

theorem spec_set (l : List (Key × α)) (k : Key) (v : α) (hn : (l.map Prod.fst).Nodup) :
    Spec.set l k v = dset l k v := by
  unfold Spec.set
  by_cases h : k ∈ l.map Prod.fst
  · rw [if_pos ((spec_has l k).2 h)]
    induction l with
    | nil => simp at h
    | cons p r ih =>
      obtain ⟨a, b⟩ := p
      simp only [List.map_cons, List.nodup_cons] at hn
      by_cases e : a = k
      · subst e
        rw [List.map_cons, map_ite_self _ _ _ hn.1]
        simp [dset]
      · have h' : ¬ k = a := fun e' => e e'.symm
        simp only [List.map_cons, List.mem_cons, h', false_or] at h
        have := ih hn.2 h
        rw [List.map_cons, this]
        simp [dset, e]
  · rw [if_neg (fun hh => h ((spec_has l k).1 hh)), dset_new _ _ _ h]

theorem spec_del (l : List (Key × α)) (k : Key) (hn : (l.map Prod.fst).Nodup) :
    Spec.del l k = ddel l k := by
  unfold Spec.del
  induction l with
  | nil => rfl
  | cons p r ih =>
    obtain ⟨a, b⟩ := p
    simp only [List.map_cons, List.nodup_cons] at hn
    by_cases e : a = k
    · subst e
      simp only [ddel, if_true]
      rw [List.filter_cons]
      simp only [bne_self_eq_false, Bool.false_eq_true, if_false]
      rw [List.filter_eq_self]
      intro q hq
      have : q.1 ≠ a := fun e => hn.1 (e ▸ List.mem_map_of_mem hq)
      simp [this]
    · rw [List.filter_cons]
      simp [ddel, e, ih hn.2]

/-! #### linked segments -/

/-- `node[1]`. -/
def nx (h : Heap) (a : Nat) : Option Nat := (h a).map Node.next
/-- `node[0]`. -/
def pv (h : Heap) (a : Nat) : Option Nat := (h a).map Node.prev

/-- The links lead from `a` through `xs` to `b` and back. -/
def Linked (h : Heap) : Nat → List Nat → Nat → Prop
  | a, [], b => nx h a = some b ∧ pv h b = some a
  | a, x :: xs, b => (nx h a = some x ∧ pv h x = some a) ∧ Linked h x xs b

theorem linked_split (h : Heap) (xs zs : List Nat) (a y b : Nat) :
    Linked h a (xs ++ y :: zs) b ↔ Linked h a xs y ∧ Linked h y zs b := by
  induction xs generalizing a with
  | nil => simp [Linked]
  | cons x xs ih => simp [Linked, ih, and_assoc]

theorem linked_congr (h h' : Heap) (xs : List Nat) (a b : Nat)
    (hn : ∀ x ∈ a :: xs, nx h' x = nx h x) (hp : ∀ x ∈ xs ++ [b], pv h' x = pv h x)
    (hl : Linked h a xs b) : Linked h' a xs b := by
  induction xs generalizing a with
  | nil =>
    simp only [Linked] at *
    rw [hn a (by simp), hp b (by simp)]; exact hl
  | cons x xs ih =>
    simp only [Linked] at *
    refine ⟨?_, ih x (fun y hy => hn y (List.mem_cons_of_mem _ hy)) (fun y hy => hp y ?_) hl.2⟩
    · rw [hn a (by simp), hp x (by simp)]; exact hl.1
    · simp at hy ⊢; tauto

@[simp] theorem nx_setNext (h : Heap) (i j a : Nat) :
    nx (h.setNext i j) a = if a = i then (h a).map (fun _ => j) else nx h a := by
  unfold nx Heap.setNext; split <;> simp [Function.comp_def]
@[simp] theorem pv_setNext (h : Heap) (i j a : Nat) : pv (h.setNext i j) a = pv h a := by
  unfold pv Heap.setNext; split <;> simp [Function.comp_def]
@[simp] theorem pv_setPrev (h : Heap) (i j a : Nat) :
    pv (h.setPrev i j) a = if a = i then (h a).map (fun _ => j) else pv h a := by
  unfold pv Heap.setPrev; split <;> simp [Function.comp_def]
@[simp] theorem nx_setPrev (h : Heap) (i j a : Nat) : nx (h.setPrev i j) a = nx h a := by
  unfold nx Heap.setPrev; split <;> simp [Function.comp_def]

theorem setNext_key (h : Heap) (i j a : Nat) :
    ((h.setNext i j) a).map Node.key = (h a).map Node.key := by
  unfold Heap.setNext; split <;> simp [Function.comp_def]
theorem setPrev_key (h : Heap) (i j a : Nat) :
    ((h.setPrev i j) a).map Node.key = (h a).map Node.key := by
  unfold Heap.setPrev; split <;> simp [Function.comp_def]

theorem setNext_isSome (h : Heap) (i j a : Nat) : ((h.setNext i j) a).isSome = (h a).isSome := by
  unfold Heap.setNext; split <;> simp
theorem setPrev_isSome (h : Heap) (i j a : Nat) : ((h.setPrev i j) a).isSome = (h a).isSome := by
  unfold Heap.setPrev; split <;> simp

theorem some_of_nx {h : Heap} {a b : Nat} (e : nx h a = some b) (j : Nat) :
    (h a).map (fun _ => j) = some j := by
  unfold nx at e; cases e' : h a <;> simp [e'] at e ⊢
theorem some_of_pv {h : Heap} {a b : Nat} (e : pv h a = some b) (j : Nat) :
    (h a).map (fun _ => j) = some j := by
  unfold pv at e; cases e' : h a <;> simp [e'] at e ⊢

/-- First link after `a`. -/
theorem linked_first {h : Heap} {a b : Nat} {xs : List Nat} (hl : Linked h a xs b) :
    nx h a = some ((xs ++ [b]).head (by simp)) := by
  cases xs <;> simp [Linked] at * <;> simp [hl]

/-- Last link before `b`. -/
theorem linked_last {h : Heap} {a b : Nat} {xs : List Nat} (hl : Linked h a xs b) :
    pv h b = some ((a :: xs).getLast (by simp)) := by
  induction xs generalizing a with
  | nil => simp [Linked] at *; exact hl.2
  | cons x xs ih =>
    simp only [Linked] at hl
    rw [ih hl.2]; simp

/-- Closing a segment: redirect the end of `xs` to `n`, keep the rest. -/
theorem linked_retarget {h h' : Heap} {a y b : Nat} {xs : List Nat}
    (hl : Linked h a xs y)
    (hnx : ∀ x ∈ (a :: xs).dropLast, nx h' x = nx h x)
    (hpv : ∀ x ∈ xs, pv h' x = pv h x)
    (h1 : nx h' ((a :: xs).getLast (by simp)) = some b)
    (h2 : pv h' b = some ((a :: xs).getLast (by simp))) : Linked h' a xs b := by
  induction xs generalizing a with
  | nil => simp [Linked] at *; exact ⟨h1, h2⟩
  | cons x xs ih =>
    simp only [Linked] at hl ⊢
    refine ⟨⟨?_, ?_⟩, ih hl.2 ?_ ?_ ?_ ?_⟩
    · rw [hnx a (by simp)]; exact hl.1.1
    · rw [hpv x (by simp)]; exact hl.1.2
    · intro z hz
      apply hnx
      simp [List.dropLast_cons_cons]
      right; exact hz
    · intro z hz; exact hpv z (List.mem_cons_of_mem _ hz)
    · simpa using h1
    · simpa using h2

/-- Re-opening a segment at its beginning. -/
theorem linked_resource {h h' : Heap} {a y b : Nat} {zs : List Nat}
    (hl : Linked h y zs b)
    (hnx : ∀ x ∈ zs, nx h' x = nx h x)
    (hpv : ∀ x ∈ (zs ++ [b]).tail, pv h' x = pv h x)
    (h1 : nx h' a = some ((zs ++ [b]).head (by simp)))
    (h2 : pv h' ((zs ++ [b]).head (by simp)) = some a) : Linked h' a zs b := by
  cases zs with
  | nil => simp [Linked] at *; exact ⟨h1, h2⟩
  | cons z zs =>
    simp only [Linked] at hl ⊢
    refine ⟨by simpa using ⟨h1, h2⟩, linked_congr h h' zs z b ?_ ?_ hl.2⟩
    · intro x hx; exact hnx x hx
    · intro x hx; exact hpv x (by simpa using hx)

/-- The invariant tying the linked list, `_map` and `__dict__` together. -/
structure Inv (s : OD V) : Prop where
  keys : s.map.map Prod.fst = s.dict.map Prod.fst
  nodup : (s.dict.map Prod.fst).Nodup
  ids : (s.map.map Prod.snd).Nodup
  zero : 0 ∉ s.map.map Prod.snd
  lt : ∀ i ∈ s.map.map Prod.snd, i < s.free
  pos : 0 < s.free
  linked : Linked s.heap 0 (s.map.map Prod.snd) 0
  nodes : ∀ p ∈ s.map, (s.heap p.2).map Node.key = some (some p.1)

theorem inv_new : Inv (OD.new : OD V) where
  keys := rfl
  nodup := by simp [OD.new]
  ids := by simp [OD.new]
  zero := by simp [OD.new]
  lt := by simp [OD.new]
  pos := by simp [OD.new]
  linked := by simp [OD.new, Linked, nx, pv]
  nodes := by simp [OD.new]

theorem inv_dict_old {s : OD V} (hs : Inv s) (k : Key) (v : V) (h : k ∈ s.dict.map Prod.fst) :
    Inv { s with dict := dset s.dict k v } where
  keys := by simp [keys_dset_old _ _ _ h, hs.keys]
  nodup := by simpa [keys_dset_old _ _ _ h] using hs.nodup
  ids := hs.ids
  zero := hs.zero
  lt := hs.lt
  pos := hs.pos
  linked := hs.linked
  nodes := hs.nodes

theorem last_eq {s : OD V} (hs : Inv s) :
    s.last = (0 :: s.map.map Prod.snd).getLast (by simp) := by
  have := linked_last hs.linked
  unfold pv at this
  unfold OD.last
  cases e : s.heap 0 with
  | none => simp [e] at this
  | some n => simp [e] at this; simpa using this

theorem inv_set {cls : Key → Bool} {s : OD V} (hs : Inv s) (k : Key) (v : V) (hc : cls k = false) :
    Inv (s.set cls k v) ∧ (s.set cls k v).dict = dset s.dict k v := by
  unfold OD.set
  by_cases h : k ∈ s.dict.map Prod.fst
  · have : (dget s.dict k).isNone = false := by
      cases e : dget s.dict k with
      | none => exact absurd h ((dget_none_iff _ _).1 e)
      | some x => rfl
    simp only [this, hc, Bool.false_and, Bool.false_eq_true, if_false]
    exact ⟨inv_dict_old hs k v h, trivial⟩
  · have hn : (dget s.dict k).isNone = true := by rw [(dget_none_iff _ _).2 h]; rfl
    have hm : k ∉ s.map.map Prod.fst := by rw [hs.keys]; exact h
    simp only [hn, hc, Bool.not_false, Bool.and_self, if_true]
    refine ⟨?_, trivial⟩
    have hlast := last_eq hs
    set ids := s.map.map Prod.snd with hids
    set last := s.last
    have hmem : last ∈ 0 :: ids := by rw [hlast]; exact List.getLast_mem _
    have hlt : last < s.free := by
      rcases List.mem_cons.1 hmem with e | e
      · rw [e]; exact hs.pos
      · exact hs.lt _ e
    have hnxl : nx s.heap last = some 0 := by
      have h0 := hs.linked
      rw [← hids] at h0
      rcases List.eq_nil_or_concat ids with e | ⟨l, x, e⟩
      · rw [e] at h0 hlast; simp [Linked] at h0 hlast; rw [hlast]; exact h0.1
      · have e : ids = l ++ [x] := by simpa using e
        rw [e, linked_split] at h0
        have : last = x := by rw [hlast]; simp [e]
        rw [this]; exact h0.2.1
    have hfree : s.free ∉ ids := fun e => Nat.lt_irrefl _ (hs.lt _ e)
    have hf0 : s.free ≠ 0 := Nat.pos_iff_ne_zero.1 hs.pos
    have hlf : last ≠ s.free := Nat.ne_of_lt hlt
    constructor
    · simp [dset_new _ _ _ h, dset_new _ _ _ hm, hs.keys]
    · simp only [dset_new _ _ _ h, List.map_append, List.map_cons, List.map_nil]
      rw [List.nodup_append]
      exact ⟨hs.nodup, by simp, by
        intro a ha b hb; simp only [List.mem_singleton] at hb; subst hb
        exact fun e => h (e ▸ ha)⟩
    · simp only [dset_new _ _ _ hm, List.map_append, List.map_cons, List.map_nil, ← hids]
      rw [List.nodup_append]
      exact ⟨hs.ids, by simp, by
        intro a ha b hb; simp only [List.mem_singleton] at hb; subst hb
        exact fun e => hfree (e ▸ ha)⟩
    · simp only [dset_new _ _ _ hm, List.map_append, List.map_cons, List.map_nil, ← hids,
        List.mem_append, List.mem_singleton, not_or]
      exact ⟨hs.zero, fun e => hf0 e.symm⟩
    · simp only [dset_new _ _ _ hm, List.map_append, List.map_cons, List.map_nil, ← hids,
        List.mem_append, List.mem_singleton]
      rintro i (hi | hi)
      · exact Nat.lt_succ_of_lt (hs.lt _ hi)
      · omega
    · exact Nat.succ_pos _
    · simp only [dset_new _ _ _ hm, List.map_append, List.map_cons, List.map_nil, ← hids]
      rw [linked_split]
      have hput_nx : ∀ x, x ≠ s.free → nx (s.heap.put s.free ⟨last, 0, some k⟩) x = nx s.heap x := by
        intro x hx; simp [nx, Heap.put, hx]
      have hput_pv : ∀ x, x ≠ s.free → pv (s.heap.put s.free ⟨last, 0, some k⟩) x = pv s.heap x := by
        intro x hx; simp [pv, Heap.put, hx]
      have hput_at : ∀ x, x ≠ s.free → (s.heap.put s.free ⟨last, 0, some k⟩) x = s.heap x := by
        intro x hx; simp [Heap.put, hx]
      have hl := hs.linked
      rw [← hids] at hl
      constructor
      · apply linked_retarget hl
        · intro x hx
          have hxm : x ∈ 0 :: ids := List.dropLast_subset _ hx
          have hxf : x ≠ s.free := by
            rcases List.mem_cons.1 hxm with e | e
            · rw [e]; exact hf0.symm
            · exact fun e' => hfree (e' ▸ e)
          have hxl : x ≠ last := by
            have hnd : (0 :: ids).Nodup := List.nodup_cons.2 ⟨hs.zero, hs.ids⟩
            rw [← List.dropLast_append_getLast (l := 0 :: ids) (by simp), List.nodup_append] at hnd
            rw [hlast]
            exact hnd.2.2 x hx _ (by simp)
          rw [nx_setPrev, nx_setNext, if_neg hxl, hput_nx x hxf]
        · intro x hx
          have hxf : x ≠ s.free := fun e' => hfree (e' ▸ hx)
          have hx0 : x ≠ 0 := fun e' => hs.zero (e' ▸ hx)
          rw [pv_setPrev, if_neg hx0, pv_setNext, hput_pv x hxf]
        · rw [← hlast, nx_setPrev, nx_setNext, if_pos rfl, hput_at _ hlf]
          exact some_of_nx hnxl _
        · rw [pv_setPrev, if_neg hf0, pv_setNext, ← hlast]
          simp [pv, Heap.put]
      · simp only [Linked]
        constructor
        · rw [nx_setPrev, nx_setNext, if_neg hlf.symm]; simp [nx, Heap.put]
        · rw [pv_setPrev, if_pos rfl]
          have h0 : pv s.heap 0 = some last := by rw [hlast]; exact linked_last hl
          have := some_of_pv h0 s.free
          unfold Heap.setNext
          split
          · rename_i e
            rw [Option.map_map, hput_at _ hf0.symm]; exact this
          · rw [hput_at _ hf0.symm]; exact this
    · intro p hp
      simp only [dset_new _ _ _ hm, List.mem_append, List.mem_singleton] at hp
      rw [setPrev_key, setNext_key]
      rcases hp with hp | hp
      · have : p.2 ≠ s.free := fun e => hfree (e ▸ List.mem_map_of_mem hp)
        simp only [Heap.put, this, if_false]
        exact hs.nodes p hp
      · subst hp; simp [Heap.put]

theorem dget_keys_eq {β : Type} (l : List (Key × α)) (m : List (Key × β)) (h : l.map Prod.fst = m.map Prod.fst)
    (k : Key) : (dget l k).isSome = (dget m k).isSome := by
  have h1 := dget_none_iff l k
  have h2 := dget_none_iff m k
  rw [h] at h1
  cases e1 : dget l k <;> cases e2 : dget m k <;> simp_all

theorem keys_ddel (l : List (Key × α)) (k : Key) : (ddel l k).map Prod.fst = (l.map Prod.fst).erase k := by
  induction l with
  | nil => rfl
  | cons p r ih =>
    obtain ⟨a, b⟩ := p
    by_cases e : a = k
    · simp [ddel, e]
    · simp [ddel, e, ih]

theorem inv_del {s : OD V} (hs : Inv s) (k : Key) :
    (k ∉ s.dict.map Prod.fst → s.del k = (s, some .attributeError)) ∧
    (k ∈ s.dict.map Prod.fst → Inv (s.del k).1 ∧ (s.del k).1.dict = ddel s.dict k ∧ (s.del k).2 = none) := by
  constructor
  · intro h; unfold OD.del; rw [(dget_none_iff _ _).2 h]
  · intro h
    have hsome : (dget s.dict k).isSome := by
      cases e : dget s.dict k with
      | none => exact absurd h ((dget_none_iff _ _).1 e)
      | some x => rfl
    obtain ⟨v, hv⟩ := Option.isSome_iff_exists.1 hsome
    have hsome' : (dget s.map k).isSome := by rw [dget_keys_eq _ _ hs.keys]; exact hsome
    obtain ⟨i, hi⟩ := Option.isSome_iff_exists.1 hsome'
    obtain ⟨xs, zs, hm, -, hdel⟩ := dget_split _ _ _ hi
    have hl := hs.linked
    have hids := hs.ids
    have hzero := hs.zero
    rw [hm] at hl hids hzero
    simp only [List.map_append, List.map_cons] at hl hids hzero
    set X := xs.map Prod.snd
    set Z := zs.map Prod.snd
    rw [linked_split] at hl
    have hpi := linked_last hl.1
    have hni := linked_first hl.2
    obtain ⟨n, hn⟩ : ∃ n, s.heap i = some n := by
      have := hs.nodes (k, i) (by rw [hm]; simp)
      cases e : s.heap i with
      | none => simp [e] at this
      | some n => exact ⟨n, rfl⟩
    have hp : n.prev = (0 :: X).getLast (by simp) := by simpa [pv, hn] using hpi
    have hq : n.next = (Z ++ [0]).head (by simp) := by simpa [nx, hn] using hni
    have hX : i ∉ X ∧ X.Nodup ∧ i ∉ Z ∧ Z.Nodup ∧ ∀ a ∈ X, ∀ b ∈ Z, a ≠ b := by
      rw [List.nodup_append] at hids
      obtain ⟨h1, h2, h3⟩ := hids
      rw [List.nodup_cons] at h2
      refine ⟨fun e => h3 i e i (by simp) rfl, h1, h2.1, h2.2, fun a ha b hb => h3 a ha b (by simp [hb])⟩
    simp only [List.mem_append, List.mem_cons, not_or] at hzero
    have hpm : n.prev ∈ 0 :: X := by rw [hp]; exact List.getLast_mem _
    have hqm : n.next ∈ Z ++ [0] := by rw [hq]; exact List.head_mem _
    have hdict : s.del k = ({ s with dict := ddel s.dict k, map := ddel s.map k, heap := (s.heap.setNext n.prev n.next).setPrev n.next n.prev }, none) := by
      unfold OD.del; simp [hv, hi, hn]
    rw [hdict]
    refine ⟨?_, rfl, rfl⟩
    have hnxp : (s.heap n.prev).isSome := by
      rw [hp]
      rcases List.eq_nil_or_concat X with e | ⟨l, x, e⟩
      · simp only [e, List.getLast_singleton]
        have h0 := linked_first hl.1
        unfold nx at h0
        cases e' : s.heap 0 <;> simp [e'] at h0 ⊢
      · have e : X = l ++ [x] := by simpa using e
        have h0 := hl.1
        rw [e, linked_split] at h0
        have h1 := h0.2.1
        unfold nx at h1
        simp only [e, ← List.cons_append, List.getLast_append_singleton]
        cases e' : s.heap x <;> simp [e'] at h1 ⊢
    have hpvq : (s.heap n.next).isSome := by
      rw [hq]
      cases e : Z with
      | nil =>
        simp only [List.nil_append, List.head_cons]
        have h0 := linked_first hl.1
        unfold nx at h0
        cases e' : s.heap 0 <;> simp [e'] at h0 ⊢
      | cons z Z' =>
        have h0 := hl.2
        rw [e] at h0
        have h1 := h0.1.2
        unfold pv at h1
        simp only [List.cons_append, List.head_cons]
        cases e' : s.heap z <;> simp [e'] at h1 ⊢
    obtain ⟨np, hnp⟩ := Option.isSome_iff_exists.1 hnxp
    obtain ⟨nq, hnq⟩ := Option.isSome_iff_exists.1 hpvq
    -- facts about the new heap
    set h' := (s.heap.setNext n.prev n.next).setPrev n.next n.prev with hh'
    have fnx : ∀ x, x ≠ n.prev → nx h' x = nx s.heap x := by
      intro x hx; rw [hh', nx_setPrev, nx_setNext, if_neg hx]
    have fpv : ∀ x, x ≠ n.next → pv h' x = pv s.heap x := by
      intro x hx; rw [hh', pv_setPrev, if_neg hx, pv_setNext]
    have fnxp : nx h' n.prev = some n.next := by
      rw [hh', nx_setPrev, nx_setNext, if_pos rfl, hnp]; rfl
    have fpvq : pv h' n.next = some n.prev := by
      rw [hh', pv_setPrev, if_pos rfl]
      have : ((s.heap.setNext n.prev n.next) n.next).isSome := by rw [setNext_isSome]; exact hpvq
      obtain ⟨y, hy⟩ := Option.isSome_iff_exists.1 this
      rw [hy]; rfl
    constructor
    · show (ddel s.map k).map Prod.fst = (ddel s.dict k).map Prod.fst
      rw [keys_ddel, keys_ddel, hs.keys]
    · show ((ddel s.dict k).map Prod.fst).Nodup
      rw [keys_ddel]; exact hs.nodup.erase _
    · show ((ddel s.map k).map Prod.snd).Nodup
      rw [hdel, List.map_append, List.nodup_append]
      exact ⟨hX.2.1, hX.2.2.2.1, hX.2.2.2.2⟩
    · show 0 ∉ (ddel s.map k).map Prod.snd
      rw [hdel, List.map_append, List.mem_append, not_or]
      exact ⟨hzero.1, hzero.2.2⟩
    · show ∀ j ∈ (ddel s.map k).map Prod.snd, j < s.free
      intro j hj
      apply hs.lt
      rw [hdel, List.map_append] at hj
      rw [hm]; simp only [List.map_append, List.map_cons, List.mem_append, List.mem_cons]
      rcases List.mem_append.1 hj with e | e <;> tauto
    · exact hs.pos
    · show Linked h' 0 ((ddel s.map k).map Prod.snd) 0
      rw [hdel, List.map_append]
      change Linked h' 0 (X ++ Z) 0
      have hndX : (0 :: X).Nodup := List.nodup_cons.2 ⟨hzero.1, hX.2.1⟩
      have hlastX : ∀ x ∈ (0 :: X).dropLast, x ≠ n.prev := by
        intro x hx
        rw [← List.dropLast_append_getLast (l := 0 :: X) (by simp), List.nodup_append] at hndX
        rw [hp]; exact hndX.2.2 x hx _ (by simp)
      cases e : Z with
      | nil =>
        have hq0 : n.next = 0 := by rw [hq]; simp [e]
        rw [List.append_nil]
        apply linked_retarget hl.1
        · intro x hx; exact fnx x (hlastX x hx)
        · intro x hx; exact fpv x (by rw [hq0]; exact fun e' => hzero.1 (e' ▸ hx))
        · rw [← hp, fnxp, hq0]
        · rw [← hp, ← fpvq, hq0]
      | cons z Z' =>
        have hqz : n.next = z := by rw [hq]; simp [e]
        rw [e] at hX
        have hz0 : z ≠ 0 := fun e' => hzero.2.2 (by rw [e, e']; simp)
        rw [linked_split]
        constructor
        · apply linked_retarget hl.1
          · intro x hx; exact fnx x (hlastX x hx)
          · intro x hx; exact fpv x (by rw [hqz]; exact hX.2.2.2.2 x hx z (by simp))
          · rw [← hp, fnxp, hqz]
          · rw [← hp, ← fpvq, hqz]
        · have h2 := hl.2
          rw [e] at h2
          refine linked_congr s.heap h' Z' z 0 ?_ ?_ h2.2
          · intro x hx
            apply fnx
            rcases List.mem_cons.1 hpm with e' | e'
            · rw [e']; intro e''; exact hzero.2.2 (by rw [e, ← e'']; exact hx)
            · exact fun e'' => hX.2.2.2.2 _ e' x hx e''.symm
          · intro x hx
            apply fpv
            rw [hqz]
            have hnd := hX.2.2.2.1
            rw [List.nodup_cons] at hnd
            rcases List.mem_append.1 hx with e' | e'
            · exact fun e'' => hnd.1 (e'' ▸ e')
            · simp at e'; rw [e']; exact hz0.symm
    · show ∀ p ∈ ddel s.map k, (h' p.2).map Node.key = some (some p.1)
      intro p hp'
      rw [hh', setPrev_key, setNext_key]
      apply hs.nodes
      rw [hm]; rw [hdel] at hp'
      simp only [List.mem_append, List.mem_cons] at hp' ⊢
      tauto

theorem inv_clear {s : OD V} (hs : Inv s) : Inv s.clear where
  keys := rfl
  nodup := by simp [OD.clear]
  ids := by simp [OD.clear]
  zero := by simp [OD.clear]
  lt := by simp [OD.clear]
  pos := hs.pos
  linked := by simp [OD.clear, Linked, nx, pv]
  nodes := by simp [OD.clear]

theorem inv_updateStep {cls : Key → Bool} {upd : V → V → Option V} {s : OD V} (hs : Inv s)
    (kv : Key × V) (hc : isPrivate kv.1 = false → cls kv.1 = false) :
    Inv (s.updateStep cls upd kv) ∧
      (s.updateStep cls upd kv).dict = Spec.updateStep upd s.dict kv := by
  unfold OD.updateStep Spec.updateStep
  by_cases hp : isPrivate kv.1 = true
  · simp only [hp, if_true]; exact ⟨hs, trivial⟩
  · simp only [hp, Bool.false_eq_true, if_false]
    have hc := hc (by simpa using hp)
    rw [spec_get, spec_set _ _ _ hs.nodup]
    cases e : dget s.dict kv.1 with
    | none => exact inv_set hs kv.1 kv.2 hc
    | some x =>
      have hmem : kv.1 ∈ s.dict.map Prod.fst := by
        by_contra hn
        rw [(dget_none_iff _ _).2 hn] at e; cases e
      cases e' : upd x kv.2 with
      | none => simpa [e'] using inv_set hs kv.1 kv.2 hc
      | some x' => simpa [e'] using inv_dict_old hs kv.1 x' hmem

theorem inv_update {cls : Key → Bool} {upd : V → V → Option V} {s : OD V} (hs : Inv s)
    (o : List (Key × V)) (hc : ∀ kv ∈ o, isPrivate kv.1 = false → cls kv.1 = false) :
    Inv (s.update cls upd o) ∧
      (s.update cls upd o).dict = o.foldl (Spec.updateStep upd) s.dict := by
  unfold OD.update
  induction o generalizing s with
  | nil => exact ⟨hs, rfl⟩
  | cons kv o ih =>
    have h1 := inv_updateStep (cls := cls) (upd := upd) hs kv (hc kv (by simp))
    have h2 := ih h1.1 (fun kv h => hc kv (by simp [h]))
    simp only [List.foldl_cons]
    rw [← h1.2]
    exact h2

/-! #### walking the list -/

theorem walk_linked (h : Heap) (ks : List (Key × Nat)) (a : Nat) (fuel : Nat)
    (hl : Linked h a (ks.map Prod.snd) 0) (h0 : 0 ∉ ks.map Prod.snd)
    (hn : ∀ p ∈ ks, (h p.2).map Node.key = some (some p.1)) (hf : ks.length < fuel) :
    ∃ b, nx h a = some b ∧ walk h fuel b = some (ks.map Prod.fst) := by
  induction ks generalizing a fuel with
  | nil =>
    refine ⟨0, hl.1, ?_⟩
    cases fuel with
    | zero => simp at hf
    | succ f => simp [walk]
  | cons p ks ih =>
    cases fuel with
    | zero => simp at hf
    | succ f =>
      simp only [List.map_cons, Linked] at hl
      simp only [List.map_cons, List.mem_cons, not_or] at h0
      refine ⟨p.2, hl.1.1, ?_⟩
      have hp := hn p (by simp)
      obtain ⟨b, hb, hw⟩ := ih p.2 f hl.2 h0.2 (fun q hq => hn q (by simp [hq])) (by simpa using hf)
      have hne : ¬ p.2 = 0 := fun e => h0.1 e.symm
      unfold walk
      rw [if_neg hne]
      cases e : h p.2 with
      | none => simp [e] at hp
      | some n =>
        simp [e] at hp
        simp only [hp]
        have : n.next = b := by simpa [nx, e] using hb
        rw [this, hw]; rfl

theorem length_le_of_nodup_lt (l : List Nat) (n : Nat) (hn : l.Nodup) (h : ∀ i ∈ l, i < n) :
    l.length ≤ n := by
  have : l.Subperm (List.range n) := List.subperm_of_subset hn (fun i hi => List.mem_range.2 (h i hi))
  simpa using List.Subperm.length_le this

theorem keys_eq {s : OD V} (hs : Inv s) : s.keys = some (s.dict.map Prod.fst) := by
  have hlen : s.map.length < s.free + 1 := by
    have := length_le_of_nodup_lt _ _ hs.ids hs.lt
    simp at this; omega
  obtain ⟨b, hb, hw⟩ := walk_linked s.heap s.map 0 _ hs.linked hs.zero hs.nodes hlen
  unfold OD.keys
  unfold nx at hb
  cases e : s.heap 0 with
  | none => simp [e] at hb
  | some r =>
    simp [e] at hb
    simp only [hb, hw, hs.keys]

theorem dget_append_right {l : List (Key × α)} {k : Key} (r : List (Key × α)) (h : k ∉ l.map Prod.fst) :
    dget (l ++ r) k = dget r k := by
  induction l with
  | nil => rfl
  | cons p l ih =>
    obtain ⟨a, b⟩ := p
    simp only [List.map_cons, List.mem_cons, not_or] at h
    have : ¬ a = k := fun e => h.1 e.symm
    simp [dget, this, ih h.2]

theorem dget_of_mem {l : List (Key × α)} (hn : (l.map Prod.fst).Nodup) {p : Key × α} (hp : p ∈ l) :
    dget l p.1 = some p.2 := by
  induction l with
  | nil => simp at hp
  | cons q l ih =>
    obtain ⟨a, b⟩ := q
    simp only [List.map_cons, List.nodup_cons] at hn
    rcases List.mem_cons.1 hp with e | e
    · subst e; simp [dget]
    · have : ¬ a = p.1 := fun e' => hn.1 (e' ▸ List.mem_map_of_mem e)
      simp [dget, this, ih hn.2 e]

theorem mapM_map_some {β γ : Type} (l : List α) (f : α → β) (g : β → Option γ) (r : α → γ)
    (h : ∀ a ∈ l, g (f a) = some (r a)) : (l.map f).mapM g = some (l.map r) := by
  induction l with
  | nil => rfl
  | cons a l ih =>
    simp only [List.map_cons, List.mapM_cons, h a (by simp), ih (fun b hb => h b (by simp [hb]))]
    rfl

theorem items_eq {s : OD V} (hs : Inv s) : s.items = some s.dict := by
  unfold OD.items
  rw [keys_eq hs]
  simp only [Option.bind_some]
  have := mapM_map_some s.dict Prod.fst (fun k => (s.attr k).map fun v => (k, v)) id (by
    intro p hp; simp [OD.attr, dget_of_mem hs.nodup hp])
  simpa using this

theorem values_eq {s : OD V} (hs : Inv s) : s.values = some (s.dict.map Prod.snd) := by
  unfold OD.values
  rw [keys_eq hs]
  simp only [Option.bind_some]
  exact mapM_map_some s.dict Prod.fst s.attr Prod.snd (by
    intro p hp; simp [OD.attr, dget_of_mem hs.nodup hp])

end Verif.Ordered
