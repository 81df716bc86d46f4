import Verif.Ordered.Lemmas
/-!
C08, C09: the ordered dictionary behaves like an ordered association list under every
history of operations; `append` overwrites silently.
-/

namespace Verif.Ordered
open Verif.Core (Key Err isPrivate norm)

variable {V : Type}

namespace Spec

/-- Abstract effect of one operation: new dictionary and exception. -/
def step (upd : V → V → Option V) (l : Dict V) : Op V → Dict V × Option Err
  | .set k v => (set l k v, none)
  | .del k => if has l k then (del l k, none) else (l, some .attributeError)
  | .update o => (o.foldl (updateStep upd) l, none)
  | .clear => ([], none)

/-- Abstract effect of a history. -/
def run (upd : V → V → Option V) : Dict V → List (Op V) → Dict V × List (Option Err)
  | l, [] => (l, [])
  | l, op :: ops => ((run upd (step upd l op).1 ops).1, (step upd l op).2 :: (run upd (step upd l op).1 ops).2)

end Spec

/-- The names an operation assigns are not names of attributes of the class. -/
def Op.Fresh (cls : Key → Bool) : Op V → Prop
  | .set k _ => cls k = false
  | .del _ => True
  | .update o => ∀ kv ∈ o, isPrivate kv.1 = false → cls kv.1 = false
  | .clear => True

theorem step_refines {cls : Key → Bool} {upd : V → V → Option V} {s : OD V} (hs : Inv s)
    (op : Op V) (hf : op.Fresh cls) :
    Inv (s.step cls upd op).1 ∧ (s.step cls upd op).1.dict = (Spec.step upd s.dict op).1 ∧
      (s.step cls upd op).2 = (Spec.step upd s.dict op).2 := by
  cases op with
  | set k v =>
    have := inv_set (cls := cls) hs k v hf
    simp only [OD.step, Spec.step]
    rw [spec_set _ _ _ hs.nodup]
    exact ⟨this.1, this.2, trivial⟩
  | del k =>
    have := inv_del hs k
    simp only [OD.step, Spec.step]
    by_cases h : k ∈ s.dict.map Prod.fst
    · rw [if_pos ((spec_has _ _).2 h), spec_del _ _ hs.nodup]
      exact this.2 h
    · rw [if_neg (fun e => h ((spec_has _ _).1 e)), this.1 h]
      exact ⟨hs, rfl, rfl⟩
  | update o =>
    have := inv_update (cls := cls) (upd := upd) hs o hf
    exact ⟨this.1, this.2, rfl⟩
  | clear => exact ⟨inv_clear hs, rfl, rfl⟩

theorem run_refines {cls : Key → Bool} {upd : V → V → Option V} (ops : List (Op V)) {s : OD V}
    (hs : Inv s) (hf : ∀ op ∈ ops, op.Fresh cls) :
    Inv (s.run cls upd ops).1 ∧ (s.run cls upd ops).1.dict = (Spec.run upd s.dict ops).1 ∧
      (s.run cls upd ops).2 = (Spec.run upd s.dict ops).2 := by
  induction ops generalizing s with
  | nil => exact ⟨hs, rfl, rfl⟩
  | cons op ops ih =>
    obtain ⟨h1, h2, h3⟩ := step_refines (upd := upd) hs op (hf op (by simp))
    obtain ⟨g1, g2, g3⟩ := ih h1 (fun op h => hf op (by simp [h]))
    simp only [OD.run, Spec.run]
    rw [← h2, ← h3]
    exact ⟨g1, g2, by rw [g3]⟩

/-- **C08.** After any history of sets, deletes, updates and clears on names the class does
not define itself, the object is the abstract ordered dictionary: `items()`, `keys()`,
`values()`, `len` and access by name all agree with it, and exactly the same operations
raised. -/
theorem C08_refines (cls : Key → Bool) (upd : V → V → Option V) (ops : List (Op V))
    (hf : ∀ op ∈ ops, op.Fresh cls) :
    let s := (OD.run cls upd OD.new ops).1
    let l := (Spec.run upd [] ops).1
    s.items = some l ∧ s.keys = some (l.map Prod.fst) ∧ s.values = some (l.map Prod.snd) ∧
      s.len = l.length ∧ (∀ k, s.attr k = Spec.get l k) ∧
      (OD.run cls upd OD.new ops).2 = (Spec.run upd [] ops).2 := by
  obtain ⟨h1, h2, h3⟩ := run_refines (cls := cls) (upd := upd) ops inv_new hf
  have e : (OD.new : OD V).dict = [] := rfl
  rw [e] at h2 h3
  refine ⟨?_, ?_, ?_, ?_, ?_, h3⟩
  · rw [items_eq h1, h2]
  · rw [keys_eq h1, h2]
  · rw [values_eq h1, h2]
  · unfold OD.len; rw [h2]
  · intro k; rw [spec_get, ← h2]; rfl

example : ∀ op ∈ ([.set "b".toList 1, .set "a".toList 2, .del "b".toList, .update [("b".toList, 3)], .clear] : List (Op Nat)),
    op.Fresh (fun k => k = "keys".toList) := by
  simp [Op.Fresh]

/-- What the abstract dictionary does, read off a concrete history (delete and re-insert
moves a key to the end; overwriting keeps its place). -/
example : (OD.run (fun k => k = "keys".toList) (fun _ _ => none) OD.new
    [.set ['b'] 1, .set ['a'] 2, .set ['c'] 5, .set ['a'] 7, .del ['b'], .set ['b'] 3, .del ['z']]).1.items
    = some [(['a'], 7), (['c'], 5), (['b'], 3)] := by rfl

/-- **C08.** Keys never repeat. -/
theorem C08_keys_nodup (cls : Key → Bool) (upd : V → V → Option V) (ops : List (Op V))
    (hf : ∀ op ∈ ops, op.Fresh cls) :
    ∃ ks, (OD.run cls upd OD.new ops).1.keys = some ks ∧ ks.Nodup := by
  obtain ⟨h1, -, -⟩ := run_refines (cls := cls) (upd := upd) ops inv_new hf
  exact ⟨_, keys_eq h1, h1.nodup⟩

/-- **C08.** Order of first insertion since the last deletion, stated without the abstract
dictionary: after any history, assigning a name that is present changes nothing in
`keys()`, assigning a new name puts it last, and deleting a name closes the gap. -/
theorem C08_key_order (cls : Key → Bool) (upd : V → V → Option V) (ops : List (Op V))
    (hf : ∀ op ∈ ops, op.Fresh cls) (k : Key) (v : V) (hk : cls k = false) :
    let s := (OD.run cls upd OD.new ops).1
    ∃ ks, s.keys = some ks ∧
      (s.set cls k v).keys = some (if k ∈ ks then ks else ks ++ [k]) ∧
      (k ∈ ks → (s.del k).1.keys = some (ks.erase k) ∧ (s.del k).2 = none) ∧
      (k ∉ ks → s.del k = (s, some .attributeError)) ∧
      (s.set cls k v).attr k = some v ∧
      (∀ q, q ≠ k → (s.set cls k v).attr q = s.attr q ∧ (s.del k).1.attr q = s.attr q) ∧
      (s.del k).1.attr k = none := by
  obtain ⟨h1, -, -⟩ := run_refines (cls := cls) (upd := upd) ops inv_new hf
  set s := (OD.run cls upd OD.new ops).1
  obtain ⟨hset, hsd⟩ := inv_set (cls := cls) h1 k v hk
  have hdel := inv_del h1 k
  have hget : ∀ (l : List (Key × V)) q, q ≠ k → dget (dset l k v) q = dget l q := by
    intro l q hq
    induction l with
    | nil => simp [dset, dget, hq.symm]
    | cons p r ih =>
      obtain ⟨a, b⟩ := p
      by_cases e : a = k
      · subst e; simp [dset, dget, hq.symm]
      · simp [dset, e, dget, ih]
  have hgetd : ∀ (l : List (Key × V)) q, q ≠ k → dget (ddel l k) q = dget l q := by
    intro l q hq
    induction l with
    | nil => rfl
    | cons p r ih =>
      obtain ⟨a, b⟩ := p
      by_cases e : a = k
      · subst e; simp [ddel, dget, hq.symm]
      · simp [ddel, e, dget, ih]
  have hself : ∀ (l : List (Key × V)), dget (dset l k v) k = some v := by
    intro l
    induction l with
    | nil => simp [dset, dget]
    | cons p r ih =>
      obtain ⟨a, b⟩ := p
      by_cases e : a = k
      · simp [dset, dget, e]
      · simp [dset, e, dget, ih]
  refine ⟨_, keys_eq h1, ?_, ?_, ?_, ?_, ?_, ?_⟩
  · rw [keys_eq hset, hsd]
    by_cases h : k ∈ s.dict.map Prod.fst
    · rw [if_pos h, keys_dset_old _ _ _ h]
    · rw [if_neg h, dset_new _ _ _ h]; simp
  · intro h
    obtain ⟨g1, g2, g3⟩ := hdel.2 h
    rw [keys_eq g1, g2, keys_ddel]; exact ⟨rfl, g3⟩
  · exact hdel.1
  · unfold OD.attr; rw [hsd]; exact hself _
  · intro q hq
    unfold OD.attr
    rw [hsd, hget _ _ hq]
    refine ⟨rfl, ?_⟩
    by_cases h : k ∈ s.dict.map Prod.fst
    · rw [(hdel.2 h).2.1, hgetd _ _ hq]
    · rw [hdel.1 h]
  · unfold OD.attr
    by_cases h : k ∈ s.dict.map Prod.fst
    · rw [(hdel.2 h).2.1, dget_none_iff, keys_ddel]
      exact List.Nodup.not_mem_erase h1.nodup
    · rw [hdel.1 h]; exact (dget_none_iff _ _).2 h

/-- **C08, integer access.** `d[i]` is the value of the i-th key. -/
theorem C08_index (cls : Key → Bool) (upd : V → V → Option V) (ops : List (Op V))
    (hf : ∀ op ∈ ops, op.Fresh cls) (i : Nat) :
    (OD.run cls upd OD.new ops).1.getIndex i = ((Spec.run upd [] ops).1[i]?).map Prod.snd := by
  obtain ⟨h1, h2, -⟩ := run_refines (cls := cls) (upd := upd) ops inv_new hf
  have e : (OD.new : OD V).dict = [] := rfl
  rw [e] at h2
  unfold OD.getIndex
  rw [keys_eq h1, ← h2]
  simp only [Option.bind_some, List.getElem?_map]
  cases e : (OD.run cls upd OD.new ops).1.dict[i]? with
  | none => rfl
  | some p =>
    have := dget_of_mem h1.nodup (List.mem_of_getElem? e)
    simpa [OD.attr] using this

/-- **C54 is false of the code**: names the class already has (for example `"items"`).  The attribute is
stored and counted by `len`, but `keys()` never shows it, and deleting it raises KeyError
after having removed it. -/
theorem C54_class_names_counterexample :
    ∃ (cls : Key → Bool) (k : Key), ∀ (s : OD V) (v : V), Inv s → s.attr k = none →
      (s.set cls k v).attr k = some v ∧ (s.set cls k v).len = s.len + 1 ∧
      (s.set cls k v).keys = s.keys ∧
      ((s.set cls k v).del k).2 = some .keyError ∧ ((s.set cls k v).del k).1.attr k = none := by
  refine ⟨fun k => k = "items".toList, "items".toList, ?_⟩
  intro s v hs hk
  have hk' := (dget_none_iff _ _).1 hk
  have e : s.set (fun k => k = "items".toList) "items".toList v
      = { s with dict := s.dict ++ [("items".toList, v)] } := by
    unfold OD.set
    rw [dset_new _ _ _ hk']
    simp
  have hg : dget (s.dict ++ [("items".toList, v)]) "items".toList = some v := by
    rw [dget_append_right _ hk']; simp [dget]
  have hm : dget s.map "items".toList = none := by
    rw [dget_none_iff, hs.keys]; exact hk'
  rw [e]
  have hd : ddel (s.dict ++ [("items".toList, v)]) "items".toList = s.dict := by
    obtain ⟨xs, zs, h1, h2, h3⟩ := dget_split _ _ _ hg
    clear e hg hm
    generalize s.dict = d at *
    clear h1 h2 h3
    induction d with
    | nil => simp [ddel]
    | cons p r ih =>
      obtain ⟨a, b⟩ := p
      simp only [List.map_cons, List.mem_cons, not_or] at hk'
      have : ¬ a = "items".toList := fun e => hk'.1 e.symm
      rw [List.cons_append, ddel, if_neg this, ih hk'.2]
  refine ⟨hg, by simp [OD.len], rfl, ?_, ?_⟩
  · unfold OD.del; simp only [hg, hm]
  · unfold OD.del; simp only [hg, hm]
    unfold OD.attr
    show dget (ddel (s.dict ++ [("items".toList, v)]) "items".toList) "items".toList = none
    rw [hd]; exact hk

example : Inv (OD.new : OD Nat) ∧ (OD.new : OD Nat).attr "items".toList = none := ⟨inv_new, rfl⟩

/-- **C09 is false of the code.**  Appending a second element whose normalised tag is
already present raises nothing and replaces the first one. -/
theorem C09_append_overwrites (cls : Key → Bool) (s : OD V) (hs : Inv s) (tag : Key) (v : V)
    (hst : inStorage (norm tag) = false) (hc : cls (norm tag) = false) (hp : norm tag ∈ s.dict.map Prod.fst) :
    ∃ s', s.append cls tag v = .ok s' ∧ s'.attr (norm tag) = some v ∧ s'.keys = s.keys := by
  refine ⟨s.set cls (norm tag) v, ?_, ?_, ?_⟩
  · unfold OD.append; simp [hst]
  · obtain ⟨h1, h2⟩ := inv_set (cls := cls) hs (norm tag) v hc
    unfold OD.attr; rw [h2]
    obtain ⟨xs, zs, e1, e2, -⟩ : ∃ xs zs, s.dict = xs ++ zs ∧ norm tag ∉ xs.map Prod.fst ∧ (∃ y r, zs = (norm tag, y) :: r) := by
      cases e : dget s.dict (norm tag) with
      | none => exact absurd hp ((dget_none_iff _ _).1 e)
      | some y =>
        obtain ⟨xs, zs, e1, e2, -⟩ := dget_split _ _ _ e
        exact ⟨xs, _, e1, e2, y, zs, rfl⟩
    generalize s.dict = d at *
    clear e1 e2 xs zs h1 h2 hp
    induction d with
    | nil => simp [dset, dget]
    | cons p r ih =>
      obtain ⟨a, b⟩ := p
      by_cases e : a = norm tag
      · simp [dset, dget, e]
      · simp [dset, e, dget, ih]
  · obtain ⟨h1, h2⟩ := inv_set (cls := cls) hs (norm tag) v hc
    rw [keys_eq h1, keys_eq hs, h2, keys_dset_old _ _ _ hp]

/-- **C09 is false of the code**, as a history: two segments tagged "Climb" and "climb";
one is lost. -/
theorem C09_counterexample :
    (OD.appends (fun _ => false) (OD.new : OD Nat) [("Climb".toList, 1), ("climb".toList, 2)]).items
      = some [("climb".toList, 2)] := by rfl

/-- **C09, the part that holds.**  If the normalised tags are pairwise different and none of
them is reserved, every append succeeds and the elements are listed in order, none lost.
(Missing: the KeyError on a repeated tag, which the code never raises.) -/
theorem C09_append_history_partial (cls : Key → Bool) (l : List (Key × V))
    (hn : (l.map fun p => norm p.1).Nodup)
    (hr : ∀ p ∈ l, inStorage (norm p.1) = false ∧ cls (norm p.1) = false) :
    (OD.appends cls OD.new l).items = some (l.map fun p => (norm p.1, p.2)) := by
  suffices h : ∀ (s : OD V), Inv s → (s.dict.map Prod.fst ++ l.map fun p => norm p.1).Nodup →
      Inv (s.appends cls l) ∧ (s.appends cls l).dict = s.dict ++ l.map fun p => (norm p.1, p.2) by
    obtain ⟨h1, h2⟩ := h OD.new inv_new (by simpa [OD.new] using hn)
    rw [items_eq h1, h2]; rfl
  clear hn
  induction l with
  | nil => intro s hs _; exact ⟨hs, by simp [OD.appends]⟩
  | cons p l ih =>
    intro s hs hnd
    obtain ⟨k, v⟩ := p
    have hrk := hr (k, v) (by simp)
    have hnot : norm k ∉ s.dict.map Prod.fst := by
      intro hmem
      rw [List.nodup_append] at hnd
      exact hnd.2.2 _ hmem (norm k) (by simp) rfl
    obtain ⟨h1, h2⟩ := inv_set (cls := cls) hs (norm k) v hrk.2
    have e : s.append cls k v = .ok (s.set cls (norm k) v) := by unfold OD.append; simp [hrk.1]
    have := ih (fun p hp => hr p (by simp [hp])) _ h1 (by
      rw [h2, dset_new _ _ _ hnot]; simpa using hnd)
    simp only [OD.appends, e]
    refine ⟨this.1, ?_⟩
    rw [this.2, h2, dset_new _ _ _ hnot]; simp

example : (([("Climb 1".toList, 1), ("cruise".toList, 2)] : List (Key × Nat)).map fun p => norm p.1).Nodup ∧
    ∀ p ∈ ([("Climb 1".toList, 1), ("cruise".toList, 2)] : List (Key × Nat)),
      inStorage (norm p.1) = false ∧ (fun k : Key => decide (k = "keys".toList)) (norm p.1) = false := by
  constructor
  · decide
  · intro p hp; simp only [List.mem_cons, List.not_mem_nil, or_false] at hp
    rcases hp with rfl | rfl <;> decide

end Verif.Ordered
