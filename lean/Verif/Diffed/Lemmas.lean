import Verif.Core.UpdateProps
import Verif.Core.AppendProps
import Verif.Diffed.Model
/-! Helper lemmas for the configuration properties. -/

namespace Verif.Core
variable {R : Type}

/-- A reordering of dictionary entries. -/
def IsReorder (ord : Items R → Items R) : Prop := ∀ s, (ord s).toList.Perm s.toList

theorem toList_app (a b : Items R) : (a.app b).toList = a.toList ++ b.toList := by
  match a with
  | .nil => rfl
  | .cons k v rest => simp [Items.app, Items.toList, toList_app rest b]

theorem find?_iff_mem (a : Items R) (h : a.keys.Nodup) (k : Key) (v : Val R) :
    a.find? k = some v ↔ (k, v) ∈ a.toList := by
  match a with
  | .nil => simp [Items.toList]
  | .cons k' v' rest =>
    simp only [Items.keys, List.nodup_cons] at h
    have ih := find?_iff_mem rest h.2 k v
    by_cases hk : k' = k
    · subst hk
      simp only [Items.find?, if_true, Option.some.injEq, Items.toList, List.mem_cons,
        Prod.mk.injEq, true_and]
      constructor
      · intro h; exact Or.inl h.symm
      · rintro (h1 | h1)
        · exact h1.symm
        · exfalso; apply h.1
          rw [keys_eq_toList]
          exact List.mem_map.2 ⟨_, h1, rfl⟩
    · simp only [Items.find?, hk, if_false, ih, Items.toList, List.mem_cons, Prod.mk.injEq,
        Ne.symm hk, false_and, false_or]

theorem keys_perm {a b : Items R} (h : a.toList.Perm b.toList) : a.keys.Perm b.keys := by
  rw [keys_eq_toList, keys_eq_toList]; exact h.map _

theorem find?_perm {a b : Items R} (h : a.toList.Perm b.toList) (hb : b.keys.Nodup) (k : Key) :
    a.find? k = b.find? k := by
  have ha : a.keys.Nodup := (keys_perm h).nodup_iff.2 hb
  cases hf : b.find? k with
  | none =>
    rw [Items.find?_eq_none_iff] at hf ⊢
    intro hm; exact hf ((keys_perm h).mem_iff.1 hm)
  | some v =>
    rw [find?_iff_mem _ ha]
    rw [find?_iff_mem _ hb] at hf
    exact h.mem_iff.2 hf

theorem find?_app (a b : Items R) (k : Key) :
    (a.app b).find? k = match a.find? k with | some v => some v | none => b.find? k := by
  match a with
  | .nil => rfl
  | .cons k' v rest =>
    by_cases hk : k' = k
    · simp [Items.app, Items.find?, hk]
    · simp [Items.app, Items.find?, hk, find?_app rest b k]

theorem fromA_keys_sub (same : Leaf R → Leaf R → Bool) (ord : Items R → Items R) (a b : Items R) :
    (fromA same ord a b).keys.Sublist a.keys := by
  match a with
  | .nil => simp [fromA, Items.keys]
  | .cons k v rest =>
    simp only [fromA, Items.keys]
    split
    · exact (fromA_keys_sub same ord rest b).cons _
    · simp only [Items.keys]
      exact (fromA_keys_sub same ord rest b).cons_cons _

theorem onlyB_keys_sub (same : Leaf R → Leaf R → Bool) (a b : Items R) :
    (onlyB same a b).keys.Sublist b.keys := by
  match b with
  | .nil => simp [onlyB, Items.keys]
  | .cons k v rest =>
    have ih := onlyB_keys_sub same a rest
    simp only [onlyB, Items.keys]
    split
    · exact ih.cons _
    · cases v with
      | node ys => simp only [Items.keys]; exact ih.cons_cons _
      | leaf y =>
        simp only
        split
        · exact ih.cons _
        · simp only [Items.keys]; exact ih.cons_cons _

theorem onlyB_not_mem (same : Leaf R → Leaf R → Bool) (a b : Items R) (k : Key)
    (h : k ∈ (onlyB same a b).keys) : k ∉ a.keys := by
  match b with
  | .nil => simp [onlyB, Items.keys] at h
  | .cons k' v rest =>
    simp only [onlyB] at h
    by_cases hm : k' ∈ a.keys
    · simp only [hm, if_true] at h
      exact onlyB_not_mem same a rest k h
    · simp only [hm, if_false] at h
      cases v with
      | node ys =>
        simp only [Items.keys, List.mem_cons] at h
        rcases h with h | h
        · exact h ▸ hm
        · exact onlyB_not_mem same a rest k h
      | leaf y =>
        simp only at h
        split at h
        · exact onlyB_not_mem same a rest k h
        · simp only [Items.keys, List.mem_cons] at h
          rcases h with h | h
          · exact h ▸ hm
          · exact onlyB_not_mem same a rest k h

theorem find?_fromA (same : Leaf R → Leaf R → Bool) (ord : Items R → Items R) (a b : Items R)
    (ha : a.keys.Nodup) (k : Key) :
    (fromA same ord a b).find? k = match a.find? k with
      | none => none
      | some v => diffVal same ord v ((b.find? k).getD (.leaf .none)) := by
  match a with
  | .nil => simp [fromA]
  | .cons k' v rest =>
    simp only [Items.keys, List.nodup_cons] at ha
    have ih := find?_fromA same ord rest b ha.2 k
    simp only [fromA]
    by_cases hk : k' = k
    · subst hk
      have hn : rest.find? k' = none := (Items.find?_eq_none_iff _ _).2 ha.1
      simp only [hn] at ih
      cases hd : diffVal same ord v ((b.find? k').getD (.leaf .none)) with
      | none => simp [Items.find?, ih, hd]
      | some w => simp [Items.find?, hd]
    · cases hd : diffVal same ord v ((b.find? k').getD (.leaf .none)) with
      | none => simp [Items.find?, hk, ih]
      | some w => simp [Items.find?, hk, ih]

/-- Entry stored for a key only present in `B`. -/
def onlyEntry (same : Leaf R → Leaf R → Bool) : Val R → Option (Val R)
  | .node _ => some (.leaf .none)
  | .leaf y => if same .none y then none else some (.leaf .none)

theorem find?_onlyB (same : Leaf R → Leaf R → Bool) (a b : Items R) (hb : b.keys.Nodup) (k : Key) :
    (onlyB same a b).find? k =
      if k ∈ a.keys then none else (b.find? k).bind (onlyEntry same) := by
  match b with
  | .nil => simp [onlyB]
  | .cons k' v rest =>
    simp only [Items.keys, List.nodup_cons] at hb
    have ih := find?_onlyB same a rest hb.2 k
    simp only [onlyB]
    by_cases hm : k' ∈ a.keys
    · simp only [hm, if_true, ih]
      by_cases hk : k' = k
      · subst hk; simp [hm]
      · simp [Items.find?, hk]
    · simp only [hm, if_false]
      by_cases hk : k' = k
      · subst hk
        have hn : rest.find? k' = none := (Items.find?_eq_none_iff _ _).2 hb.1
        simp only [hn, hm, if_false, Option.bind_none] at ih
        cases v with
        | node ys => simp [Items.find?, hm, onlyEntry]
        | leaf y =>
          simp only
          split
          · simp [Items.find?, onlyEntry, *]
          · simp [Items.find?, onlyEntry, *]
      · cases v with
        | node ys => simp [Items.find?, hk, ih]
        | leaf y =>
          simp only
          split <;> simp [Items.find?, hk, ih]

theorem pre_nodup (same : Leaf R → Leaf R → Bool) (ord : Items R → Items R) (a b : Items R)
    (ha : a.keys.Nodup) (hb : b.keys.Nodup) :
    ((fromA same ord a b).app (onlyB same a b)).keys.Nodup := by
  rw [keys_eq_toList, toList_app, List.map_append, ← keys_eq_toList, ← keys_eq_toList]
  refine List.nodup_append.2 ⟨(fromA_keys_sub same ord a b).nodup ha,
    (onlyB_keys_sub same a b).nodup hb, ?_⟩
  intro x hx y hy hxy
  subst hxy
  exact onlyB_not_mem same a b x hy ((fromA_keys_sub same ord a b).subset hx)

theorem diff_nodup (same : Leaf R → Leaf R → Bool) (ord : Items R → Items R)
    (hord : IsReorder ord) (a b : Items R) (ha : a.keys.Nodup) (hb : b.keys.Nodup) :
    (diff same ord a b).keys.Nodup :=
  (keys_perm (hord _)).nodup_iff.2 (pre_nodup same ord a b ha hb)

/-- Lookup in `diff(A,B)`. -/
theorem find?_diff (same : Leaf R → Leaf R → Bool) (ord : Items R → Items R)
    (hord : IsReorder ord) (a b : Items R) (ha : a.keys.Nodup) (hb : b.keys.Nodup) (k : Key) :
    (diff same ord a b).find? k = match a.find? k with
      | some v => diffVal same ord v ((b.find? k).getD (.leaf .none))
      | none => (b.find? k).bind (onlyEntry same) := by
  unfold diff
  rw [find?_perm (hord _) (pre_nodup same ord a b ha hb), find?_app, find?_fromA same ord a b ha,
    find?_onlyB same a b hb]
  cases hf : a.find? k with
  | none =>
    have : k ∉ a.keys := (Items.find?_eq_none_iff _ _).1 hf
    simp [this]
  | some v =>
    have : k ∈ a.keys := (Items.mem_keys_iff _ _).2 (by simp [hf])
    simp only [this, if_true]
    cases diffVal same ord v ((b.find? k).getD (.leaf .none)) <;> rfl

theorem diffVal_node_node (same : Leaf R → Leaf R → Bool) (ord : Items R → Items R)
    (a b : Items R) :
    diffVal same ord (.node a) (.node b) =
      match diff same ord a b with | .nil => none | s => some (.node s) := by
  simp only [diffVal, diff]; rfl

/-- Items with equal key lists and equal lookups are equal. -/
theorem items_ext (a b : Items R) (hk : a.keys = b.keys) (ha : a.keys.Nodup)
    (hf : ∀ k, a.find? k = b.find? k) : a = b := by
  match a, b with
  | .nil, .nil => rfl
  | .nil, .cons _ _ _ => simp [Items.keys] at hk
  | .cons _ _ _, .nil => simp [Items.keys] at hk
  | .cons k v rest, .cons k' v' rest' =>
    simp only [Items.keys, List.cons.injEq] at hk
    obtain ⟨rfl, hk⟩ := hk
    simp only [Items.keys, List.nodup_cons] at ha
    have h1 := hf k
    simp [Items.find?] at h1
    subst h1
    have : rest = rest' := by
      apply items_ext rest rest' hk ha.2
      intro q
      by_cases hq : k = q
      · subst hq
        rw [(Items.find?_eq_none_iff _ _).2 ha.1, (Items.find?_eq_none_iff _ _).2 (hk ▸ ha.1)]
      · have := hf q
        simpa [Items.find?, hq] using this
    rw [this]

theorem filter_keys_nil (a b : Items R) (h : ∀ k ∈ b.keys, isPrivate k = false → k ∈ a.keys) :
    b.keys.filter (fun k => !isPrivate k && !decide (k ∈ a.keys)) = [] := by
  rw [List.filter_eq_nil_iff]
  intro k hk
  cases hp : isPrivate k
  · simp [h k hk hp]
  · simp

theorem get_append (v : Val R) (p q : List Key) :
    v.get (p ++ q) = (v.get p).bind (fun w => w.get q) := by
  induction p generalizing v with
  | nil => simp [Val.get]
  | cons k p ih =>
    cases v with
    | leaf x => simp [Val.get]
    | node kvs =>
      simp only [List.cons_append, Val.get]
      cases kvs.find? k with
      | none => rfl
      | some w => exact ih w

end Verif.Core
