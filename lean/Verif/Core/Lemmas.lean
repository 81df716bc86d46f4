import Verif.Core.Model
/-! Helper lemmas about dictionary items (no property statements here). -/

namespace Verif.Core
variable {R : Type}

namespace Items

@[simp] theorem find?_nil (q : Key) : (nil : Items R).find? q = none := rfl

theorem find?_cons (k q : Key) (v : Val R) (rest : Items R) :
    (cons k v rest).find? q = if k = q then some v else rest.find? q := rfl

theorem find?_set_self (a : Items R) (k : Key) (v : Val R) :
    (a.set k v).find? k = some v := by
  match a with
  | nil => simp [set, find?]
  | cons k' v' rest =>
    by_cases h : k' = k
    · simp [set, find?, h]
    · simp [set, find?, h, find?_set_self rest k v]

theorem find?_set_ne (a : Items R) (k q : Key) (v : Val R) (h : k ≠ q) :
    (a.set k v).find? q = a.find? q := by
  match a with
  | nil => simp [set, find?, h]
  | cons k' v' rest =>
    by_cases h' : k' = k
    · subst h'; simp [set, find?, h]
    · simp [set, find?, h', find?_set_ne rest k q v h]

theorem find?_set (a : Items R) (k q : Key) (v : Val R) :
    (a.set k v).find? q = if k = q then some v else a.find? q := by
  by_cases h : k = q
  · subst h; simp [find?_set_self]
  · simp [h, find?_set_ne]

theorem mem_keys_iff (a : Items R) (k : Key) : k ∈ a.keys ↔ (a.find? k).isSome := by
  match a with
  | nil => simp [keys]
  | cons k' v' rest =>
    have := mem_keys_iff rest k
    by_cases h : k' = k
    · simp [keys, find?, h]
    · simp [keys, find?, h, this, Ne.symm h]

theorem find?_eq_none_iff (a : Items R) (k : Key) : a.find? k = none ↔ k ∉ a.keys := by
  rw [mem_keys_iff]; cases a.find? k <;> simp

theorem keys_set (a : Items R) (k : Key) (v : Val R) :
    (a.set k v).keys = if k ∈ a.keys then a.keys else a.keys ++ [k] := by
  match a with
  | nil => simp [set, keys]
  | cons k' v' rest =>
    have ih := keys_set rest k v
    by_cases h : k' = k
    · simp [set, keys, h]
    · simp only [set, h, if_false, keys, ih, List.mem_cons, Ne.symm h, false_or]
      split <;> simp

theorem set_find_self (a : Items R) (k : Key) (v : Val R) (h : a.find? k = some v) :
    a.set k v = a := by
  match a with
  | nil => simp at h
  | cons k' v' rest =>
    by_cases hk : k' = k
    · subst hk; simp [find?] at h; subst h; simp [set]
    · simp [find?, hk] at h; simp [set, hk, set_find_self rest k v h]

theorem set_set_self (a : Items R) (k : Key) (v w : Val R) :
    (a.set k v).set k w = a.set k w := by
  match a with
  | nil => simp [set]
  | cons k' v' rest =>
    by_cases hk : k' = k
    · simp [set, hk]
    · simp [set, hk, set_set_self rest k v w]

theorem set_comm_mem (a : Items R) (k q : Key) (v w : Val R) (h : k ≠ q)
    (hk : k ∈ a.keys) : (a.set k v).set q w = (a.set q w).set k v := by
  match a with
  | nil => simp [keys] at hk
  | cons k' v' rest =>
    by_cases h1 : k' = k
    · subst h1
      simp [set, h]
    · by_cases h2 : k' = q
      · subst h2; simp [set, h1]
      · have hk' : k ∈ rest.keys := by
          simp [keys] at hk; rcases hk with hk | hk
          · exact absurd hk.symm h1
          · exact hk
        simp [set, h1, h2, set_comm_mem rest k q v w h hk']

end Items

/-! Unfolding equations for `updVal`. -/

theorem updVal_leaf (o : Option (Val R)) (x : Leaf R) : updVal o (.leaf x) = .leaf x := by
  match o with
  | none => simp [updVal]
  | some (.leaf _) => simp [updVal]
  | some (.node _) => simp [updVal]

@[simp] theorem updItems_nil (a : Items R) : updItems a .nil = a := by simp [updItems]

theorem updItems_cons (a : Items R) (k : Key) (v : Val R) (rest : Items R) :
    updItems a (.cons k v rest) =
      if isPrivate k then updItems a rest
      else updItems (a.set k (updVal (a.find? k) v)) rest := by
  simp [updItems]

/-- Lookup in the updated dictionary, one level. -/
theorem find?_updItems (a b : Items R) (q : Key) (hb : b.keys.Nodup) :
    (updItems a b).find? q =
      if isPrivate q then a.find? q
      else match b.find? q with
        | none => a.find? q
        | some v => some (updVal (a.find? q) v) := by
  match b with
  | .nil => simp
  | .cons k v rest =>
    simp only [Items.keys, List.nodup_cons] at hb
    rw [updItems_cons]
    by_cases hp : isPrivate k
    · rw [if_pos hp, find?_updItems a rest q hb.2]
      by_cases hkq : k = q
      · subst hkq; simp [hp]
      · simp [Items.find?, hkq]
    · rw [if_neg hp, find?_updItems _ rest q hb.2]
      by_cases hkq : k = q
      · subst hkq
        have hn : rest.find? k = none := (Items.find?_eq_none_iff _ _).2 hb.1
        simp [Items.find?, hp, hn, Items.find?_set_self]
      · simp [Items.find?, hkq, Items.find?_set_ne _ _ _ _ hkq]

theorem keys_updItems (a b : Items R) (hb : b.keys.Nodup) :
    (updItems a b).keys =
      a.keys ++ b.keys.filter (fun k => !isPrivate k && !decide (k ∈ a.keys)) := by
  match b with
  | .nil => simp [Items.keys]
  | .cons k v rest =>
    simp only [Items.keys, List.nodup_cons] at hb
    rw [updItems_cons]
    by_cases hp : isPrivate k
    · rw [if_pos hp, keys_updItems a rest hb.2]
      simp [Items.keys, hp]
    · rw [if_neg hp, keys_updItems _ rest hb.2, Items.keys_set]
      by_cases hm : k ∈ a.keys
      · simp [Items.keys, hp, hm]
      · have hcong : rest.keys.filter (fun j => !isPrivate j && !decide (j ∈ a.keys ++ [k])) =
            rest.keys.filter (fun j => !isPrivate j && !decide (j ∈ a.keys)) := by
          apply List.filter_congr
          intro j hj
          have : j ≠ k := fun h => hb.1 (h ▸ hj)
          simp [this]
        simp only [hm, if_false, hcong]
        simp [Items.keys, hp, hm]

end Verif.Core
