import Verif.Core.Lemmas
import Verif.Core.Spec
/-! Lemmas for the `Data.update` properties. -/

namespace Verif.Core
variable {R : Type}

@[simp] theorem updVal_none (v : Val R) : updVal none v = v := by
  match v with
  | .leaf x => simp [updVal]
  | .node ys => simp [updVal]

@[simp] theorem updVal_some_leaf (x : Leaf R) (v : Val R) : updVal (some (.leaf x)) v = v := by
  match v with
  | .leaf x => simp [updVal]
  | .node ys => simp [updVal]

theorem updVal_node_node (xs ys : Items R) :
    updVal (some (.node xs)) (.node ys) = .node (updItems xs ys) := by simp [updVal]

theorem updVal_of_not_node (o : Option (Val R)) (v : Val R)
    (h : ∀ xs, o ≠ some (.node xs)) : updVal o v = v := by
  match o with
  | none => simp
  | some (.leaf _) => simp
  | some (.node xs) => exact absurd rfl (h xs)

theorem Items.WF.set {a : Items R} (ha : a.WF) {k : Key} {v : Val R} (hv : v.WF) :
    (a.set k v).WF := by
  match a with
  | .nil => simp [Items.set, Items.WF, Items.keys, hv]
  | .cons k' v' rest =>
    simp only [Items.WF] at ha
    by_cases hk : k' = k
    · simp only [Items.set, hk, if_true, Items.WF]
      exact ⟨hk ▸ ha.1, hv, ha.2.2⟩
    · simp only [Items.set, hk, if_false, Items.WF]
      refine ⟨?_, ha.2.1, Items.WF.set ha.2.2 hv⟩
      rw [Items.keys_set]; split
      · exact ha.1
      · simp [ha.1, hk]

mutual
theorem wf_updVal : (v : Val R) → v.WF → (o : Option (Val R)) → (∀ w, o = some w → w.WF) →
    (updVal o v).WF
  | .leaf x, _, o, _ => by simp [updVal_leaf, Val.WF]
  | .node ys, h, o, ho => by
    match o with
    | none => simpa using h
    | some (.leaf _) => simpa using h
    | some (.node xs) =>
      rw [updVal_node_node]
      simp only [Val.WF] at h ⊢
      have := ho _ rfl
      simp only [Val.WF] at this
      exact wf_updItems ys h xs this
theorem wf_updItems : (b : Items R) → b.WF → (a : Items R) → a.WF → (updItems a b).WF
  | .nil, _, a, ha => by simpa using ha
  | .cons k v rest, hb, a, ha => by
    simp only [Items.WF] at hb
    rw [updItems_cons]
    split
    · exact wf_updItems rest hb.2.2 a ha
    · refine wf_updItems rest hb.2.2 _ (Items.WF.set ha ?_)
      exact wf_updVal v hb.2.1 _ (fun w hw => Items.WF.find ha hw)
end

/-- If every public item of `b` is already a fixed point, `update` does nothing. -/
theorem updItems_fix : (b : Items R) → b.keys.Nodup → (a : Items R) →
    (∀ k v, b.find? k = some v → isPrivate k = false →
      ∃ w, a.find? k = some w ∧ updVal (some w) v = w) → updItems a b = a
  | .nil, _, a, _ => by simp
  | .cons k v rest, hb, a, h => by
    simp only [Items.keys, List.nodup_cons] at hb
    rw [updItems_cons]
    have hrest : ∀ k' v', rest.find? k' = some v' → isPrivate k' = false →
        ∃ w, a.find? k' = some w ∧ updVal (some w) v' = w := by
      intro k' v' hf hp
      refine h k' v' ?_ hp
      have : k ≠ k' := by
        rintro rfl
        exact hb.1 ((Items.mem_keys_iff _ _).2 (by simp [hf]))
      simp [Items.find?, this, hf]
    by_cases hp : isPrivate k
    · rw [if_pos hp]; exact updItems_fix rest hb.2 a hrest
    · rw [if_neg hp]
      obtain ⟨w, hw, hfix⟩ := h k v (by simp [Items.find?]) (by simpa using hp)
      rw [hw, hfix, Items.set_find_self a k w hw]
      exact updItems_fix rest hb.2 a hrest

mutual
theorem updVal_idem : (v : Val R) → v.WF → (o : Option (Val R)) →
    updVal (some (updVal o v)) v = updVal o v
  | .leaf x, _, o => by simp [updVal_leaf]
  | .node ys, h, o => by
    simp only [Val.WF] at h
    have hself : updItems ys ys = ys := by
      apply updItems_fix ys h.nodup
      intro k v hf _
      refine ⟨v, hf, ?_⟩
      have := updItems_elem_idem ys h k v hf none
      simpa using this
    match o with
    | none => simp [updVal_node_node, hself]
    | some (.leaf _) => simp [updVal_node_node, hself]
    | some (.node xs) =>
      rw [updVal_node_node, updVal_node_node]
      congr 1
      apply updItems_fix ys h.nodup
      intro k v hf hp
      refine ⟨updVal (xs.find? k) v, ?_, updItems_elem_idem ys h k v hf _⟩
      rw [find?_updItems _ _ _ h.nodup]
      simp [hp, hf]
theorem updItems_elem_idem : (b : Items R) → b.WF → (k : Key) → (v : Val R) →
    b.find? k = some v → (o : Option (Val R)) →
    updVal (some (updVal o v)) v = updVal o v
  | .nil, _, k, v, hf, o => by simp at hf
  | .cons k' v' rest, h, k, v, hf, o => by
    simp only [Items.WF] at h
    by_cases hk : k' = k
    · simp [Items.find?, hk] at hf
      rw [← hf]
      exact updVal_idem v' h.2.1 o
    · simp [Items.find?, hk] at hf
      exact updItems_elem_idem rest h.2.2 k v hf o
end

end Verif.Core
