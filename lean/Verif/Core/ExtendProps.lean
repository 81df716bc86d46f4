import Verif.Core.Extend
import Verif.Core.AppendProps

/-!
# Extending a container

The specification: afterwards the container has the former elements and then the given ones, in order.
-/

namespace Verif.Core

variable {R : Type}

theorem find?_none_of_notMem (a : Items R) (k : Key) (h : k ∉ a.keys) : a.find? k = none := by
  match a with
  | .nil => rfl
  | .cons q v rest =>
    simp only [Items.keys, List.mem_cons, not_or] at h
    rw [Items.find?, if_neg (fun e => h.1 e.symm)]
    exact find?_none_of_notMem rest k h.2

theorem updVal_fresh (v : Val R) : updVal none v = v := by cases v <;> simp [updVal]

theorem toList_updItems_fresh (b : Items R) : ∀ a : Items R, (∀ k ∈ b.keys, k ∉ a.keys) → b.keys.Nodup →
    (∀ k ∈ b.keys, isPrivate k = false) → (updItems a b).toList = a.toList ++ b.toList := by
  match b with
  | .nil => intro a _ _ _; simp [updItems, Items.toList]
  | .cons k v rest =>
    intro a hd hn hp
    simp only [Items.keys, List.nodup_cons, List.mem_cons, forall_eq_or_imp] at hd hn hp
    have hset := toList_set_new a k v hd.1
    have hkeys : (a.set k v).keys = a.keys ++ [k] := by
      rw [keys_eq_toList, hset, keys_eq_toList]; simp
    rw [updItems, hp.1, find?_none_of_notMem a k hd.1, updVal_fresh]
    simp only [Bool.false_eq_true, if_false]
    rw [toList_updItems_fresh rest (a.set k v) ?_ hn.2 hp.2, hset]
    · simp [Items.toList]
    · intro q hq
      rw [hkeys, List.mem_append, List.mem_singleton, not_or]
      exact ⟨hd.2 q hq, fun e => hn.1 (e ▸ hq)⟩

/-- C432: a dictionary of elements under public names that are free is added behind the former elements, in order; full
claim: for lists too, and under any name. -/
theorem C432_dict_partial (self d : Items R) (hd : ∀ k ∈ d.keys, k ∉ self.keys) (hn : d.keys.Nodup)
    (hp : ∀ k ∈ d.keys, isPrivate k = false) :
    ∃ s, extend self (.dict d) = .ok s ∧ s.toList = self.toList ++ d.toList :=
  ⟨_, rfl, toList_updItems_fresh d self hd hn hp⟩

/-- C432: whatever is neither list nor dictionary is refused. -/
theorem C432_other (self : Items R) : extend self .other = .error .unrecognized := rfl

/-- C432: no list can be added, not even an empty one. -/
theorem C432_list_counterexample (self : Items R) (l : List (Val R)) : ¬ ∃ s, extend self (.list l) = .ok s := by
  rintro ⟨s, h⟩
  exact absurd h (by simp [extend])

/-- An element with a number. -/
def element (name : Char) (n : ℕ) : Items ℕ := .cons [name] (.node (.cons ['n'] (.leaf (.num n)) .nil)) .nil

/-- C432: an element under a name that is taken does not come beside the former one, as it does with `append`: the
container still has one element and the former values are overwritten. -/
theorem C432_same_name_counterexample :
    ∃ s : Items ℕ, extend (element 'a' 1) (.dict (element 'a' 2)) = .ok s ∧ s.toList.length = 1 ∧
      s = element 'a' 2 := by
  refine ⟨_, rfl, ?_, ?_⟩ <;>
    simp [element, updItems, updVal, isPrivate, Items.set, Items.find?, Items.toList]

/-- C432: an element whose name begins with an underscore is dropped. -/
theorem C432_underscore_counterexample :
    extend (element 'a' 1) (.dict (element '_' 2)) = .ok (element 'a' 1) := by
  simp [extend, element, updItems, isPrivate]

example : ∃ s, extend (element 'a' 1) (.dict (element 'b' 2)) = .ok s ∧
    s.toList = (element 'a' 1).toList ++ (element 'b' 2).toList :=
  C432_dict_partial _ _ (by simp [element, Items.keys]) (by simp [element, Items.keys])
    (by simp [element, Items.keys, isPrivate])

end Verif.Core
