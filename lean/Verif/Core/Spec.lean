import Verif.Core.Model
/-!
Specification vocabulary for nested `Data`: what a user sees through attribute access.
Nothing here refers to `update`, `deep_set`, `append` ...; it is only "read the value at a
path" and "every dictionary has distinct keys" (which Python dictionaries guarantee).
-/

namespace Verif.Core
variable {R : Type}

/-- The value a user reads with `d.k1.k2...kn` (nothing if some key is missing or a value
on the way is not a `Data`). -/
def Val.get : Val R → List Key → Option (Val R)
  | v, [] => some v
  | .leaf _, _ :: _ => none
  | .node kvs, k :: p => match kvs.find? k with
    | none => none
    | some v => Val.get v p

/-- The value is a `Data`. -/
def Val.isNode : Val R → Bool
  | .leaf _ => false
  | .node _ => true

mutual
/-- Every dictionary inside has pairwise distinct keys. -/
def Val.WF : Val R → Prop
  | .leaf _ => True
  | .node kvs => Items.WF kvs
def Items.WF : Items R → Prop
  | .nil => True
  | .cons k v rest => k ∉ rest.keys ∧ Val.WF v ∧ Items.WF rest
end

/-- A path along public keys only. -/
def PublicPath (p : List Key) : Prop := ∀ k ∈ p, isPrivate k = false

theorem Items.WF.nodup : {a : Items R} → a.WF → a.keys.Nodup
  | .nil, _ => by simp [Items.keys]
  | .cons _ _ rest, h => by
    simp only [Items.WF] at h
    simp only [Items.keys, List.nodup_cons]
    exact ⟨h.1, Items.WF.nodup h.2.2⟩

theorem Items.WF.find : {a : Items R} → a.WF → {k : Key} → {v : Val R} →
    a.find? k = some v → v.WF
  | .nil, _, _, _, hf => by simp [Items.find?] at hf
  | .cons k' v' rest, h, k, v, hf => by
    simp only [Items.WF] at h
    by_cases hk : k' = k
    · simp [Items.find?, hk] at hf; subst hf; exact h.2.1
    · simp [Items.find?, hk] at hf; exact Items.WF.find h.2.2 hf

end Verif.Core
