import Verif.Weights.Solids
import Mathlib.Tactic.NormNum

/-!
C470: solids of the library in the buildup of weights.
-/

namespace Verif.Weights.Solids

theorem values_isSome (s : Solid) (r : Role) : (values s r).isSome = (reads s r).all Option.isSome := by
  unfold values
  induction reads s r with
  | nil => rfl
  | cons o l ih =>
    cases o with
    | none => rfl
    | some v =>
      simp only [List.mapM_cons, id, Option.bind_eq_bind, Option.bind_some, List.all_cons, Option.isSome_some, Bool.true_and]
      rw [← ih]
      cases l.mapM id <;> rfl

/-- **C470, strengths.** No solid yields at more than it breaks at, in tension, shear and bearing. -/
theorem C470_strengths : ∀ s ∈ library, ∀ u y, (s.uts = some u ∧ s.yts = some y) ∨ (s.uss = some u ∧ s.yss = some y) ∨
    (s.ubs = some u ∧ s.ybs = some y) → 0 ≤ y ∧ y ≤ u := by
  intro s hs u y h
  simp only [library, List.mem_cons, List.not_mem_nil, or_false] at hs
  rcases hs with rfl | rfl | rfl | rfl | rfl | rfl | rfl | rfl | rfl | rfl | rfl | rfl | rfl <;>
    rcases h with ⟨h1, h2⟩ | ⟨h1, h2⟩ | ⟨h1, h2⟩ <;>
    first
      | (cases h1; cases h2; norm_num; done)
      | cases h1

/-- **C470, what holds.** Except for copper, every solid has what the roles other than that of ribs read. -/
theorem C470_roles_partial : ∀ s ∈ library, s.name ≠ "Copper" → ∀ r, r ≠ .rib → (values s r).isSome = true := by
  intro s hs hn r hr
  rw [values_isSome]
  simp only [library, List.mem_cons, List.not_mem_nil, or_false] at hs
  rcases hs with rfl | rfl | rfl | rfl | rfl | rfl | rfl | rfl | rfl | rfl | rfl | rfl | rfl <;>
    first
      | exact absurd rfl hn
      | (cases r <;> first | exact absurd rfl hr | rfl)

/-- **C470, ribs.** False of ribs: of the whole library only `Aluminum_Rib` can be given, every other solid raises. -/
theorem C470_ribs_counterexample : ∀ s ∈ library, (values s .rib).isSome = true ↔ s.name = "Aluminum_Rib" := by
  intro s hs
  rw [values_isSome]
  simp only [library, List.mem_cons, List.not_mem_nil, or_false] at hs
  rcases hs with rfl | rfl | rfl | rfl | rfl | rfl | rfl | rfl | rfl | rfl | rfl | rfl | rfl <;> decide

/-- Copper can be given for none of the roles: it lacks both thickness and strengths. -/
theorem C470_copper_counterexample : copper ∈ library ∧ ∀ r, values copper r = none := by
  refine ⟨by simp [library], ?_⟩
  intro r
  have : (values copper r).isSome = false := by rw [values_isSome]; cases r <;> rfl
  simpa using this

/-- A user may give any solid the missing width; it can then be used for ribs. -/
theorem C470_width : ∀ s ∈ library, s.name ≠ "Copper" → ∀ w, ∃ t d, s.mgt = some t ∧ s.density = some d ∧
    values { s with width := some w } .rib = some [w, t, d] := by
  intro s hs hn w
  simp only [library, List.mem_cons, List.not_mem_nil, or_false] at hs
  rcases hs with rfl | rfl | rfl | rfl | rfl | rfl | rfl | rfl | rfl | rfl | rfl | rfl | rfl <;>
    first
      | exact absurd rfl hn
      | exact ⟨_, _, rfl, rfl, rfl⟩

/-- Titanium is in the library, is not copper, and has a density. -/
example : titanium ∈ library ∧ titanium.name ≠ "Copper" ∧ titanium.density = some 4430 := by
  refine ⟨by simp [library], by decide, rfl⟩

end Verif.Weights.Solids
