import Verif.Optim.Snopt
import Mathlib.Tactic.Linarith
import Mathlib.Tactic.NormNum

/-! C437: the problem posed to SNOPT. -/

namespace Verif.Optim.Snopt

/-- A value meets a row of the table. -/
def Meets (r : Constraint) (g : ℝ) : Prop :=
  match r.rel with
  | .below => g ≤ r.edge
  | .above => r.edge ≤ g
  | .equal => g = r.edge
  | .other => False

/-- The constraint of pyOpt allows the values that meet the row. -/
def Says (p : Posed) (r : Constraint) : Prop := ∀ g : ℝ, p.low ≤ g ∧ (g : EReal) ≤ p.high ↔ Meets r g

theorem poseFrom_spec (names : List String) (rows : List Constraint) :
    ∀ (rs pre : List Constraint), rows = pre ++ rs → (∀ r ∈ rows, r.rel ≠ .other) → rows.length ≤ names.length →
    ∃ ps, poseFrom names (upEdges rows) (lowEdges rows) pre.length rs = some ps ∧ List.Forall₂ Says ps rs ∧
      ps.map Posed.name = (names.drop pre.length).take rs.length := by
  have hlen : ∀ (l : List Constraint), (∀ r ∈ l, r.rel ≠ .other) → (upEdges l).length = l.length ∧ (lowEdges l).length = l.length := by
    intro l h
    induction l with
    | nil => exact ⟨rfl, rfl⟩
    | cons r l ih =>
      obtain ⟨i1, i2⟩ := ih fun r h' => h r (List.mem_cons_of_mem _ h')
      have := h r List.mem_cons_self
      cases hr : r.rel with
      | other => exact absurd hr this
      | _ => simp only [upEdges, lowEdges] at i1 i2; simp [upEdges, lowEdges, hr, i1, i2]
  intro rs
  induction rs with
  | nil => intro pre _ _ _; exact ⟨[], rfl, List.Forall₂.nil, by simp⟩
  | cons r rs ih =>
    intro pre he ho hn
    have hr : r ∈ rows := by rw [he]; simp
    obtain ⟨ps, h1, h2, h3⟩ := ih (pre ++ [r]) (by rw [he]; simp) ho hn
    rw [List.length_append, List.length_singleton] at h1 h3
    have hp := hlen pre fun r h => ho r (by rw [he]; exact List.mem_append_left _ h)
    have hi : pre.length < names.length := by rw [he] at hn; simp at hn; omega
    have hnm : names[pre.length]? = some names[pre.length] := List.getElem?_eq_getElem hi
    have hd : names.drop pre.length = names[pre.length] :: names.drop (pre.length + 1) := List.drop_eq_getElem_cons hi
    have hu : ∀ x l, upEdges (r :: rs) = x :: l → (upEdges rows)[pre.length]? = some x := by
      intro x l h
      rw [he, show upEdges (pre ++ r :: rs) = upEdges pre ++ upEdges (r :: rs) by simp [upEdges], h]
      simp [← hp.1]
    have hl : ∀ x l, lowEdges (r :: rs) = x :: l → (lowEdges rows)[pre.length]? = some x := by
      intro x l h
      rw [he, show lowEdges (pre ++ r :: rs) = lowEdges pre ++ lowEdges (r :: rs) by simp [lowEdges], h]
      simp [← hp.2]
    cases hrel : r.rel with
    | other => exact absurd hrel (ho r hr)
    | below =>
      have e := hu r.edge (upEdges rs) (by simp [upEdges, hrel])
      refine ⟨⟨names[pre.length], ⊥, r.edge⟩ :: ps, ?_, List.Forall₂.cons ?_ h2, ?_⟩
      · simp [poseFrom, poseOne, hrel, hnm, e, h1]
      · intro g; simp [Meets, hrel]
      · rw [hd, List.length_cons, List.take_succ_cons, List.map_cons, h3]
    | above =>
      have e := hl r.edge (lowEdges rs) (by simp [lowEdges, hrel])
      refine ⟨⟨names[pre.length], r.edge, ⊤⟩ :: ps, ?_, List.Forall₂.cons ?_ h2, ?_⟩
      · simp [poseFrom, poseOne, hrel, hnm, e, h1]
      · intro g; simp [Meets, hrel]
      · rw [hd, List.length_cons, List.take_succ_cons, List.map_cons, h3]
    | equal =>
      have e := hu r.edge (upEdges rs) (by simp [upEdges, hrel])
      refine ⟨⟨names[pre.length], r.edge, r.edge⟩ :: ps, ?_, List.Forall₂.cons ?_ h2, ?_⟩
      · simp [poseFrom, poseOne, hrel, hnm, e, h1]
      · intro g
        simp only [Meets, hrel, EReal.coe_le_coe_iff]
        exact ⟨fun h => le_antisymm h.2 h.1, fun h => ⟨h.ge, h.le⟩⟩
      · rw [hd, List.length_cons, List.take_succ_cons, List.map_cons, h3]

/-- **C437.** The trust region poses every constraint of the table once, in order, under its tag, and exactly the values that meet the row are
allowed.  Missing: rows with a relation that is not known (`C437_relation_counterexample`). -/
theorem C437_trust_partial (rows : List Constraint) (h : ∀ r ∈ rows, r.rel ≠ .other) :
    ∃ ps, trustRegion rows = some ps ∧ List.Forall₂ Says ps rows ∧ ps.map Posed.name = rows.map Constraint.tag := by
  obtain ⟨ps, h1, h2, h3⟩ := poseFrom_spec (rows.map Constraint.tag) rows rows [] rfl h (by simp)
  exact ⟨ps, h1, h2, by rw [h3]; simp [List.take_of_length_le]⟩

/-- The additive set-up poses every constraint if there are no more of them than variables, under the names of the variables.
Missing: more constraints than variables (`C437_more_counterexample`) and the names (`C437_name_counterexample`). -/
theorem C437_additive_partial (vars : List String) (rows : List Constraint) (h : ∀ r ∈ rows, r.rel ≠ .other)
    (hn : rows.length ≤ vars.length) :
    ∃ ps, additive vars rows = some ps ∧ List.Forall₂ Says ps rows ∧ ps.map Posed.name = vars.take rows.length := by
  obtain ⟨ps, h1, h2, h3⟩ := poseFrom_spec vars rows rows [] rfl h hn
  exact ⟨ps, h1, h2, by rw [h3]; simp⟩

/-- With one more constraint than variables the additive set-up raises an error, whatever the constraints are. -/
theorem C437_more_counterexample : ∃ rows : List Constraint, (∀ r ∈ rows, r.rel ≠ .other) ∧ additive ["span"] rows = none :=
  ⟨[⟨"range", .above, 1⟩, ⟨"fuel", .below, 2⟩], by simp, by simp [additive, poseFrom, poseOne, upEdges, lowEdges]⟩

/-- A constraint on the range is posed under the name of a variable. -/
theorem C437_name_counterexample : ∃ ps, additive ["span"] [⟨"range", .above, 1⟩] = some ps ∧ ps.map Posed.name = ["span"] :=
  ⟨_, rfl, rfl⟩

/-- A row with a relation that is not known is left out without a word if it is the last, and is an error if it is not. -/
theorem C437_relation_counterexample : trustRegion [⟨"range", .other, 1⟩] = some [] ∧
    trustRegion [⟨"range", .other, 1⟩, ⟨"fuel", .below, 2⟩] = none := by
  constructor
  · simp [trustRegion, poseFrom, poseOne]
  · simp [trustRegion, poseFrom, poseOne, upEdges]

/-- The bounds posed for a variable are met exactly when the variable itself is between its bounds. -/
theorem C437_variables (bnd : ℝ × ℝ) (scl x : ℝ) (hs : 0 < scl) :
    (varBounds bnd scl).1 ≤ x ∧ x ≤ (varBounds bnd scl).2 ↔ bnd.1 ≤ x * scl ∧ x * scl ≤ bnd.2 := by
  simp only [varBounds, div_le_iff₀ hs, le_div_iff₀ hs]

example : ∃ ps, trustRegion [⟨"range", .above, 1⟩, ⟨"fuel", .below, 2⟩, ⟨"trim", .equal, 0⟩] = some ps ∧ ps.length = 3 := by
  obtain ⟨ps, h, h2, -⟩ := C437_trust_partial [⟨"range", .above, 1⟩, ⟨"fuel", .below, 2⟩, ⟨"trim", .equal, 0⟩] (by simp)
  exact ⟨ps, h, h2.length_eq⟩

example : ∃ ps, additive ["span", "area"] [⟨"range", .above, 1⟩, ⟨"fuel", .below, 2⟩] = some ps ∧ ps.map Posed.name = ["span", "area"] := by
  obtain ⟨ps, h, -, h3⟩ := C437_additive_partial ["span", "area"] [⟨"range", .above, 1⟩, ⟨"fuel", .below, 2⟩] (by simp) (by simp)
  exact ⟨ps, h, by rw [h3]; rfl⟩

example : (varBounds (1, 3) 2).1 ≤ 1 ∧ 1 ≤ (varBounds (1, 3) 2).2 := (C437_variables (1, 3) 2 1 (by norm_num)).2 (by norm_num)

end Verif.Optim.Snopt
