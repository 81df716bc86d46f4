import Verif.Mission.VehicleAnalyses

/-!
C446 the analyses of a vehicle.
-/

namespace Verif.Mission.Analyses

variable {F : Type}

/-- A class is of a kind: it is the base class or inherits from a class of this kind. -/
inductive IsA : Cls → Kind → Prop
  | base (k : Kind) : IsA (.base k) k
  | derived (name : String) (p : Cls) (k : Kind) : IsA p k → IsA (.derived name p) k

theorem isinst_iff (c : Cls) (k : Kind) : c.isinst k = true ↔ IsA c k := by
  induction c with
  | base j =>
    simp only [Cls.isinst, decide_eq_true_eq]
    exact ⟨fun h => h ▸ .base j, fun h => by cases h; rfl⟩
  | derived n p ih =>
    simp only [Cls.isinst]
    exact ⟨fun h => .derived n p k (ih.1 h), fun h => by cases h with | derived _ _ _ h => exact ih.2 h⟩
  | foreign n => exact ⟨fun h => by simp [Cls.isinst] at h, fun h => by cases h⟩

theorem isA_unique {c : Cls} {j k : Kind} (h : IsA c j) (h' : IsA c k) : j = k := by
  induction h with
  | base => cases h'; rfl
  | derived n p j _ ih => cases h' with | derived _ _ _ h => exact ih h

theorem getRoot_iff (c : Cls) (k : Kind) : getRoot c = some k ↔ IsA c k := by
  unfold getRoot
  constructor
  · intro h
    have := List.find?_some h
    exact (isinst_iff c k).1 this
  · intro h
    have hk : k ∈ kinds := by cases k <;> decide
    cases hf : kinds.find? fun j => c.isinst j with
    | none =>
      rw [List.find?_eq_none] at hf
      exact absurd ((isinst_iff c k).2 h) (hf k hk)
    | some j =>
      have := List.find?_some hf
      rw [isA_unique ((isinst_iff c j).1 this) h]

/-- **C446, one analysis.** An analysis of some kind, of whatever derived class, is put in the entry of its kind and the other
entries stay as they are; anything else is refused. -/
theorem C446_append (s : Slots F) (a : Obj F) :
    (∀ k, IsA a.cls k → ∃ t, s.append a = some t ∧ t k = some a ∧ ∀ j, j ≠ k → t j = s j)
    ∧ ((∀ k, ¬ IsA a.cls k) → s.append a = none) := by
  constructor
  · intro k hk
    refine ⟨_, by unfold Slots.append; rw [(getRoot_iff _ _).2 hk]; rfl, ?_, ?_⟩
    · simp
    · intro j hj
      simp [hj]
  · intro h
    unfold Slots.append
    cases hr : getRoot a.cls with
    | none => rfl
    | some k => exact absurd ((getRoot_iff _ _).1 hr) (h k)

example : IsA (.derived "Fidelity_Zero" (.derived "Markup" (.base .aerodynamics))) .aerodynamics :=
  .derived _ _ _ (.derived _ _ _ (.base _))

/-- **C446, several analyses.** Afterwards each entry has the analysis of its kind that was appended last, in whatever order the kinds
came, and what it had before when there was none. -/
theorem C446_last (s t : Slots F) (l : List (Obj F)) (h : s.appends l = some t) (k : Kind) :
    (∀ (pre post : List (Obj F)) (a : Obj F), l = pre ++ a :: post → IsA a.cls k → (∀ b ∈ post, ¬ IsA b.cls k) → t k = some a)
    ∧ ((∀ a ∈ l, ¬ IsA a.cls k) → t k = s k) := by
  induction l generalizing s with
  | nil =>
    simp only [Slots.appends, Option.some.injEq] at h
    subst h
    exact ⟨fun pre post a e => by simp at e, fun _ => rfl⟩
  | cons x l ih =>
    simp only [Slots.appends, Option.bind_eq_some_iff] at h
    obtain ⟨u, hu, ht⟩ := h
    obtain ⟨i1, i2⟩ := ih u ht
    have hx : ∃ j, IsA x.cls j := by
      by_contra hne
      push Not at hne
      rw [(C446_append s x).2 hne] at hu
      cases hu
    obtain ⟨j, hj⟩ := hx
    obtain ⟨u', e1, e2, e3⟩ := (C446_append s x).1 j hj
    rw [hu, Option.some.injEq] at e1
    subst e1
    constructor
    · intro pre post a e ha hpost
      cases pre with
      | nil =>
        simp only [List.nil_append, List.cons.injEq] at e
        obtain ⟨rfl, rfl⟩ := e
        rw [i2 hpost, isA_unique ha hj]
        exact e2
      | cons y pre =>
        simp only [List.cons_append, List.cons.injEq] at e
        exact i1 pre post a e.2 ha hpost
    · intro hno
      have hkj : k ≠ j := fun e => hno x (by simp) (e ▸ hj)
      rw [i2 fun a ha => hno a (List.mem_cons_of_mem _ ha), e3 k hkj]

/-- Aerodynamics appended twice with weights between: the second one stays. -/
example : ∃ t, (Slots.empty : Slots ℕ).appends [⟨.base .aerodynamics, 1⟩, ⟨.derived "Weights_UAV" (.base .weights), 2⟩,
    ⟨.derived "Markup" (.base .aerodynamics), 3⟩] = some t ∧ (t .aerodynamics).map Obj.fields = some 3 ∧ (t .weights).map Obj.fields = some 2
    ∧ (t .noise).isNone = true := ⟨_, rfl, rfl, rfl, rfl⟩

/-- **C446, analyses taken over.** A container without analyses takes over those of the other, the same objects; nothing else happens. -/
theorem C446_extend_partial (merge : F → F → F) (s o : Slots F) (k : Kind) (h : s k = none) : s.extend merge o k = o k := by
  unfold Slots.extend
  rw [h]

/-- **C446 fails for containers in use.** Extending by a container without an analysis of some kind removes the present one; and an
analysis given in place of a present one is not used, the present one keeps its class. -/
theorem C446_extend_counterexample (merge : F → F → F) (s o : Slots F) (k : Kind) (a : Obj F) (h : s k = some a) :
    (o k = none → s.extend merge o k = none)
    ∧ ∀ b, o k = some b → ∃ c, s.extend merge o k = some c ∧ c.cls = a.cls ∧ c.fields = merge a.fields b.fields := by
  unfold Slots.extend
  rw [h]
  constructor
  · intro e
    rw [e]
  · intro b e
    rw [e]
    exact ⟨_, rfl, rfl, rfl⟩

example : ∃ (s o : Slots ℕ) (b : Obj ℕ), s .weights = some ⟨.base .weights, 1⟩ ∧ o .weights = some b :=
  ⟨fun _ => some ⟨.base .weights, 1⟩, fun _ => some ⟨.base .weights, 2⟩, _, rfl, rfl⟩

end Verif.Mission.Analyses
