import Verif.Avl.Trim
import Mathlib.Data.List.Forall2

/-!
# C424: control surfaces of trimmed and untrimmed aircraft in AVL
-/

namespace Verif.Avl
open Real

/-- What is expected: untrimmed surfaces and, always, high-lift devices are where they are deflected to; a trimmed aircraft
has its primary controls zero the moment they are for. -/
inductive Wanted (rnd : ℝ → ℝ) : Bool → Surf → Fix → Prop
  | untrimmed (s : Surf) : Wanted rnd false s (.at (rnd (s.deflection * 180 / π)))
  | highLift (s : Surf) (h : s.kind = .flap ∨ s.kind = .slat) : Wanted rnd true s (.at (rnd (s.deflection * 180 / π)))
  | aileron (s : Surf) (h : s.kind = .aileron) : Wanted rnd true s .roll
  | elevator (s : Surf) (h : s.kind = .elevator) : Wanted rnd true s .pitch
  | rudder (s : Surf) (h : s.kind = .rudder) : Wanted rnd true s .yaw

theorem deg_eq (a : ℝ) : deg a = a * 180 / π := by
  unfold deg
  rw [div_div_eq_mul_div]

/-- **C424 (partial).** Untrimmed aircraft, and trimmed ones whose flaps and slats are not deflected: each surface is fixed
as wanted, in the order of the wings and their surfaces. -/
theorem C424_fixed_partial (rnd : ℝ → ℝ) (h0 : rnd 0 = 0) (trim : Bool) (wings : List (List Surf))
    (h : trim = true → ∀ w ∈ wings, ∀ s ∈ w, s.kind = .flap ∨ s.kind = .slat → s.deflection = 0) :
    List.Forall₂ (Wanted rnd trim) wings.flatten (fixedAll rnd trim wings) := by
  unfold fixedAll
  rw [List.forall₂_map_right_iff, List.forall₂_same]
  intro s hs
  unfold fixed
  cases trim with
  | false =>
    simp only [Bool.false_eq_true, if_false]
    rw [deg_eq]
    exact .untrimmed s
  | true =>
    simp only [if_true]
    obtain ⟨w, hw, hsw⟩ := List.mem_flatten.1 hs
    have hz := h rfl w hw s hsw
    unfold afterCase caseLine
    cases hk : s.kind with
    | aileron => exact .aileron s hk
    | elevator => exact .elevator s hk
    | rudder => exact .rudder s hk
    | flap =>
      have := hz (.inl hk)
      have e : Fix.at (0 : ℝ) = .at (rnd (s.deflection * 180 / π)) := by rw [this]; simp [h0]
      simp only [Option.getD_some]
      rw [e]
      exact .highLift s (.inl hk)
    | slat =>
      have := hz (.inr hk)
      have e : Fix.at (0 : ℝ) = .at (rnd (s.deflection * 180 / π)) := by rw [this]; simp [h0]
      simp only [Option.getD_none]
      rw [e]
      exact .highLift s (.inr hk)

/-- **C424 (nothing else).** What is wanted is one thing. -/
theorem C424_wanted_unique (rnd : ℝ → ℝ) (trim : Bool) (s : Surf) (f g : Fix) (hf : Wanted rnd trim s f)
    (hg : Wanted rnd trim s g) : f = g := by
  cases hf <;> cases hg <;> simp_all

/-- An elevator and a flap at rest. -/
noncomputable def exControls : List (List Surf) := [[⟨.flap, 0.1, 0.5, 0.2, 0⟩], [⟨.elevator, 0, 1, 0.3, 0.1⟩]]

example : List.Forall₂ (Wanted id true) exControls.flatten (fixedAll id true exControls) := by
  refine C424_fixed_partial id rfl true exControls ?_
  intro _ w hw s hs hk
  simp only [exControls, List.mem_cons, List.not_mem_nil, or_false] at hw
  rcases hw with rfl | rfl
  · simp only [List.mem_cons, List.not_mem_nil, or_false] at hs
    rw [hs]
  · simp only [List.mem_cons, List.not_mem_nil, or_false] at hs
    rw [hs] at hk
    simp at hk

/-- **C424 (counterexample).** A trimmed aircraft has its flaps and slats in, whatever their deflection. -/
theorem C424_flap_counterexample (rnd : ℝ → ℝ) (s : Surf) (h : s.kind = .flap ∨ s.kind = .slat) :
    fixed rnd true s = .at 0
    ∧ (rnd (s.deflection * 180 / π) ≠ 0 → ¬ Wanted rnd true s (fixed rnd true s)) := by
  have h1 : fixed rnd true s = .at 0 := by
    unfold fixed afterCase caseLine
    rcases h with h | h <;> simp [h]
  refine ⟨h1, fun h2 h3 => ?_⟩
  have := C424_wanted_unique rnd true s _ _ h3 (.highLift s h)
  rw [h1] at this
  simp only [Fix.at.injEq] at this
  exact h2 this.symm

end Verif.Avl
