import Verif.Energy.Wiring
import Mathlib.Tactic.Ring
/-
C407: as many unknowns as residuals for electric networks.
-/

namespace Verif.Energy

/-- The solver has as many unknowns as residuals. -/
def Square (w : Wired) : Prop := total w.unknowns = total w.residuals

/-- Every unknown that is unpacked is there. -/
def Runs (w : Wired) : Prop := ∀ s ∈ w.mission ++ w.network, s ∈ w.unknowns.map Prod.fst

/-- **C407.** Battery and propellers on a cruise or a climb, and on a hover: square, and every unknown is there. -/
theorem C407_propellers (k : BatteryKind) (i : Bool) (p n : ℕ) :
    (Square (addPropellers k i p n (cruiseSegment n)) ∧ Runs (addPropellers k i p n (cruiseSegment n)))
      ∧ (Square (addPropellers k i p n (hoverSegment n)) ∧ Runs (addPropellers k i p n (hoverSegment n))) := by
  refine ⟨⟨?_, ?_⟩, ?_, ?_⟩ <;> cases k <;>
    simp [addPropellers, addBattery, cruiseSegment, hoverSegment, put, Square, Runs, total] <;> ring

/-- **C407.** Each point has one power coefficient for all propellers if they are identical, otherwise one for each; of the rest the
number of propellers changes nothing. -/
theorem C407_columns (k : BatteryKind) (p n : ℕ) :
    total (addPropellers k true p n (cruiseSegment n)).unknowns = total (addBattery k n (cruiseSegment n)).unknowns + n
      ∧ total (addPropellers k false p n (cruiseSegment n)).unknowns = total (addBattery k n (cruiseSegment n)).unknowns + p * n := by
  constructor <;> cases k <;> simp [addPropellers, addBattery, cruiseSegment, put, total, columns] <;> ring

/-- **C407.** A network put on a segment again leaves the unknowns and residuals as they are. -/
theorem C407_again (k : BatteryKind) (i : Bool) (p n : ℕ) :
    let w := addPropellers k i p n (cruiseSegment n)
    (addPropellers k i p n w).unknowns = w.unknowns ∧ (addPropellers k i p n w).residuals = w.residuals := by
  cases k <;> simp [addPropellers, addBattery, cruiseSegment, put]

/-- **C407.** Propellers that tilt on a transition. -/
theorem C407_tilting (k : BatteryKind) (i : Bool) (p n : ℕ) :
    Square (addTilting k i p n (transitionSegment n)) ∧ Runs (addTilting k i p n (transitionSegment n)) := by
  refine ⟨?_, ?_⟩ <;> cases k <;>
    simp [addTilting, addBattery, transitionSegment, put, Square, Runs, total] <;> ring

/-- **C407.** A lift-cruise network on a cruise or climb. -/
theorem C407_cruise (k : BatteryKind) (c : LiftCruise) (n : ℕ) :
    Square (addCruise k c n (cruiseSegment n)) ∧ Runs (addCruise k c n (cruiseSegment n)) := by
  refine ⟨?_, ?_⟩ <;> cases k <;>
    simp [addCruise, addBattery, cruiseSegment, put, Square, Runs, total] <;> ring

/-- **C407, partial.** On a hover it is square; every unknown is there if the user has the segment not unpack its own. -/
theorem C407_lift_partial (k : BatteryKind) (c : LiftCruise) (n : ℕ) (hc : c.identicalProps = true) :
    ∃ w, addLift k c n { hoverSegment n with mission := [] } = some w ∧ Square w ∧ Runs w := by
  cases k <;>
    refine ⟨_, by simp only [addLift, addBattery, hoverSegment, put, drop, hc]; rfl, ?_, ?_⟩ <;>
    simp [put, Square, Runs, total] <;> ring

/-- **C407, partial.** On a transition likewise, if the user adds a throttle too. -/
theorem C407_transition_partial (k : BatteryKind) (c : LiftCruise) (n : ℕ) :
    Square (addTransition k c n { transitionSegment n with unknowns := [("throttle", n)], mission := [] })
      ∧ Runs (addTransition k c n { transitionSegment n with unknowns := [("throttle", n)], mission := [] }) := by
  refine ⟨?_, ?_⟩ <;> cases k <;>
    simp [addTransition, addBattery, transitionSegment, put, Square, Runs, total] <;> ring

/-- **C407, false of the code.** As it comes, a transition with a lift-cruise network lacks unknowns that are read, and has too few for its residuals. -/
theorem C407_transition_counterexample (k : BatteryKind) (c : LiftCruise) (n : ℕ) (hn : 0 < n) :
    ¬ Runs (addTransition k c n (transitionSegment n)) ∧ total (addTransition k c n (transitionSegment n)).unknowns + n
      = total (addTransition k c n (transitionSegment n)).residuals ∧ ¬ Square (addTransition k c n (transitionSegment n)) := by
  have h : total (addTransition k c n (transitionSegment n)).unknowns + n = total (addTransition k c n (transitionSegment n)).residuals := by
    cases k <;> simp [addTransition, addBattery, transitionSegment, put, total] <;> ring
  refine ⟨?_, h, fun hs => ?_⟩
  · cases k <;> simp [addTransition, addBattery, transitionSegment, put, Runs]
  · unfold Square at hs
    omega

/-- **C407, false of the code.** A hover as it comes reads the throttle that the lift-cruise network has taken away. -/
theorem C407_hover_counterexample (k : BatteryKind) (c : LiftCruise) (n : ℕ) (w : Wired) (h : addLift k c n (hoverSegment n) = some w) : ¬ Runs w := by
  have hc : c.identicalProps = true := by
    by_contra hc
    rw [Bool.not_eq_true] at hc
    cases k <;> simp [addLift, hc] at h
  cases k <;> simp [addLift, addBattery, hoverSegment, put, drop, hc] at h <;> subst h <;> simp [Runs]

/-- **C407, false of the code.** With propellers that differ from each other, no hover can be set up at all. -/
theorem C407_distinct_counterexample (k : BatteryKind) (c : LiftCruise) (n : ℕ) (w : Wired) (hc : c.identicalProps = false) : addLift k c n w = none := by
  unfold addLift
  simp [hc]

/-- **C407, false of the code.** Motors and propellers that do not match in number are never reported. -/
theorem C407_mismatch_counterexample (p m e : ℕ) : mismatchRaises p m e = false := by
  unfold mismatchRaises
  split_ifs <;> simp

/-- A transition of eight points with six propellers that differ and the voltage of the battery: 8 · (1 + 6 + 1 + 1) unknowns. -/
example : total (addTilting .simple false 6 8 (transitionSegment 8)).unknowns = 72 := by
  simp [addTilting, addBattery, transitionSegment, put, total, columns]

example : (addLift .nmc ⟨1, 12, true, true⟩ 4 (hoverSegment 4)).isSome = true := rfl

end Verif.Energy
