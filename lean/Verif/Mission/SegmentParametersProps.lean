import Verif.Mission.SegmentParameters
import Mathlib.Tactic.Common

/-! C465: parameters of segments. -/

namespace Verif.Mission.SegmentParameters

theorem mapM_found {V : Type} (p : String → Prop) [DecidablePred p] (v : String → V) (l : List String) (h : ∀ r ∈ l, p r) :
    (l.mapM fun r => if p r then some (v r) else none) = some (l.map v) := by
  induction l with
  | nil => rfl
  | cons a t ih =>
    rw [List.mapM_cons, if_pos (h a (by simp)), ih (fun r hr => h r (by simp [hr]))]
    rfl

theorem mapM_lost {V : Type} (p : String → Prop) [DecidablePred p] (v : String → V) (l : List String) (r : String) (hr : r ∈ l) (h : ¬p r) :
    (l.mapM fun r => if p r then some (v r) else none) = none := by
  induction l with
  | nil => simp at hr
  | cons a t ih =>
    rw [List.mapM_cons]
    rcases List.mem_cons.mp hr with rfl | hr
    · rw [if_neg h]; rfl
    · rw [ih hr]; by_cases ha : p a <;> simp [ha]

/-- The parameters read by all kinds but one are parameters with defaults. -/
theorem reads_documented : ∀ k ∈ kinds, k.name ≠ "Descent.Constant_CAS_Constant_Rate" → ∀ r ∈ k.reads, r ∈ k.params := by
  decide

/-- C465 in part: a segment of any kind but descent at calibrated airspeed starts with its defaults, and with any values given to its
parameters and any attributes added it starts from exactly these values. Missing: that descent (`C465_descent_counterexample`). -/
theorem C465_values_partial {V : Type} (k : Kind) (hk : k ∈ kinds) (hn : k.name ≠ "Descent.Constant_CAS_Constant_Rate") (added : List String)
    (v : String → V) : initialise k added v = some (k.reads.map v) :=
  mapM_found _ v k.reads fun r hr => Or.inl (reads_documented k hk hn r hr)

/-- Every parameter read counts: other values of one of them are other starting values. -/
theorem C465_counts_partial {V : Type} (k : Kind) (hk : k ∈ kinds) (hn : k.name ≠ "Descent.Constant_CAS_Constant_Rate") (added : List String)
    (v w : String → V) (r : String) (hr : r ∈ k.reads) (h : v r ≠ w r) : initialise k added v ≠ initialise k added w := by
  rw [C465_values_partial k hk hn, C465_values_partial k hk hn]
  intro he
  simp only [Option.some.injEq] at he
  exact h (List.map_inj_left.mp he r hr)

example : initialise climbConstantSpeedConstantRate [] (fun _ => (1 : ℕ)) = some [1, 1, 1, 1] :=
  C465_values_partial climbConstantSpeedConstantRate (by simp [kinds]) (by decide) [] _

/-- Every kind reads a speed, a rate, a Mach number, a dynamic pressure, a throttle, a velocity or a time. -/
theorem C465_flight (k : Kind) (hk : k ∈ kinds) :
    ∃ r ∈ k.reads, r ∈ ["air_speed", "air_speed_start", "mach", "mach_number", "mach_start", "dynamic_pressure", "equivalent_air_speed",
      "calibrated_air_speed", "throttle", "velocity_start", "climb_rate", "descent_rate", "time", "pitch_rate"] := by
  revert k
  decide

/-- C465 fails for descents at calibrated airspeed: the default is named otherwise than what is read. The segment does not start with any
values of its parameters. -/
theorem C465_descent_counterexample {V : Type} (v : String → V) :
    descentConstantCASConstantRate ∈ kinds ∧ initialise descentConstantCASConstantRate [] v = none :=
  ⟨by simp [kinds], mapM_lost _ v _ "calibrated_air_speed" (by decide) (by decide)⟩

/-- With the other name added by the user it starts, and the speed given under the name of the default does not count. -/
theorem C465_ignored_counterexample {V : Type} (v : String → V) (added : List String) (h : "calibrated_air_speed" ∈ added) (c : V) :
    initialise descentConstantCASConstantRate added v = some (descentConstantCASConstantRate.reads.map v) ∧
      initialise descentConstantCASConstantRate added (fun r => if r = "calibrated_airspeed" then c else v r) =
        initialise descentConstantCASConstantRate added v := by
  have hall : ∀ r ∈ descentConstantCASConstantRate.reads, r ∈ descentConstantCASConstantRate.params ∨ r ∈ added := by
    intro r hr
    by_cases he : r = "calibrated_air_speed"
    · exact Or.inr (he ▸ h)
    · left
      revert he
      revert r
      decide
  have e := fun u : String → V => mapM_found (fun r => r ∈ descentConstantCASConstantRate.params ∨ r ∈ added) u _ hall
  refine ⟨e v, ?_⟩
  unfold initialise
  rw [e, e]
  congr 1

end Verif.Mission.SegmentParameters
