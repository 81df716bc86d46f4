import Verif.Rotor.Single
import Verif.Rotor.OrientationProps
import Verif.Rotor.PowerProps

/-!
C445 one operating point of a propeller.
-/

namespace Verif.Rotor
open Real

variable (atm : ℝ → ℝ → SingleAir) (blade : SingleAir → ℝ → ℝ → (Fin 3 → ℝ) → ℝ × ℝ × ℝ)

/-- **C445, efficiency.** For every orientation of the rotor the reported efficiency is reported thrust times speed over reported
power, whenever the speed has a component along the axis. -/
theorem C445_efficiency (s : SingleRotor) (q : Asked) (hω : 0 < q.omega) (hv : s.flow q.speed 0 ≠ 0)
    (hP : (single atm blade s q).2.power ≠ 0) :
    (single atm blade s q).2.efficiency * (single atm blade s q).2.power = (single atm blade s q).2.thrust * q.speed := by
  have h0 : q.omega ≠ 0 := hω.ne'
  have h1 : ¬ q.omega < 0 := not_lt.2 hω.le
  have h2 : ¬ (1 : ℝ) ≤ 0 := by norm_num
  simp only [single, report, axial, hv, h0, h1, h2, if_false] at hP ⊢
  generalize blade (atm q.altitude q.disa) q.pitch q.omega (s.flow q.speed) = t at *
  rw [div_mul_cancel₀ _ hP]
  have hb : ∑ i, thrustVector (rotvec (rotorAngles s.angles s.tilt)) t.1 i * (![q.speed, 0, 0] : Fin 3 → ℝ) i
      = t.1 * s.flow q.speed 0 := C185_power _ _ _
  rw [Fin.sum_univ_three] at hb
  simp only [Matrix.cons_val_zero, Matrix.cons_val_one, Matrix.cons_val, mul_zero, add_zero] at hb
  linarith

/-- **C445 for a propeller along the body.** Thrust, torque and power are those of the blades in an axial flow of the given speed. -/
theorem C445_aligned_partial (s : SingleRotor) (q : Asked) (ha : s.angles = ![0, 0, 0]) (ht : s.tilt = 0) (hω : 0 < q.omega) :
    s.flow q.speed = ![q.speed, 0, 0]
    ∧ (let t := blade (atm q.altitude q.disa) q.pitch q.omega ![q.speed, 0, 0]
       (single atm blade s q).2.thrust = t.1 ∧ (single atm blade s q).2.torque = t.2.1
        ∧ (single atm blade s q).2.power = q.omega * t.2.1) := by
  have hr : rotvec (rotorAngles s.angles s.tilt) = rotY 0 := by
    have e : rotorAngles s.angles s.tilt = ![0, 0, 0] := by rw [ha, ht]; simp [rotorAngles]
    rw [e, (C416_single_axis 0).2.1]; rfl
  have hf : s.flow q.speed = ![q.speed, 0, 0] := by
    unfold SingleRotor.flow rotorVelocity bodyToProp
    rw [hr]
    ext i
    fin_cases i <;> simp [rotY, Matrix.mulVec, dotProduct, Fin.sum_univ_three, Matrix.mul_apply]
  refine ⟨hf, ?_⟩
  have h0 : q.omega ≠ 0 := hω.ne'
  have h1 : ¬ q.omega < 0 := not_lt.2 hω.le
  have h2 : ¬ (1 : ℝ) ≤ 0 := by norm_num
  simp only [single, report, hf, hr, h0, h1, h2, if_false, (C185_default _).1, Matrix.cons_val_zero, and_self]

example : ∃ (s : SingleRotor) (q : Asked), s.angles = ![0, 0, 0] ∧ s.tilt = 0 ∧ 0 < q.omega :=
  ⟨⟨![0, 0, 0], 0, 1, 0.1, 0, 0, false⟩, ⟨0, 200, 0, 0, 30⟩, rfl, rfl, by norm_num⟩

/-- A rotor to which C445_efficiency applies. -/
example : ∃ (atm : ℝ → ℝ → SingleAir) (blade : SingleAir → ℝ → ℝ → (Fin 3 → ℝ) → ℝ × ℝ × ℝ) (s : SingleRotor) (q : Asked),
    0 < q.omega ∧ s.flow q.speed 0 ≠ 0 ∧ (single atm blade s q).2.power ≠ 0 := by
  let s : SingleRotor := ⟨![0, 0, 0], 0, 1, 0.1, 0, 0, false⟩
  let q : Asked := ⟨0, 200, 0, 0, 30⟩
  have h := C445_aligned_partial (fun _ _ => ⟨288, 340, 1.2, 1.8e-5⟩) (fun _ _ _ _ => (100, 20, 0)) s q rfl rfl (by norm_num [q])
  refine ⟨fun _ _ => ⟨288, 340, 1.2, 1.8e-5⟩, fun _ _ _ _ => (100, 20, 0), s, q, by norm_num [q], ?_, ?_⟩
  · rw [h.1]; norm_num [q]
  · rw [h.2.2.2]; norm_num [q]

/-- **C445 fails for a lift rotor.** A rotor with its axis upwards is reported to have no thrust, whatever its blades give. -/
theorem C445_lift_counterexample (s : SingleRotor) (q : Asked) (ha : s.angles = ![0, π / 2, 0]) (ht : s.tilt = 0) :
    (single atm blade s q).2.thrust = 0 := by
  have hr : rotvec (rotorAngles s.angles s.tilt) = rotY (π / 2) := by
    have e : rotorAngles s.angles s.tilt = ![0, π / 2, 0] := by rw [ha, ht]; simp [rotorAngles]
    rw [e, (C416_single_axis (π / 2)).2.1]; rfl
  simp only [single, hr, (C185_default _).2, Matrix.cons_val_zero]

/-- **C445, tilted.** A rotor tilted by `θ` is reported with `cos θ` times its thrust, in a flow with `cos θ` times the speed along
the axis. -/
theorem C445_tilted (s : SingleRotor) (q : Asked) (θ : ℝ) (ha : s.angles = ![0, θ, 0]) (ht : s.tilt = 0) (hω : 0 < q.omega) :
    s.flow q.speed 0 = q.speed * cos θ
    ∧ (single atm blade s q).2.thrust = (blade (atm q.altitude q.disa) q.pitch q.omega (s.flow q.speed)).1 * cos θ := by
  have hr : rotvec (rotorAngles s.angles s.tilt) = rotY θ := by
    have e : rotorAngles s.angles s.tilt = ![0, θ, 0] := by rw [ha, ht]; simp [rotorAngles]
    rw [e, (C416_single_axis θ).2.1]; rfl
  have h0 : q.omega ≠ 0 := hω.ne'
  have h1 : ¬ q.omega < 0 := not_lt.2 hω.le
  have h2 : ¬ (1 : ℝ) ≤ 0 := by norm_num
  constructor
  · unfold SingleRotor.flow rotorVelocity bodyToProp
    rw [hr]
    simp [rotY, Matrix.mulVec, dotProduct, Fin.sum_univ_three, Matrix.mul_apply]
    ring
  · simp only [single, report, hr, h0, h1, h2, if_false, C185_tilt, Matrix.cons_val_zero]

/-- **C445, repeated calls.** The results of a call are those of a first call: earlier calls with other pitch, speed or altitude leave
no trace in them. -/
theorem C445_repeat (s : SingleRotor) (qs : List Asked) :
    (singles atm blade s qs).2 = qs.map fun q => (single atm blade s q).2 := by
  have h : ∀ (qs : List Asked) (s s' : SingleRotor), s.angles = s'.angles → s.tilt = s'.tilt → s.R = s'.R → s.Rh = s'.Rh →
      (singles atm blade s qs).2 = qs.map fun q => (single atm blade s' q).2 := by
    intro qs
    induction qs with
    | nil => intros; rfl
    | cons q qs ih =>
      intro s s' h1 h2 h3 h4
      have e : (single atm blade s q).2 = (single atm blade s' q).2 := by
        simp only [single, SingleRotor.flow, h1, h2, h3, h4]
      have := ih (single atm blade s q).1 s' h1 h2 h3 h4
      simp only [singles, List.map_cons, this, e]
  exact h qs s s rfl rfl rfl rfl

/-- **C445, the rotor afterwards.** It is left a variable pitch rotor exactly when it was one or a pitch other than zero was asked for in
some call; the pitch and rotation speed are those of the last call. -/
theorem C445_rotor (s : SingleRotor) (qs : List Asked) (q : Asked) :
    ((singles atm blade s (qs ++ [q])).1.varies = true ↔ s.varies = true ∨ ∃ a ∈ qs ++ [q], a.pitch ≠ 0)
    ∧ (singles atm blade s (qs ++ [q])).1.pitch = q.pitch ∧ (singles atm blade s (qs ++ [q])).1.omega = q.omega := by
  induction qs generalizing s with
  | nil => simp [singles, single]
  | cons a qs ih =>
    obtain ⟨h1, h2, h3⟩ := ih (single atm blade s a).1
    refine ⟨?_, h2, h3⟩
    simp only [List.cons_append, singles, h1]
    simp only [single, Bool.or_eq_true, decide_eq_true_eq, List.mem_cons]
    constructor
    · rintro ((h | h) | ⟨b, hb, h⟩)
      · exact .inl h
      · exact .inr ⟨a, .inl rfl, h⟩
      · exact .inr ⟨b, .inr hb, h⟩
    · rintro (h | ⟨b, rfl | hb, h⟩)
      · exact .inl (.inl h)
      · exact .inl (.inr h)
      · exact .inr ⟨b, hb, h⟩

end Verif.Rotor
