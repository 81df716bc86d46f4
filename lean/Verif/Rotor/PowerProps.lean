import Verif.Rotor.BladeProps
import Mathlib.LinearAlgebra.Matrix.NonsingularInverse
import Mathlib.Tactic.FinCases

/-! Totals of the power balance, coefficients, orientation, section and tip loss of rotors (C183-C187). -/

namespace Verif.Rotor
open Real

/-! ### C183: power balance of the whole rotor -/

/-- What station `i` sees in axial flight (`C181_axial`). -/
noncomputable def axialSeen (V ω : ℝ) (r : ℕ → ℝ) (i : ℕ) : Seen :=
  ⟨V, ω * r i, sqrt (V ^ 2 + (ω * r i) ^ 2)⟩

theorem axialSeen_speed (V ω : ℝ) (r : ℕ → ℝ) (i : ℕ) :
    (axialSeen V ω r i).U ^ 2 = (axialSeen V ω r i).Ua ^ 2 + (axialSeen V ω r i).Ut ^ 2 := by
  simp only [axialSeen]
  rw [sq_sqrt (by positivity)]

/-- The one-dimensional analysis is the axial flight of the following theorems. -/
theorem C183_axial_flight (f : Flow) (rows : List Flow) (ω : ℝ) (r : ℕ → ℝ) (Na : ℕ) :
    ∃ s, seen rows f false false none ω r Na = some (false, s) ∧ ∀ i j, s i j = axialSeen (axial f) ω r i := by
  refine ⟨_, by simp [seen, crossUsed]; rfl, fun i j => ?_⟩
  simp only [axialSeen]
  congr 2
  ring

/-- Loads of station `i` for the wake parameters `ψ`. -/
noncomputable def stationLoad (ρ V ω : ℝ) (r c Cl Cd ψ : ℕ → ℝ) (i : ℕ) : Load :=
  load ρ (c i) (r i) (wake (axialSeen V ω r i) (ψ i)).1 (wake (axialSeen V ω r i) (ψ i)).2 (Cl i) (Cd i)

/-- Drag of the section of station `i` times its speed, per unit of radius. -/
noncomputable def profileLoss (ρ V ω : ℝ) (r c Cd ψ : ℕ → ℝ) (i : ℕ) : ℝ :=
  let w := wake (axialSeen V ω r i) (ψ i)
  0.5 * ρ * sqrt (w.1 * w.1 + w.2 * w.2) ^ 3 * c i * Cd i

/-- Force of the circulation times the induced velocity, per unit of radius. -/
noncomputable def inducedLoss (ρ V ω : ℝ) (r c Cl ψ : ℕ → ℝ) (i : ℕ) : ℝ :=
  let w := wake (axialSeen V ω r i) (ψ i)
  let v := induced (axialSeen V ω r i) (ψ i)
  ρ * bladeGamma w.1 w.2 (c i) (Cl i) * (v.2 * w.1 + v.1 * w.2)

/-- Shaft power of the rotor = speed times thrust + profile losses + induced losses, whatever the wake parameters. -/
theorem C183_balance (B ρ V ω : ℝ) (n Na : ℕ) (r c Cl Cd ψ : ℕ → ℝ) (hCl : ∀ i < n, Cl i ≠ 0) :
    ω * total false B n Na r (fun i _ => (stationLoad ρ V ω r c Cl Cd ψ i).dQ) =
      V * total false B n Na r (fun i _ => (stationLoad ρ V ω r c Cl Cd ψ i).dT)
      + total false B n Na r (fun i _ => profileLoss ρ V ω r c Cd ψ i)
      + total false B n Na r (fun i _ => inducedLoss ρ V ω r c Cl ψ i) := by
  unfold total
  simp only [Bool.false_eq_true, if_false]
  have key : ∑ i ∈ Finset.range n, ω * ((stationLoad ρ V ω r c Cl Cd ψ i).dQ * deltar n r i) =
      ∑ i ∈ Finset.range n, (V * ((stationLoad ρ V ω r c Cl Cd ψ i).dT * deltar n r i)
        + profileLoss ρ V ω r c Cd ψ i * deltar n r i + inducedLoss ρ V ω r c Cl ψ i * deltar n r i) := by
    apply Finset.sum_congr rfl
    intro i hi
    have h := C183_station ρ V ω (r i) (c i) (Cl i) (Cd i) (hCl i (Finset.mem_range.1 hi)) (ψ i) (axialSeen V ω r i)
      ⟨rfl, rfl⟩ (axialSeen_speed V ω r i)
    unfold stationLoad profileLoss inducedLoss
    linear_combination (deltar n r i) * h
  rw [Finset.sum_add_distrib, Finset.sum_add_distrib, ← Finset.mul_sum, ← Finset.mul_sum] at key
  linear_combination B * key

theorem deltar_nonneg (n : ℕ) (hn : 2 ≤ n) (r : ℕ → ℝ) (hr : ∀ i, i + 1 < n → r i ≤ r (i + 1)) (i : ℕ) (hi : i < n) :
    0 ≤ deltar n r i := by
  unfold deltar
  split_ifs with h1 h2
  · linarith [hr 0 (by omega)]
  · have := hr (n - 2) (by omega)
    rw [show n - 2 + 1 = n - 1 by omega] at this
    linarith
  · have ha := hr (i - 1) (by omega)
    rw [show i - 1 + 1 = i by omega] at ha
    linarith [hr i (by omega)]

/-- A loaded rotor in forward flight (inductions and flow at the disc not reversed, non-negative lift and drag) needs at
least the propulsive power; its efficiency is at most one. -/
theorem C183_efficiency (B ρ V ω R Rh th H0 : ℝ) (n Na : ℕ) (hn : 2 ≤ n) (r c Cl Cd ψ : ℕ → ℝ) (hB : 0 ≤ B) (hρ : 0 ≤ ρ)
    (hω : ω ≠ 0) (hr : ∀ i, i + 1 < n → r i ≤ r (i + 1))
    (hs : ∀ i < n, 0 ≤ c i ∧ 0 < Cl i ∧ 0 ≤ Cd i ∧ 0 ≤ (wake (axialSeen V ω r i) (ψ i)).1 ∧
      0 ≤ (wake (axialSeen V ω r i) (ψ i)).2 ∧ 0 ≤ (induced (axialSeen V ω r i) (ψ i)).1 ∧
      0 ≤ (induced (axialSeen V ω r i) (ψ i)).2) :
    let T0 := total false B n Na r (fun i _ => (stationLoad ρ V ω r c Cl Cd ψ i).dT)
    let Q0 := total false B n Na r (fun i _ => (stationLoad ρ V ω r c Cl Cd ψ i).dQ)
    V * T0 ≤ ω * Q0 ∧ (0 < ω * Q0 → (report ρ V ω R Rh th T0 Q0 H0).etap ≤ 1) := by
  intro T0 Q0
  have hb := C183_balance B ρ V ω n Na r c Cl Cd ψ fun i hi => (hs i hi).2.1.ne'
  have hpos : ∀ f : ℕ → ℝ, (∀ i < n, 0 ≤ f i) → 0 ≤ total false B n Na r fun i _ => f i := by
    intro f hf
    unfold total
    simp only [Bool.false_eq_true, if_false]
    apply mul_nonneg hB
    apply Finset.sum_nonneg
    intro i hi
    have hi := Finset.mem_range.1 hi
    exact mul_nonneg (hf i hi) (deltar_nonneg n hn r hr i hi)
  have h1 : 0 ≤ total false B n Na r fun i _ => profileLoss ρ V ω r c Cd ψ i := by
    apply hpos
    intro i hi
    obtain ⟨hc, -, hd, -⟩ := hs i hi
    unfold profileLoss
    positivity
  have h2 : 0 ≤ total false B n Na r fun i _ => inducedLoss ρ V ω r c Cl ψ i := by
    apply hpos
    intro i hi
    obtain ⟨hc, hl, -, ha, ht, hva, hvt⟩ := hs i hi
    unfold inducedLoss bladeGamma
    positivity
  have hmain : V * T0 ≤ ω * Q0 := by
    show V * total false B n Na r (fun i _ => (stationLoad ρ V ω r c Cl Cd ψ i).dT) ≤
      ω * total false B n Na r (fun i _ => (stationLoad ρ V ω r c Cl Cd ψ i).dQ)
    rw [hb]
    linarith
  refine ⟨hmain, fun hP => ?_⟩
  simp only [report, if_neg hω]
  exact (div_le_one hP).2 hmain

/-- One station of a rotor at 3 m/s axial and 4 m/s tangential speed: the hypotheses hold, with losses. -/
example : 0 < (induced (axialSeen 3 4 (fun _ => 1) 0) (π / 2)).1 ∧ 0 < (induced (axialSeen 3 4 (fun _ => 1) 0) (π / 2)).2 ∧
    0 < (wake (axialSeen 3 4 (fun _ => 1) 0) (π / 2)).1 ∧ 0 < (wake (axialSeen 3 4 (fun _ => 1) 0) (π / 2)).2 := by
  have h5 : sqrt ((3 : ℝ) ^ 2 + (4 * 1) ^ 2) = 5 := by
    rw [show (3 : ℝ) ^ 2 + (4 * 1) ^ 2 = 5 ^ 2 by norm_num]
    exact sqrt_sq (by norm_num)
  simp only [induced, wake, axialSeen, h5, sin_pi_div_two, cos_pi_div_two]
  norm_num

/-! ### C184: coefficients, efficiency and switched-off rotors -/

/-- The definitions of propeller coefficients, with revolutions per second `n` and diameter `D`. -/
structure Coefficients (ρ n D thrust torque power V Ct Cq Cp eta : ℝ) : Prop where
  thrust_eq : thrust = Ct * ρ * n ^ 2 * D ^ 4
  torque_eq : torque = Cq * ρ * n ^ 2 * D ^ 5
  power_eq : power = Cp * ρ * n ^ 3 * D ^ 5
  efficiency : eta * power = V * thrust

/-- A running rotor that produces thrust and takes power: what is reported fits together.  Missing from the full claim: zero
throttle, reversed rotation, and negative thrust or torque (see the counterexamples). -/
theorem C184_coefficients_partial (ρ V ω R Rh th T0 Q0 H0 : ℝ) (hρ : 0 < ρ) (hω : 0 < ω) (hR : 0 < R) (ht : 0 < th)
    (hT : 0 ≤ T0) (hQ : 0 < Q0) :
    let o := report ρ V ω R Rh th T0 Q0 H0
    Coefficients ρ (ω / (2 * π)) (2 * R) o.thrust o.torque o.power V o.Ct o.Cq o.Cp o.etap ∧
      o.power = ω * o.torque ∧ o.Cp = 2 * π * o.Cq := by
  have hπ := pi_pos
  have h1 : ¬ T0 / (ρ * (ω / (2 * π) * (ω / (2 * π))) * (2 * R * (2 * R) * (2 * R) * (2 * R))) < 0 := by
    push Not; positivity
  have h2 : ¬ Q0 / (ρ * (ω / (2 * π) * (ω / (2 * π))) * (2 * R * (2 * R) * (2 * R) * (2 * R) * (2 * R))) < 0 := by
    push Not; positivity
  have h3 : ¬ ω * Q0 / (ρ * (ω / (2 * π) * (ω / (2 * π)) * (ω / (2 * π))) *
      (2 * R * (2 * R) * (2 * R) * (2 * R) * (2 * R))) < 0 := by
    push Not; positivity
  simp only [report, if_neg hω.ne', if_neg (not_lt.2 hω.le), if_neg (not_le.2 ht), if_neg h1, if_neg h2, if_neg h3]
  refine ⟨⟨?_, ?_, ?_, ?_⟩, trivial, ?_⟩ <;> field_simp

/-- The in-plane force of a running rotor belongs to its coefficient, whatever the signs. -/
theorem C184_drag (ρ V ω R Rh th T0 Q0 H0 : ℝ) (hρ : 0 < ρ) (hω : ω ≠ 0) (hR : 0 < R) (ht : 0 < th) :
    let o := report ρ V ω R Rh th T0 Q0 H0
    o.drag = o.Crd * ρ * (ω / (2 * π)) ^ 2 * (2 * R) ^ 4 ∧ o.drag = H0 := by
  have hπ := pi_pos
  simp only [report, if_neg hω, if_neg (not_le.2 ht), and_true]
  field_simp

/-- At zero throttle forces and power are zero and stay consistent with the shaft, whatever the blades would do. -/
theorem C184_zero_throttle (ρ V ω R Rh th T0 Q0 H0 : ℝ) (ht : th ≤ 0) :
    let o := report ρ V ω R Rh th T0 Q0 H0
    o.thrust = 0 ∧ o.torque = 0 ∧ o.power = 0 ∧ o.drag = 0 := by
  simp [report, ht]

/-- A rotor that stands still reports zeros, whatever its blades would do. -/
theorem C184_stopped (ρ V R Rh th T0 Q0 H0 : ℝ) :
    let o := report ρ V 0 R Rh th T0 Q0 H0
    o.thrust = 0 ∧ o.torque = 0 ∧ o.power = 0 ∧ o.drag = 0 ∧ o.Ct = 0 ∧ o.Cp = 0 ∧ o.etap = 0 := by
  simp [report]

/-- At zero throttle the coefficients and the efficiency are still those of the blades: the reported thrust coefficient does
not belong to the reported thrust. -/
theorem C184_coefficients_counterexample :
    ¬ ∀ (ρ V ω R Rh th T0 Q0 H0 : ℝ), 0 < ρ → 0 < ω → 0 < R → 0 ≤ T0 → 0 < Q0 →
      let o := report ρ V ω R Rh th T0 Q0 H0
      o.thrust = o.Ct * ρ * (ω / (2 * π)) ^ 2 * (2 * R) ^ 4 := by
  intro H
  have h := H 1 1 1 1 0 0 1 1 0 (by norm_num) (by norm_num) (by norm_num) (by norm_num) (by norm_num)
  obtain ⟨h0, -⟩ := C184_zero_throttle 1 1 1 1 0 0 1 1 0 le_rfl
  simp only at h
  rw [h0] at h
  have hC : 0 < (report 1 1 1 1 0 0 1 1 0).Ct := by
    have : ¬ (1 : ℝ) / (1 * (1 / (2 * π) * (1 / (2 * π))) * (2 * 1 * (2 * 1) * (2 * 1) * (2 * 1))) < 0 := by
      push Not; positivity
    simp only [report, if_neg one_ne_zero, if_neg this]
    positivity
  have : 0 < (report 1 1 1 1 0 0 1 1 0).Ct * 1 * (1 / (2 * π)) ^ 2 * (2 * 1) ^ 4 := by positivity
  linarith

/-- A rotor turning backwards reports the opposite of the thrust of its blades, but the efficiency of the blades: thrust,
power and efficiency no longer fit. -/
theorem C184_reversed_counterexample :
    ¬ ∀ (ρ V ω R Rh th T0 Q0 H0 : ℝ), 0 < ρ → ω ≠ 0 → 0 < R → 0 < th → 0 < ω * Q0 →
      let o := report ρ V ω R Rh th T0 Q0 H0
      o.etap * o.power = V * o.thrust := by
  intro H
  have h := H 1 1 (-1) 1 0 1 1 (-1) 0 (by norm_num) (by norm_num) (by norm_num) (by norm_num) (by norm_num)
  norm_num [report] at h

/-- Advance ratio and coefficients give the efficiency; the figure of merit compares with the ideal power of momentum
theory. -/
theorem C184_efficiency (ρ V ω R Rh th T0 Q0 H0 : ℝ) (hρ : 0 < ρ) (hω : 0 < ω) (hR : 0 < R) (ht : 0 < th)
    (hT : 0 ≤ T0) (hQ : 0 < Q0) (hRh : 0 ≤ Rh ∧ Rh < R) :
    let o := report ρ V ω R Rh th T0 Q0 H0
    o.etap = V / (ω / (2 * π) * (2 * R)) * o.Ct / o.Cp ∧
      ∃ vi, 0 ≤ vi ∧ o.thrust = 2 * ρ * (π * (R ^ 2 - Rh ^ 2)) * vi ^ 2 ∧ o.FoM = o.thrust * vi / o.power := by
  intro o
  have hπ := pi_pos
  obtain ⟨⟨hct, -, hcp, he⟩, -, -⟩ := C184_coefficients_partial ρ V ω R Rh th T0 Q0 H0 hρ hω hR ht hT hQ
  have hP : 0 < o.power := by
    simp only [o, report, if_neg hω.ne', if_neg (not_le.2 ht)]; positivity
  have hTt : o.thrust = T0 := by
    simp only [o, report, if_neg hω.ne', if_neg (not_lt.2 hω.le), if_neg (not_le.2 ht)]
  have hPp : o.power = ω * Q0 := by
    simp only [o, report, if_neg hω.ne', if_neg (not_le.2 ht)]
  constructor
  · change o.thrust = o.Ct * ρ * (ω / (2 * π)) ^ 2 * (2 * R) ^ 4 at hct
    change o.power = o.Cp * ρ * (ω / (2 * π)) ^ 3 * (2 * R) ^ 5 at hcp
    change o.etap * o.power = V * o.thrust at he
    have hCp : o.Cp ≠ 0 := by
      intro h0
      rw [h0] at hcp
      simp at hcp
      exact hP.ne' hcp
    obtain ⟨m, hm⟩ : ∃ m, m = ω / (2 * π) := ⟨_, rfl⟩
    have hm0 : 0 < m := by rw [hm]; positivity
    rw [← hm] at hct hcp ⊢
    have e : o.etap = V * o.thrust / o.power := by rw [← he]; field_simp
    rw [e, hct, hcp]
    field_simp
  · have hA : 0 < π * (R ^ 2 - Rh ^ 2) := by
      apply mul_pos hπ
      nlinarith [hRh.1, hRh.2]
    refine ⟨sqrt (T0 / (2 * ρ * (π * (R ^ 2 - Rh ^ 2)))), sqrt_nonneg _, ?_, ?_⟩
    · obtain ⟨A, hAe⟩ : ∃ A, A = π * (R ^ 2 - Rh ^ 2) := ⟨_, rfl⟩
      rw [← hAe] at hA ⊢
      rw [sq_sqrt (by positivity), hTt]
      field_simp
    · rw [hTt, hPp]
      simp only [o, report]

example : (report 1 1 1 1 0 1 1 2 0).etap = 1 / 2 := by norm_num [report]

/-! ### C185: orientation -/

theorem rotY_mul (a b : ℝ) : rotY a * rotY b = rotY (a + b) := by
  unfold rotY
  rw [sin_add, cos_add]
  ext i j
  fin_cases i <;> fin_cases j <;> simp [Matrix.mul_apply, Fin.sum_univ_three] <;> ring

theorem rotY_two_pi (a : ℝ) : rotY (a + 2 * π) = rotY a := by
  unfold rotY
  rw [sin_add_two_pi, cos_add_two_pi]

theorem rotY_orth (a : ℝ) : (rotY a).transpose * rotY a = 1 := by
  have h := sin_sq_add_cos_sq a
  unfold rotY
  ext i j
  fin_cases i <;> fin_cases j <;> simp [Matrix.mul_apply, Fin.sum_univ_three, Matrix.transpose_apply] <;>
    first | linear_combination h | ring

theorem bodyToProp_orth (M : Matrix (Fin 3) (Fin 3) ℝ) (hM : M.transpose * M = 1) :
    (bodyToProp M).transpose * bodyToProp M = 1 := by
  unfold bodyToProp
  rw [Matrix.transpose_mul, Matrix.transpose_mul]
  calc (rotY π).transpose * (M.transpose * (rotY π).transpose) * (rotY π * M * rotY π)
      = (rotY π).transpose * (M.transpose * ((rotY π).transpose * rotY π) * M) * rotY π := by
        simp only [Matrix.mul_assoc]
    _ = 1 := by
        rw [rotY_orth, Matrix.mul_one, hM, Matrix.mul_one, rotY_orth]

/-- Force times velocity does not depend on the frame: the thrust vector times the velocity of the vehicle is the thrust
times the axial speed in the frame of the rotor, for every orientation. -/
theorem C185_power (M : Matrix (Fin 3) (Fin 3) ℝ) (T : ℝ) (v : Fin 3 → ℝ) :
    ∑ i, thrustVector M T i * v i = T * rotorVelocity M v 0 := by
  unfold thrustVector rotorVelocity
  simp [Matrix.mulVec, dotProduct, Fin.sum_univ_three, Matrix.transpose_apply]
  ring

/-- The thrust vector is as long as the thrust. -/
theorem C185_length (M : Matrix (Fin 3) (Fin 3) ℝ) (hM : M.transpose * M = 1) (T : ℝ) :
    ∑ i, thrustVector M T i ^ 2 = T ^ 2 := by
  have h := congrFun (congrFun (bodyToProp_orth M hM) 0) 0
  unfold thrustVector
  rw [Matrix.transpose_transpose]
  simp [Matrix.mul_apply, Fin.sum_univ_three, Matrix.transpose_apply] at h
  simp [Matrix.mulVec, dotProduct, Fin.sum_univ_three]
  linear_combination T ^ 2 * h

/-- The speed of the rotor is the speed of the vehicle. -/
theorem C185_speed (M : Matrix (Fin 3) (Fin 3) ℝ) (hM : M.transpose * M = 1) (v : Fin 3 → ℝ) :
    ∑ i, rotorVelocity M v i ^ 2 = ∑ i, v i ^ 2 := by
  have h := bodyToProp_orth M hM
  have h' : bodyToProp M * (bodyToProp M).transpose = 1 := mul_eq_one_comm.1 h
  have e : ∀ w : Fin 3 → ℝ, ∑ i, w i ^ 2 = dotProduct w w := by
    intro w; simp [dotProduct, pow_two]
  rw [e, e]
  unfold rotorVelocity
  rw [Matrix.dotProduct_mulVec, Matrix.vecMul_transpose, Matrix.mulVec_mulVec, h', Matrix.one_mulVec]

/-- A rotor tilted by `θ` about the y axis (body axes: x forward, z down) pushes forward with `cos θ` and up with `sin θ` of
its thrust. -/
theorem C185_tilt (θ T : ℝ) : thrustVector (rotY θ) T = ![T * cos θ, 0, -(T * sin θ)] := by
  unfold thrustVector bodyToProp
  rw [rotY_mul, rotY_mul, Matrix.transpose_transpose, show π + θ + π = θ + 2 * π by ring, rotY_two_pi]
  ext i
  fin_cases i <;> simp [rotY, Matrix.mulVec, dotProduct, Fin.sum_univ_three] <;> ring

/-- Propellers push forward, lift rotors (90 degrees) up. -/
theorem C185_default (T : ℝ) : thrustVector (rotY 0) T = ![T, 0, 0] ∧ thrustVector (rotY (π / 2)) T = ![0, 0, -T] := by
  rw [C185_tilt, C185_tilt]
  simp

example : (rotY 1).transpose * rotY 1 = 1 := rotY_orth 1

end Verif.Rotor
