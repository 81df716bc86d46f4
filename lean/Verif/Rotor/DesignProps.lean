import Verif.Rotor.Wake
import Mathlib.Analysis.SpecialFunctions.Trigonometric.ArctanDeriv
import Mathlib.Tactic.Linarith
import Mathlib.Tactic.FieldSimp
import Mathlib.Tactic.Positivity
import Mathlib.Tactic.LinearCombination

/-! Propeller design (C190). -/

namespace Verif.Rotor
open Real

theorem thrust_back (ρ V R T : ℝ) (hρ : 0 < ρ) (hV : V ≠ 0) (hR : 0 < R) :
    2 * T / (ρ * (V * V) * π * (R * R)) * ρ * V ^ 2 * π * R ^ 2 / 2 = T := by
  have := pi_pos
  field_simp

/-- A thrust that the blade can deliver: the design delivers it, with the smaller of the two displacement velocities, and
the power of that displacement velocity. -/
theorem C190_thrust (ρ V R ω T : ℝ) (hρ : 0 < ρ) (hV : 0 < V) (hR : 0 < R) (hT : 0 < T) (q : Integrals) (h1 : 0 < q.I1)
    (h2 : 0 < q.I2) (hf : 2 * T / (ρ * V ^ 2 * π * R ^ 2) ≤ q.I1 ^ 2 / (4 * q.I2)) :
    ∃ d, design ρ V R ω (some T) none q = some d ∧ d.thrust = T ∧ d.designThrust = T ∧ d.designPower = d.power ∧
      0 < d.ζ ∧ d.ζ ≤ q.I1 / (2 * q.I2) ∧ q.I1 * d.ζ - q.I2 * d.ζ ^ 2 = 2 * T / (ρ * V ^ 2 * π * R ^ 2) ∧
      d.power = (q.J1 * d.ζ + q.J2 * d.ζ ^ 2) * (ρ * V ^ 3 * π * R ^ 2 / 2) := by
  have hπ := pi_pos
  obtain ⟨Tc, hTc⟩ : ∃ Tc, Tc = 2 * T / (ρ * (V * V) * π * (R * R)) := ⟨_, rfl⟩
  have eTc : 2 * T / (ρ * V ^ 2 * π * R ^ 2) = Tc := by rw [hTc, pow_two, pow_two]
  have hpos : 0 < Tc := by rw [hTc]; positivity
  rw [eTc] at hf ⊢
  have em : q.I2 * (q.I1 / (2 * q.I2)) ^ 2 = q.I1 ^ 2 / (4 * q.I2) := by field_simp; ring
  have hnew : (if Tc ≥ q.I2 * (q.I1 / (2 * q.I2)) ^ 2 then q.I2 * (q.I1 / (2 * q.I2)) ^ 2 else Tc) = Tc := by
    rw [em]
    split_ifs with h
    · exact le_antisymm h hf
    · rfl
  have hdisc : 0 ≤ (q.I1 / (2 * q.I2)) ^ 2 - Tc / q.I2 := by
    have : Tc / q.I2 ≤ q.I1 ^ 2 / (4 * q.I2) / q.I2 := div_le_div_of_nonneg_right hf h2.le
    have e : q.I1 ^ 2 / (4 * q.I2) / q.I2 = (q.I1 / (2 * q.I2)) ^ 2 := by field_simp; ring
    linarith
  obtain ⟨k, hk⟩ : ∃ k, k = sqrt ((q.I1 / (2 * q.I2)) ^ 2 - Tc / q.I2) := ⟨_, rfl⟩
  have hk2 : k ^ 2 = (q.I1 / (2 * q.I2)) ^ 2 - Tc / q.I2 := by rw [hk, sq_sqrt hdisc]
  have hk0 : 0 ≤ k := by rw [hk]; exact sqrt_nonneg _
  obtain ⟨m, hm⟩ : ∃ m, m = q.I1 / (2 * q.I2) := ⟨_, rfl⟩
  have hm0 : 0 < m := by rw [hm]; positivity
  have hI1 : q.I1 = 2 * q.I2 * m := by rw [hm]; field_simp
  have hroot : q.I1 * (m - k) - q.I2 * (m - k) ^ 2 = Tc := by
    rw [← hm] at hk2
    have : Tc = q.I2 * (m ^ 2 - k ^ 2) := by rw [hk2]; field_simp; ring
    rw [this, hI1]; ring
  have hlt : k < m := by
    have : k ^ 2 < m ^ 2 := by
      rw [hk2, ← hm]
      have : 0 < Tc / q.I2 := by positivity
      linarith
    exact lt_of_pow_lt_pow_left₀ 2 hm0.le this
  rw [← hm] at hnew hk
  simp only [design, if_neg hV.ne', ← hTc, if_neg hpos.ne', ← hm, hnew, ← hk]
  refine ⟨_, rfl, ?_, rfl, rfl, ?_, ?_, hroot, ?_⟩
  · simp only
    rw [hroot, hTc]
    exact thrust_back ρ V R T hρ hV.ne' hR
  · simp only; linarith
  · simp only; linarith
  · simp only; ring

/-- A given power is met exactly, with a positive displacement velocity. -/
theorem C190_power (ρ V R ω P : ℝ) (hρ : 0 < ρ) (hV : 0 < V) (hR : 0 < R) (hP : 0 < P) (q : Integrals) (h1 : 0 ≤ q.J1)
    (h2 : 0 < q.J2) :
    ∃ d, design ρ V R ω none (some P) q = some d ∧ d.power = P ∧ d.designPower = P ∧ d.designThrust = d.thrust ∧ 0 < d.ζ ∧
      d.thrust = (q.I1 * d.ζ - q.I2 * d.ζ ^ 2) * (ρ * V ^ 2 * π * R ^ 2 / 2) := by
  have hπ := pi_pos
  obtain ⟨Pc, hPc⟩ : ∃ Pc, Pc = 2 * P / (ρ * (V * V * V) * π * (R * R)) := ⟨_, rfl⟩
  have hpos : 0 < Pc := by rw [hPc]; positivity
  obtain ⟨m, hm⟩ : ∃ m, m = q.J1 / (2 * q.J2) := ⟨_, rfl⟩
  have hm0 : 0 ≤ m := by rw [hm]; positivity
  have hJ1 : q.J1 = 2 * q.J2 * m := by rw [hm]; field_simp
  have hdisc : 0 ≤ m ^ 2 + Pc / q.J2 := by positivity
  obtain ⟨k, hk⟩ : ∃ k, k = sqrt (m ^ 2 + Pc / q.J2) := ⟨_, rfl⟩
  have hk2 : k ^ 2 = m ^ 2 + Pc / q.J2 := by rw [hk, sq_sqrt hdisc]
  have hk0 : 0 ≤ k := by rw [hk]; exact sqrt_nonneg _
  have hroot : q.J1 * (-m + k) + q.J2 * (-m + k) ^ 2 = Pc := by
    have : Pc = q.J2 * (k ^ 2 - m ^ 2) := by rw [hk2]; field_simp; ring
    rw [this, hJ1]; ring
  have hlt : m < k := by
    have : m ^ 2 < k ^ 2 := by
      rw [hk2]
      have : 0 < Pc / q.J2 := by positivity
      linarith
    exact lt_of_pow_lt_pow_left₀ 2 hk0 this
  simp only [design, if_neg hV.ne', ← hPc, if_neg hpos.ne', ← hm, ← hk]
  refine ⟨_, rfl, ?_, rfl, rfl, ?_, ?_⟩
  · simp only [Bool.false_eq_true, if_false]
    rw [hroot, hPc]
    field_simp
  · simp only; linarith
  · simp only; ring

/-- A thrust beyond the reach of the blade is replaced by the largest one. -/
theorem C190_infeasible (ρ V R ω T : ℝ) (hρ : 0 < ρ) (hV : 0 < V) (hR : 0 < R) (hT : 0 < T) (q : Integrals) (h2 : 0 < q.I2)
    (hf : q.I1 ^ 2 / (4 * q.I2) ≤ 2 * T / (ρ * V ^ 2 * π * R ^ 2)) :
    ∃ d, design ρ V R ω (some T) none q = some d ∧ d.thrust ≤ T ∧
      ∀ ζ : ℝ, (q.I1 * ζ - q.I2 * ζ ^ 2) * (ρ * V ^ 2 * π * R ^ 2 / 2) ≤ d.thrust := by
  have hπ := pi_pos
  obtain ⟨Tc, hTc⟩ : ∃ Tc, Tc = 2 * T / (ρ * (V * V) * π * (R * R)) := ⟨_, rfl⟩
  have eTc : 2 * T / (ρ * V ^ 2 * π * R ^ 2) = Tc := by rw [hTc, pow_two, pow_two]
  have hpos : 0 < Tc := by rw [hTc]; positivity
  rw [eTc] at hf
  have em : q.I2 * (q.I1 / (2 * q.I2)) ^ 2 = q.I1 ^ 2 / (4 * q.I2) := by field_simp; ring
  have hnew : (if Tc ≥ q.I2 * (q.I1 / (2 * q.I2)) ^ 2 then q.I2 * (q.I1 / (2 * q.I2)) ^ 2 else Tc) =
      q.I2 * (q.I1 / (2 * q.I2)) ^ 2 := by
    rw [if_pos (by rw [em]; exact hf)]
  obtain ⟨m, hm⟩ : ∃ m, m = q.I1 / (2 * q.I2) := ⟨_, rfl⟩
  have hI1 : q.I1 = 2 * q.I2 * m := by rw [hm]; field_simp
  have hz : sqrt (m ^ 2 - q.I2 * m ^ 2 / q.I2) = 0 := by
    rw [mul_div_assoc, mul_div_cancel₀ _ h2.ne', sub_self, sqrt_zero]
  rw [← hm] at hnew
  simp only [design, if_neg hV.ne', ← hTc, if_neg hpos.ne', ← hm, hnew, hz, sub_zero]
  refine ⟨_, rfl, ?_, ?_⟩
  · simp only
    have e : q.I1 * m - q.I2 * m ^ 2 ≤ Tc := by
      have : q.I1 * m - q.I2 * m ^ 2 = q.I1 ^ 2 / (4 * q.I2) := by rw [← em, ← hm, hI1]; ring
      linarith
    calc (q.I1 * m - q.I2 * m ^ 2) * ρ * V ^ 2 * π * R ^ 2 / 2
        = (q.I1 * m - q.I2 * m ^ 2) * (ρ * V ^ 2 * π * R ^ 2 / 2) := by ring
      _ ≤ Tc * (ρ * V ^ 2 * π * R ^ 2 / 2) := by
          apply mul_le_mul_of_nonneg_right e
          positivity
      _ = T := by
          rw [hTc, ← thrust_back ρ V R T hρ hV.ne' hR]
          field_simp
  · intro ζ
    simp only
    have e : q.I1 * ζ - q.I2 * ζ ^ 2 ≤ q.I1 * m - q.I2 * m ^ 2 := by
      rw [hI1]
      nlinarith [mul_nonneg h2.le (sq_nonneg (ζ - m))]
    calc _ ≤ (q.I1 * m - q.I2 * m ^ 2) * (ρ * V ^ 2 * π * R ^ 2 / 2) := by
          apply mul_le_mul_of_nonneg_right e
          positivity
      _ = _ := by ring

/-- But the propeller keeps the thrust asked for as its design thrust: it is not the thrust that belongs to its design
power. -/
theorem C190_design_thrust_counterexample :
    ¬ ∀ (ρ V R ω T : ℝ) (q : Integrals) (d : Design), 0 < ρ → 0 < V → 0 < R → 0 < T → 0 < q.I1 → 0 < q.I2 →
      design ρ V R ω (some T) none q = some d → d.designThrust = d.thrust := by
  intro H
  have hπ := pi_pos
  obtain ⟨T, hT⟩ : ∃ T, T = π := ⟨_, rfl⟩
  have h := H 1 1 1 1 π ⟨2, 1, 1, 1⟩
  have e : (2 : ℝ) * π / (1 * (1 * 1) * π * (1 * 1)) = 2 := by field_simp
  simp only [design, if_neg one_ne_zero, e, if_neg (two_ne_zero : (2 : ℝ) ≠ 0)] at h
  have h2 := h _ one_pos one_pos one_pos hπ two_pos one_pos rfl
  norm_num at h2
  rw [← hT] at h2 hπ
  linarith

/-- Coefficients and torque belong to thrust and power. -/
theorem C190_coefficients (ρ V R ω : ℝ) (hρ : 0 < ρ) (hR : 0 < R) (hω : 0 < ω) (T P : Option ℝ) (q : Integrals) (d : Design)
    (h : design ρ V R ω T P q = some d) :
    d.torque * ω = d.power ∧ d.Ct * ρ * (ω / (2 * π)) ^ 2 * (2 * R) ^ 4 = d.thrust ∧
      d.Cp * ρ * (ω / (2 * π)) ^ 3 * (2 * R) ^ 5 = d.power := by
  have hπ := pi_pos
  rcases T with _ | T <;> rcases P with _ | P
  · simp [design] at h
  · simp only [design] at h
    generalize (if V = 0 then (1e-6 : ℝ) else V) = W at h
    by_cases h0 : 2 * P / (ρ * (W * W * W) * π * (R * R)) = 0
    · rw [if_pos h0] at h; exact absurd h (by simp)
    · rw [if_neg h0] at h
      obtain rfl := Option.some.inj h
      simp only
      refine ⟨?_, ?_, ?_⟩ <;> field_simp
  · simp only [design] at h
    generalize (if V = 0 then (1e-6 : ℝ) else V) = W at h
    by_cases h0 : 2 * T / (ρ * (W * W) * π * (R * R)) = 0
    · rw [if_pos h0] at h; exact absurd h (by simp)
    · rw [if_neg h0] at h
      obtain rfl := Option.some.inj h
      simp only
      refine ⟨?_, ?_, ?_⟩ <;> field_simp
  · simp [design] at h

/-- Exactly one of thrust and power must be given. -/
theorem C190_inputs (ρ V R ω T P : ℝ) (q : Integrals) :
    design ρ V R ω none none q = none ∧ design ρ V R ω (some T) (some P) q = none := by
  simp [design]

/-- Stations run from the hub outwards in equal steps and stop one step before the tip. -/
theorem C190_stations (R Rh : ℝ) (hR : 0 < R) (hh : Rh < R) (N k : ℕ) (hk : k < N) :
    chi R Rh N 0 * R = Rh ∧ chi R Rh N k < chi R Rh N (k + 1) ∧ chi R Rh N k < 1 ∧
      chi R Rh N (k + 1) * R - chi R Rh N k * R = (R - Rh) / N ∧ chi R Rh N N = 1 := by
  have hN : (0 : ℝ) < N := by exact_mod_cast (by omega : 0 < N)
  have hd : 0 < (1 - Rh / R) / N := by
    apply div_pos _ hN
    rw [sub_pos, div_lt_one hR]; exact hh
  have hkN : (k : ℝ) < N := by exact_mod_cast hk
  have hall : chi R Rh N N = 1 := by
    unfold chi; field_simp; ring
  refine ⟨by unfold chi; field_simp; simp, ?_, ?_, ?_, hall⟩
  · unfold chi; push_cast; linarith
  · rw [← hall]
    unfold chi
    nlinarith
  · unfold chi; push_cast; field_simp; ring

/-- Every station of a lifting blade inside the disc has positive circulation, and its torque integrand is at least its thrust
integrand: friction costs power and thrust. -/
theorem C190_station (B R ω V ζ χ ε : ℝ) (hB : 0 < B) (hR : 0 < R) (hω : 0 < ω) (hV : 0 < V) (hζ : 0 < ζ) (h0 : 0 < χ)
    (h1 : χ < 1) (hε : 0 ≤ ε) :
    let s := station B R ω V ζ χ ε
    0 < s.G ∧ s.i1 ≤ s.j1 ∧ (ε * tan s.φ ≤ 1 → 0 ≤ s.i1 ∧ 0 ≤ s.i2 ∧ 0 ≤ s.j2) := by
  intro s
  have hπ := pi_pos
  have ht : 0 < V / (ω * R) * (1 + ζ / 2) := by positivity
  obtain ⟨τ, hτ⟩ : ∃ τ, τ = V / (ω * R) * (1 + ζ / 2) := ⟨_, rfl⟩
  rw [← hτ] at ht
  have hφ0 : 0 < arctan (τ / χ) := arctan_pos.2 (by positivity)
  have hφ1 : arctan (τ / χ) < π / 2 := arctan_lt_pi_div_two _
  have hsin : 0 < sin (arctan (τ / χ)) := sin_pos_of_pos_of_lt_pi hφ0 (by linarith)
  have hcos : 0 < cos (arctan (τ / χ)) := cos_arctan_pos _
  have hp0 : 0 < arctan τ := arctan_pos.2 ht
  have hsp : 0 < sin (arctan τ) := sin_pos_of_pos_of_lt_pi hp0 (by linarith [arctan_lt_pi_div_two τ])
  have hF : 0 < 2 / π * arccos (exp (-(B / 2 * (1 - χ) / sin (arctan τ)))) := by
    have : 0 < arccos (exp (-(B / 2 * (1 - χ) / sin (arctan τ)))) := by
      rw [arccos_pos, exp_lt_one_iff, neg_lt_zero]
      have : 0 < 1 - χ := by linarith
      positivity
    positivity
  have hφ : s.φ = arctan (τ / χ) := by simp only [s, station, hτ]
  have hG : 0 < s.G := by
    simp only [s, station, ← hτ]
    have hx : 0 < ω * (χ * R) / V := by positivity
    exact mul_pos (mul_pos (mul_pos hF hx) hcos) hsin
  have htan : 0 < tan s.φ := by rw [hφ, tan_arctan]; positivity
  have hi1 : s.i1 = 4 * χ * s.G * (1 - ε * tan s.φ) := rfl
  have hj1 : s.j1 = 4 * χ * s.G * (1 + ε / tan s.φ) := rfl
  have hi2 : s.i2 = V / (ω * R) * (s.i1 / (2 * χ)) * (1 + ε / tan s.φ) * sin s.φ * cos s.φ := rfl
  have hj2 : s.j2 = s.j1 / 2 * (1 - ε * tan s.φ) * cos s.φ ^ 2 := rfl
  have hd : 0 ≤ ε / tan s.φ := by positivity
  have hm : 0 ≤ ε * tan s.φ := by positivity
  have hk : 0 < 4 * χ * s.G := by positivity
  refine ⟨hG, ?_, fun hle => ?_⟩
  · rw [hi1, hj1]
    apply mul_le_mul_of_nonneg_left _ hk.le
    linarith
  · have hc : 0 ≤ 1 - ε * tan s.φ := by linarith
    have a1 : 0 ≤ s.i1 := by rw [hi1]; exact mul_nonneg hk.le hc
    have a2 : 0 ≤ s.j1 := by rw [hj1]; exact mul_nonneg hk.le (by linarith)
    rw [← hφ] at hsin hcos
    refine ⟨a1, ?_, ?_⟩
    · rw [hi2]
      have : 0 ≤ 1 + ε / tan s.φ := by linarith
      positivity
    · rw [hj2]
      have : 0 ≤ cos s.φ ^ 2 := sq_nonneg _
      exact mul_nonneg (mul_nonneg (by linarith) hc) this

/-- So the integrals keep the efficiency of the design at or below one: speed times thrust is at most the power. -/
theorem C190_efficiency (ρ B R Rh ω V ζ0 : ℝ) (hρ : 0 < ρ) (hB : 0 < B) (hR : 0 < R) (hRh : 0 < Rh ∧ Rh < R) (hω : 0 < ω)
    (hV : 0 < V) (hζ : 0 < ζ0) (N : ℕ) (hN : 0 < N) (ε : ℕ → ℝ) (hε : ∀ k < N, 0 ≤ ε k)
    (hle : ∀ k < N, ε k * tan (station B R ω V ζ0 (chi R Rh N k) (ε k)).φ ≤ 1) (T P : Option ℝ) (d : Design)
    (h : design ρ V R ω T P (integrals B R Rh ω V ζ0 N ε) = some d) (hz : 0 ≤ d.ζ) : V * d.thrust ≤ d.power := by
  obtain ⟨q, hq⟩ : ∃ q, q = integrals B R Rh ω V ζ0 N ε := ⟨_, rfl⟩
  have hst := C190_stations R Rh hR hRh.2 N
  have hchi : ∀ k < N, 0 < chi R Rh N k := by
    intro k hk
    have : 0 < Rh / R := div_pos hRh.1 hR
    have h2 : 0 ≤ (k : ℝ) * ((1 - Rh / R) / N) := by
      apply mul_nonneg (by positivity)
      apply div_nonneg _ (by positivity)
      rw [sub_nonneg, div_le_one hR]; exact hRh.2.le
    unfold chi
    linarith
  have hd : 0 ≤ chi R Rh N 1 - chi R Rh N 0 := by
    have := (hst 0 hN).2.1
    linarith
  have hs : ∀ k < N, (station B R ω V ζ0 (chi R Rh N k) (ε k)).i1 ≤ (station B R ω V ζ0 (chi R Rh N k) (ε k)).j1 ∧
      0 ≤ (station B R ω V ζ0 (chi R Rh N k) (ε k)).i2 ∧ 0 ≤ (station B R ω V ζ0 (chi R Rh N k) (ε k)).j2 := by
    intro k hk
    obtain ⟨-, a1, a2⟩ := C190_station B R ω V ζ0 (chi R Rh N k) (ε k) hB hR hω hV hζ (hchi k hk) (hst k hk).2.2.1 (hε k hk)
    obtain ⟨-, a3, a4⟩ := a2 (hle k hk)
    exact ⟨a1, a3, a4⟩
  have h11 : q.I1 ≤ q.J1 := by
    rw [hq]
    simp only [integrals]
    apply Finset.sum_le_sum
    intro k hk
    exact mul_le_mul_of_nonneg_right (hs k (Finset.mem_range.1 hk)).1 hd
  have h20 : 0 ≤ q.I2 := by
    rw [hq]
    simp only [integrals]
    apply Finset.sum_nonneg
    intro k hk
    exact mul_nonneg (hs k (Finset.mem_range.1 hk)).2.1 hd
  have h2j : 0 ≤ q.J2 := by
    rw [hq]
    simp only [integrals]
    apply Finset.sum_nonneg
    intro k hk
    exact mul_nonneg (hs k (Finset.mem_range.1 hk)).2.2 hd
  rw [← hq] at h
  have hπ := pi_pos
  have key : d.thrust = (q.I1 * d.ζ - q.I2 * d.ζ ^ 2) * ρ * V ^ 2 * π * R ^ 2 / 2 ∧
      d.power = (q.J1 * d.ζ + q.J2 * d.ζ ^ 2) * ρ * V ^ 3 * π * R ^ 2 / 2 := by
    rcases T with _ | T <;> rcases P with _ | P
    · simp [design] at h
    · simp only [design, if_neg hV.ne'] at h
      by_cases h0 : 2 * P / (ρ * (V * V * V) * π * (R * R)) = 0
      · rw [if_pos h0] at h; exact absurd h (by simp)
      · rw [if_neg h0] at h
        obtain rfl := Option.some.inj h
        exact ⟨rfl, rfl⟩
    · simp only [design, if_neg hV.ne'] at h
      by_cases h0 : 2 * T / (ρ * (V * V) * π * (R * R)) = 0
      · rw [if_pos h0] at h; exact absurd h (by simp)
      · rw [if_neg h0] at h
        obtain rfl := Option.some.inj h
        exact ⟨rfl, rfl⟩
    · simp [design] at h
  rw [key.1, key.2]
  have hc : q.I1 * d.ζ - q.I2 * d.ζ ^ 2 ≤ q.J1 * d.ζ + q.J2 * d.ζ ^ 2 := by
    nlinarith [mul_nonneg h20 (sq_nonneg d.ζ), mul_nonneg h2j (sq_nonneg d.ζ), mul_le_mul_of_nonneg_right h11 hz]
  have hf : 0 ≤ ρ * V ^ 3 * π * R ^ 2 / 2 := by positivity
  calc V * ((q.I1 * d.ζ - q.I2 * d.ζ ^ 2) * ρ * V ^ 2 * π * R ^ 2 / 2)
      = (q.I1 * d.ζ - q.I2 * d.ζ ^ 2) * (ρ * V ^ 3 * π * R ^ 2 / 2) := by ring
    _ ≤ (q.J1 * d.ζ + q.J2 * d.ζ ^ 2) * (ρ * V ^ 3 * π * R ^ 2 / 2) := mul_le_mul_of_nonneg_right hc hf
    _ = _ := by ring

/-- The chord carries the circulation of the optimum at the design lift coefficient. -/
theorem C190_chord (B R ω V ζ χ ε Cl : ℝ) (hB : 0 < B) (hω : 0 < ω) (hR : 0 < R) (hCl : 0 < Cl)
    (hW : (designChord B R ω V ζ χ ε Cl).2 ≠ 0) :
    1 / 2 * (designChord B R ω V ζ χ ε Cl).2 * (designChord B R ω V ζ χ ε Cl).1 * Cl =
      2 * π * V ^ 2 * ζ * (station B R ω V ζ χ ε).G / (B * ω) := by
  have e : (designChord B R ω V ζ χ ε Cl).1 = 4 * π * (V / (ω * R)) * (station B R ω V ζ χ ε).G * V * R * ζ / (Cl * B) /
    (designChord B R ω V ζ χ ε Cl).2 := rfl
  rw [e]
  generalize (designChord B R ω V ζ χ ε Cl).2 = W at *
  generalize (station B R ω V ζ χ ε).G = G
  field_simp
  ring

/-- Thrust 3π/4 with the integrals of a loss-free actuator: displacement velocity 1/2. -/
example : ∃ d, design 1 1 1 1 (some (3 / 8 * π)) none ⟨2, 1, 2, 1⟩ = some d ∧ d.thrust = 3 / 8 * π := by
  have hπ := pi_pos
  have e : 2 * (3 / 8 * π) / (1 * 1 ^ 2 * π * 1 ^ 2) = 3 / 4 := by field_simp; norm_num
  obtain ⟨d, h1, h2, -⟩ := C190_thrust 1 1 1 1 (3 / 8 * π) one_pos one_pos one_pos (by positivity) ⟨2, 1, 2, 1⟩ two_pos one_pos
    (by rw [e]; norm_num)
  exact ⟨d, h1, h2⟩

end Verif.Rotor
