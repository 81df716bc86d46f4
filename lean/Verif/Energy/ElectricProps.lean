import Verif.Energy.Electric
import Mathlib.Analysis.Real.Pi.Bounds
import Mathlib.Tactic.Linarith
import Mathlib.Tactic.FieldSimp
import Mathlib.Tactic.Ring
import Mathlib.Tactic.NormNum
import Mathlib.Tactic.Positivity

/-! Properties C104-C106: motors. -/

namespace Verif.Electric
open Real

/-! ## C104: motor speed under a propeller load -/

/-- Torque of a propeller with power coefficient `Cp`: `C_Q = C_P/2π`, `Q = C_Q ρ n² D⁵` with `n` in revolutions
per second. -/
noncomputable def loadTorque (Cp ρ R ω : ℝ) : ℝ := Cp / (2 * π) * ρ * (ω / (2 * π)) ^ 2 * (2 * R) ^ 5

theorem pi32_sq : π ^ (3 / 2 : ℝ) * π ^ (3 / 2 : ℝ) = π * π * π := by
  rw [← rpow_add pi_pos]
  norm_num
  ring

theorem rpow_half_sq {x : ℝ} (h : 0 ≤ x) : x ^ (0.5 : ℝ) * x ^ (0.5 : ℝ) = x := by
  rw [show (0.5 : ℝ) = 1 / 2 by norm_num, ← sqrt_eq_rpow, mul_self_sqrt h]

theorem under_eq (m : Motor) (ρ Cp v : ℝ) :
    m.under ρ Cp v = π * π * π + 16 * (Cp * ρ * m.Kv ^ 3 * m.radius ^ 5 * m.res) * (v - m.io * m.res) := by
  unfold Motor.under; ring

/-- The speed returned is one at which the motor delivers exactly the torque the propeller takes. -/
theorem C104_balance (m : Motor) (ρ Cp v : ℝ) (hρ : ρ ≠ 0) (hC : Cp ≠ 0) (hR : m.radius ≠ 0) (hK : m.Kv ≠ 0)
    (hr : m.res ≠ 0) (hu : 0 ≤ m.under ρ Cp v) :
    m.torque v (m.omega ρ Cp v) = loadTorque Cp ρ m.radius (m.omega ρ Cp v) := by
  have hs := rpow_half_sq hu
  have hp := pi32_sq
  have hp0 : (π ^ (3 / 2 : ℝ)) ≠ 0 := (rpow_pos_of_pos pi_pos _).ne'
  have hue := under_eq m ρ Cp v
  have hω : m.omega ρ Cp v = (π ^ (3 / 2 : ℝ) * (m.under ρ Cp v ^ (0.5 : ℝ) - π ^ (3 / 2 : ℝ)))
      / (8 * (Cp * m.Kv ^ 2 * m.radius ^ 5 * m.res * ρ)) := by
    simp only [Motor.omega, if_neg (not_lt.2 hu)]
    congr 1; ring
  obtain ⟨s, hsd⟩ : ∃ s, s = m.under ρ Cp v ^ (0.5 : ℝ) := ⟨_, rfl⟩
  obtain ⟨q, hqd⟩ : ∃ q, q = π ^ (3 / 2 : ℝ) := ⟨_, rfl⟩
  rw [← hsd] at hs hω
  rw [← hqd] at hp hω hp0
  obtain ⟨D, hD⟩ : ∃ D, D = Cp * m.Kv ^ 2 * m.radius ^ 5 * m.res * ρ := ⟨_, rfl⟩
  have hD0 : D ≠ 0 := by rw [hD]; positivity
  rw [← hD] at hω
  rw [hs.symm] at hue
  have hquad : 4 * D * (m.omega ρ Cp v) ^ 2 / (q * q) + m.omega ρ Cp v = m.Kv * (v - m.io * m.res) := by
    have e : s * s = q * q + 16 * (D * m.Kv) * (v - m.io * m.res) := by rw [hue, hp, hD]; ring
    rw [hω]
    field_simp
    nlinarith [e]
  unfold Motor.torque loadTorque
  have e1 : Cp / (2 * π) * ρ * (m.omega ρ Cp v / (2 * π)) ^ 2 * (2 * m.radius) ^ 5
      = (4 * D * (m.omega ρ Cp v) ^ 2 / (q * q)) / (m.Kv ^ 2 * m.res) := by
    rw [hp, hD]
    have := pi_pos.ne'
    generalize m.omega ρ Cp v = w
    field_simp
    ring
  rw [e1]
  have e2 : 4 * D * (m.omega ρ Cp v) ^ 2 / (q * q) = m.Kv * (v - m.io * m.res) - m.omega ρ Cp v := by linarith
  rw [e2]
  generalize m.omega ρ Cp v = w
  field_simp
  ring

/-- A motor and propeller with positive settings. -/
structure Sound (m : Motor) (ρ Cp : ℝ) : Prop where
  ρ : 0 < ρ
  Cp : 0 < Cp
  R : 0 < m.radius
  K : 0 < m.Kv
  r : 0 < m.res

theorem coef_pos {m : Motor} {ρ Cp : ℝ} (h : Sound m ρ Cp) :
    0 < 16 * (Cp * ρ * m.Kv ^ 3 * m.radius ^ 5 * m.res) := by
  obtain ⟨h1, h2, h3, h4, h5⟩ := h; positivity

/-- The propeller turns forward exactly when the voltage can drive more than the no-load current. -/
theorem C104_forward (m : Motor) (ρ Cp v : ℝ) (h : Sound m ρ Cp) :
    0 < m.omega ρ Cp v ↔ m.io * m.res < v := by
  have hc := coef_pos h
  have hue := under_eq m ρ Cp v
  have hden : 0 < 8 * Cp * (m.Kv * m.Kv) * (m.radius * m.radius * m.radius * m.radius * m.radius) * m.res * ρ := by
    obtain ⟨h1, h2, h3, h4, h5⟩ := h; positivity
  have hq : 0 < π ^ (3 / 2 : ℝ) := rpow_pos_of_pos pi_pos _
  have hpi : 0 < π * π * π := by have := pi_pos; positivity
  unfold Motor.omega
  split_ifs with hu
  · refine ⟨fun h => absurd h (lt_irrefl _), fun hv => ?_⟩
    have : 0 < 16 * (Cp * ρ * m.Kv ^ 3 * m.radius ^ 5 * m.res) * (v - m.io * m.res) := mul_pos hc (by linarith)
    linarith
  · push Not at hu
    have hs := rpow_half_sq hu
    have hs0 : 0 ≤ m.under ρ Cp v ^ (0.5 : ℝ) := rpow_nonneg hu _
    rw [div_pos_iff_of_pos_right hden, mul_pos_iff_of_pos_left hq, sub_pos]
    have h2 := pi32_sq
    constructor
    · intro hlt
      have : π * π * π < m.under ρ Cp v := by rw [← hs, ← h2]; exact mul_self_lt_mul_self hq.le hlt
      have h3 : 0 < 16 * (Cp * ρ * m.Kv ^ 3 * m.radius ^ 5 * m.res) * (v - m.io * m.res) := by linarith
      have := (mul_pos_iff_of_pos_left hc).1 h3
      linarith
    · intro hv
      have h3 : 0 < 16 * (Cp * ρ * m.Kv ^ 3 * m.radius ^ 5 * m.res) * (v - m.io * m.res) := mul_pos hc (by linarith)
      by_contra hcon
      push Not at hcon
      have := mul_self_le_mul_self hs0 hcon
      rw [hs, h2] at this
      linarith

/-- No other forward speed balances the torques. -/
theorem C104_unique (m : Motor) (ρ Cp v ω : ℝ) (h : Sound m ρ Cp) (hv : m.io * m.res ≤ v) (hω : 0 ≤ ω)
    (hb : m.torque v ω = loadTorque Cp ρ m.radius ω) : ω = m.omega ρ Cp v := by
  have hc := coef_pos h
  have hpi : 0 < π * π * π := by have := pi_pos; positivity
  have hu : 0 ≤ m.under ρ Cp v := by
    rw [under_eq]
    have : 0 ≤ 16 * (Cp * ρ * m.Kv ^ 3 * m.radius ^ 5 * m.res) * (v - m.io * m.res) :=
      mul_nonneg hc.le (by linarith)
    linarith
  have hb' := C104_balance m ρ Cp v h.ρ.ne' h.Cp.ne' h.R.ne' h.K.ne' h.r.ne' hu
  have hw : 0 ≤ m.omega ρ Cp v := by
    rcases hv.lt_or_eq with h1 | h1
    · exact ((C104_forward m ρ Cp v h).2 h1).le
    · have hq : 0 < π ^ (3 / 2 : ℝ) := rpow_pos_of_pos pi_pos _
      have e : m.under ρ Cp v = π * π * π := by rw [under_eq, h1]; ring
      have e2 : m.under ρ Cp v ^ (0.5 : ℝ) = π ^ (3 / 2 : ℝ) := by
        have h3 := rpow_half_sq hu
        rw [e] at h3 ⊢
        rw [← pi32_sq] at h3 ⊢
        exact mul_self_inj_of_nonneg (rpow_nonneg (mul_nonneg hq.le hq.le) _) hq.le |>.1 h3
      simp only [Motor.omega, if_neg (not_lt.2 hu), e2, sub_self, mul_zero, zero_div, le_refl]
  obtain ⟨h1, h2, h3, h4, h5⟩ := h
  generalize m.omega ρ Cp v = w at hb' hw
  have mono : ∀ a b : ℝ, 0 ≤ a → a < b → m.torque v a = loadTorque Cp ρ m.radius a →
      m.torque v b = loadTorque Cp ρ m.radius b → False := by
    intro a b ha hab ea eb
    have i1 : m.torque v b < m.torque v a := by
      unfold Motor.torque
      have : a / m.Kv < b / m.Kv := div_lt_div_of_pos_right hab h4
      apply div_lt_div_of_pos_right _ h4
      have : (v - b / m.Kv) / m.res < (v - a / m.Kv) / m.res := div_lt_div_of_pos_right (by linarith) h5
      linarith
    have i2 : loadTorque Cp ρ m.radius a ≤ loadTorque Cp ρ m.radius b := by
      unfold loadTorque
      have hp := pi_pos
      have hb0 : 0 ≤ b := by linarith
      gcongr
    linarith
  rcases lt_trichotomy ω w with hlt | heq | hgt
  · exact (mono ω w hω hlt hb hb').elim
  · exact heq
  · exact (mono w ω hw hgt hb' hb).elim

/-- More voltage turns the propeller faster. -/
theorem C104_throttle (m : Motor) (ρ Cp v v' : ℝ) (h : Sound m ρ Cp) (hv : m.io * m.res ≤ v) (hlt : v < v') :
    m.omega ρ Cp v < m.omega ρ Cp v' := by
  have hc := coef_pos h
  have hden : 0 < 8 * Cp * (m.Kv * m.Kv) * (m.radius * m.radius * m.radius * m.radius * m.radius) * m.res * ρ := by
    obtain ⟨h1, h2, h3, h4, h5⟩ := h; positivity
  have hq : 0 < π ^ (3 / 2 : ℝ) := rpow_pos_of_pos pi_pos _
  have hpi : 0 < π * π * π := by have := pi_pos; positivity
  have hu : 0 < m.under ρ Cp v := by
    rw [under_eq]
    have : 0 ≤ 16 * (Cp * ρ * m.Kv ^ 3 * m.radius ^ 5 * m.res) * (v - m.io * m.res) :=
      mul_nonneg hc.le (by linarith)
    linarith
  have hu' : m.under ρ Cp v < m.under ρ Cp v' := by
    rw [under_eq, under_eq]
    have : 16 * (Cp * ρ * m.Kv ^ 3 * m.radius ^ 5 * m.res) * (v - m.io * m.res)
        < 16 * (Cp * ρ * m.Kv ^ 3 * m.radius ^ 5 * m.res) * (v' - m.io * m.res) :=
      mul_lt_mul_of_pos_left (by linarith) hc
    linarith
  unfold Motor.omega
  rw [if_neg (not_lt.2 hu.le), if_neg (not_lt.2 (hu.trans hu').le)]
  apply div_lt_div_of_pos_right _ hden
  apply mul_lt_mul_of_pos_left _ hq
  have := rpow_lt_rpow hu.le hu' (show (0 : ℝ) < 0.5 by norm_num)
  linarith

/-- A motor for the examples: 0.1 ohm, 0.5 A without load, 50 rad/s per volt, direct drive, half a metre. -/
noncomputable def demo : Motor := ⟨0.1, 0.5, 50, 1, 1, 0, 0.5⟩

theorem demo_io : demo.io = 0.5 := by norm_num [Motor.io, demo]
theorem demo_Kv : demo.Kv = 50 := by norm_num [Motor.Kv, demo]
theorem demo_sound : Sound demo 1.2 0.05 :=
  ⟨by norm_num, by norm_num, by norm_num [demo], by rw [demo_Kv]; norm_num, by norm_num [demo]⟩

example : 0 < demo.omega 1.2 0.05 20 :=
  (C104_forward demo 1.2 0.05 20 demo_sound).2 (by rw [demo_io]; norm_num [demo])

example : demo.torque 20 (demo.omega 1.2 0.05 20) = loadTorque 0.05 1.2 demo.radius (demo.omega 1.2 0.05 20) := by
  apply C104_balance _ _ _ _ (by norm_num) (by norm_num) (by norm_num [demo]) (by rw [demo_Kv]; norm_num) (by norm_num [demo])
  rw [under_eq, demo_io, demo_Kv]
  have := pi_pos
  have h : 0 < π * π * π := by positivity
  norm_num [demo]; linarith

/-- At zero voltage the propeller should stand still; with a no-load current it is reported to turn
backwards (unless the root is negative, where it is zero). -/
theorem C104_standstill_counterexample : demo.omega 1.2 0.05 0 < 0 := by
  have hu : demo.under 1.2 0.05 0 < π * π * π := by
    rw [under_eq, demo_io, demo_Kv]; norm_num [demo]
  have hu0 : 0 ≤ demo.under 1.2 0.05 0 := by
    rw [under_eq, demo_io, demo_Kv]
    have h3 := pi_gt_three
    have : (27 : ℝ) < π * π * π := by nlinarith [mul_pos pi_pos pi_pos]
    norm_num [demo]; linarith
  have hq : 0 < π ^ (3 / 2 : ℝ) := rpow_pos_of_pos pi_pos _
  unfold Motor.omega
  rw [if_neg (not_lt.2 hu0)]
  apply div_neg_of_neg_of_pos
  · apply mul_neg_of_pos_of_neg hq
    have h1 := rpow_half_sq hu0
    have : demo.under 1.2 0.05 0 ^ (0.5 : ℝ) < π ^ (3 / 2 : ℝ) := by
      by_contra hcon
      push Not at hcon
      have := mul_self_le_mul_self hq.le hcon
      rw [h1, pi32_sq] at this
      linarith
    linarith
  · rw [demo_Kv]; norm_num [demo]

/-! ## C105: torque and voltage are inverse descriptions of the motor -/

/-- Asking for the voltage that gives a torque, and applying it, gives that torque. -/
theorem C105_voltage_then_torque (m : Motor) (Q ω : ℝ) (hK : m.Kv ≠ 0) (hr : m.res ≠ 0) :
    m.torque (m.voltageCurrent Q ω).1 ω = Q := by
  simp only [Motor.torque, Motor.voltageCurrent]
  generalize m.Kv = K at *
  generalize m.io = io at *
  field_simp
  ring

/-- Asking for the torque at a voltage, and then for the voltage of that torque, gives the voltage back. -/
theorem C105_torque_then_voltage (m : Motor) (v ω : ℝ) (hK : m.Kv ≠ 0) (hr : m.res ≠ 0) :
    (m.voltageCurrent (m.torque v ω) ω).1 = v := by
  simp only [Motor.torque, Motor.voltageCurrent]
  generalize m.Kv = K at *
  generalize m.io = io at *
  field_simp
  ring

/-- Both agree on the current: that reported with the voltage is that drawn at the voltage. -/
theorem C105_current (m : Motor) (Q ω : ℝ) (hG : m.gear ≠ 0) (hi : 0 ≤ (m.voltageCurrent Q ω).2) :
    m.current (m.voltageCurrent Q ω).1 ω = (m.voltageCurrent Q ω).2 := by
  have e : ∀ v, (v - ω * m.gear / m.speedConstant) / m.res = (v - ω / m.Kv) / m.res := by
    intro v
    congr 2
    unfold Motor.Kv
    by_cases hs : m.speedConstant = 0
    · rw [hs]; simp
    · field_simp
  simp only [Motor.current, e]
  exact if_neg (not_lt.2 hi)

example : demo.torque 20 400 = 2.39 := by
  rw [Motor.torque, demo_io, demo_Kv]; norm_num [demo]

/-! ## C106: power balance of the motor -/

/-- Current while it is not cut off. -/
theorem current_eq (m : Motor) (v ω : ℝ) (hG : m.gear ≠ 0) (hi : 0 ≤ v - ω / m.Kv) (hr : 0 < m.res) :
    m.current v ω = (v - ω / m.Kv) / m.res := by
  have e : ω * m.gear / m.speedConstant = ω / m.Kv := by
    unfold Motor.Kv
    by_cases hs : m.speedConstant = 0
    · rw [hs]; simp
    · field_simp
  simp only [Motor.current, e]
  exact if_neg (not_lt.2 (div_nonneg hi hr.le))

/-- Electrical power is shaft power, plus heat in the winding, plus the power of the no-load current. -/
theorem C106_power (m : Motor) (v ω : ℝ) (hG : m.gear ≠ 0) (hK : m.Kv ≠ 0) (hr : 0 < m.res) (hi : 0 ≤ v - ω / m.Kv) :
    v * m.current v ω = m.torque v ω * ω + m.current v ω ^ 2 * m.res + m.io * (ω / m.Kv) := by
  rw [current_eq m v ω hG hi hr]
  unfold Motor.torque
  generalize m.Kv = K at *
  generalize m.io = io at *
  have := hr.ne'
  field_simp
  ring

/-- The reported efficiency is shaft power over electrical power. -/
theorem C106_efficiency (m : Motor) (v ω e : ℝ) (hG : m.gear ≠ 0) (hK : m.Kv ≠ 0) (hr : 0 < m.res)
    (hi : 0 ≤ v - ω / m.Kv) (he : m.efficiency v (m.current v ω) = some e) :
    e * (v * m.current v ω) = m.torque v ω * ω := by
  rw [current_eq m v ω hG hi hr] at he ⊢
  unfold Motor.efficiency at he
  split_ifs at he with hz
  rw [not_or] at hz
  obtain ⟨h1, h2⟩ := hz
  have he' := (Option.some.inj he).symm
  rw [he']
  have hd : v - ω / m.Kv ≠ 0 := fun h => h1 (by rw [h, zero_div])
  unfold Motor.torque
  have := hr.ne'
  have e2 : v - (v - ω / m.Kv) = ω / m.Kv := by ring
  obtain ⟨d, hdd⟩ : ∃ d, d = v - ω / m.Kv := ⟨_, rfl⟩
  have e3 : ω = m.Kv * (v - d) := by rw [hdd]; field_simp; ring
  rw [← hdd] at hd ⊢
  rw [e3]
  generalize m.Kv = K at *
  generalize m.io = io at *
  field_simp

/-- It lies between zero and one for a motor driving a load. -/
theorem C106_range (m : Motor) (v ω e : ℝ) (hG : m.gear ≠ 0) (hK : 0 < m.Kv) (hr : 0 < m.res) (hio : 0 ≤ m.io)
    (hω : 0 ≤ ω) (hi : m.io * m.res ≤ v - ω / m.Kv) (he : m.efficiency v (m.current v ω) = some e) :
    0 ≤ e ∧ e ≤ 1 := by
  have h0 : 0 ≤ v - ω / m.Kv := (mul_nonneg hio hr.le).trans hi
  rw [current_eq m v ω hG h0 hr] at he
  unfold Motor.efficiency at he
  split_ifs at he with hz
  rw [not_or] at hz
  rw [← Option.some.inj he]
  have hw : 0 ≤ ω / m.Kv := div_nonneg hω hK.le
  have hipos : 0 < (v - ω / m.Kv) / m.res := lt_of_le_of_ne (div_nonneg h0 hr.le) (Ne.symm hz.1)
  have hvpos : 0 < v := lt_of_le_of_ne (by linarith) (Ne.symm hz.2)
  have hle : m.io / ((v - ω / m.Kv) / m.res) ≤ 1 := by
    rw [div_le_one hipos, le_div_iff₀ hr]; exact hi
  have hge : 0 ≤ m.io / ((v - ω / m.Kv) / m.res) := div_nonneg hio hipos.le
  have e1 : (v - ω / m.Kv) / m.res * m.res = v - ω / m.Kv := div_mul_cancel₀ _ hr.ne'
  have h2 : 0 ≤ (v - ω / m.Kv) / m.res * m.res / v ∧ (v - ω / m.Kv) / m.res * m.res / v ≤ 1 := by
    rw [e1]; exact ⟨div_nonneg h0 hvpos.le, by rw [div_le_one hvpos]; linarith⟩
  constructor
  · exact mul_nonneg (by linarith) (by linarith [h2.2])
  · nlinarith [h2.1, h2.2]

/-- At the expected current and without no-load current, the shaft gets `gearbox_efficiency` of the torque
the current makes. -/
theorem C106_gear (m : Motor) (v ω : ℝ) (hG : m.gear ≠ 0) (hr : 0 < m.res) (hi : 0 ≤ v - ω / m.Kv)
    (hn : m.noLoad = 0) (hx : m.current v ω = m.expected) :
    m.torque v ω = m.gearEff * (m.current v ω * m.gear / m.speedConstant) := by
  have hc := current_eq m v ω hG hi hr
  have : m.torque v ω = (m.current v ω - m.io) / m.Kv := by rw [hc]; rfl
  rw [this, hx, Motor.io, hn, Motor.Kv, div_div_eq_mul_div]
  ring

/-- Driven faster than its voltage (windmilling), the motor reports torque that takes shaft power while the
electrical power is reported as zero, and no efficiency exists. -/
theorem C106_windmill_counterexample (m : Motor) (v ω : ℝ) (hG : m.gear ≠ 0) (hK : 0 < m.Kv) (hr : 0 < m.res)
    (hio : 0 ≤ m.io) (hω : 0 < ω) (h : v < ω / m.Kv) :
    v * m.current v ω = 0 ∧ m.torque v ω * ω < 0 ∧ m.efficiency v (m.current v ω) = none := by
  have e : ω * m.gear / m.speedConstant = ω / m.Kv := by
    unfold Motor.Kv
    by_cases hs : m.speedConstant = 0
    · rw [hs]; simp
    · field_simp
  have hc : m.current v ω = 0 := by
    simp only [Motor.current, e]
    exact if_pos (div_neg_of_neg_of_pos (by linarith) hr)
  refine ⟨by rw [hc, mul_zero], ?_, ?_⟩
  · apply mul_neg_of_neg_of_pos _ hω
    unfold Motor.torque
    apply div_neg_of_neg_of_pos _ hK
    have : (v - ω / m.Kv) / m.res < 0 := div_neg_of_neg_of_pos (by linarith) hr
    linarith
  · unfold Motor.efficiency; rw [if_pos (Or.inl hc)]

example : demo.efficiency 20 (demo.current 20 900) = some (0.8775) := by
  have hc : demo.current 20 900 = 20 := by
    rw [current_eq demo 20 900 (by norm_num [demo]) (by rw [demo_Kv]; norm_num) (by norm_num [demo]), demo_Kv]
    norm_num [demo]
  rw [hc]
  unfold Motor.efficiency
  rw [if_neg (by norm_num), demo_io]
  norm_num [demo]

end Verif.Electric
