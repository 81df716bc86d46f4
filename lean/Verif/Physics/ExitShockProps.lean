import Verif.Physics.ExitShock
import Verif.Energy.Scramjet
import Mathlib.Analysis.SpecialFunctions.Pow.Continuity
import Mathlib.Topology.Order.IntermediateValue
import Mathlib.Tactic.Linarith
import Mathlib.Tactic.Positivity
import Mathlib.Tactic.FieldSimp
import Mathlib.Tactic.Ring
import Mathlib.Tactic.NormNum

/-!
# C425: the Mach number leaving a nozzle that has a shock inside
-/

namespace Verif.Physics.ExitShock

open Real

/-- Specification: mass per time through an area, of a perfect gas of the given pressure, static
temperature and Mach number: density times velocity times area. -/
noncomputable def flowThrough (γ R A P T M : ℝ) : ℝ := P / (R * T) * (M * sqrt (γ * R * T)) * A

/-- Specification: static temperature of a gas of stagnation temperature `Tt` at Mach number `M`. -/
noncomputable def staticT (γ Tt M : ℝ) : ℝ := Tt / (1 + (γ - 1) / 2 * M ^ 2)

/-- Specification: static pressure of a gas of stagnation pressure `Pt` at Mach number `M`. -/
noncomputable def staticP (γ Pt M : ℝ) : ℝ := Pt / (1 + (γ - 1) / 2 * M ^ 2) ^ (γ / (γ - 1))

/-- Mach number times the square root of the temperature ratio. -/
noncomputable def load (γ M : ℝ) : ℝ := M * sqrt (1 + (γ - 1) / 2 * M ^ 2)

theorem exitFun_eq (a γ Pt P0 M : ℝ) :
    exitFun a γ Pt P0 M = Pt / P0 / a - ((γ + 1) / 2) ^ ((γ + 1) / (2 * (γ - 1))) * load γ M := by
  simp only [exitFun, load, sqrt_eq_rpow, rpow_two]
  ring

theorem load_neg (γ M : ℝ) : load γ (-M) = -load γ M := by simp [load]

theorem load_lt {γ : ℝ} (hγ : 1 < γ) {x y : ℝ} (hx : 0 ≤ x) (h : x < y) : load γ x < load γ y := by
  unfold load
  have hk : 0 < (γ - 1) / 2 := by linarith
  have h1 : sqrt (1 + (γ - 1) / 2 * x ^ 2) ≤ sqrt (1 + (γ - 1) / 2 * y ^ 2) := by
    apply sqrt_le_sqrt
    gcongr
  have h2 : 0 < sqrt (1 + (γ - 1) / 2 * y ^ 2) := sqrt_pos.mpr (by positivity)
  calc x * sqrt (1 + (γ - 1) / 2 * x ^ 2) ≤ x * sqrt (1 + (γ - 1) / 2 * y ^ 2) := by gcongr
    _ < _ := by gcongr

theorem load_nonneg (γ : ℝ) {x : ℝ} (hx : 0 ≤ x) : 0 ≤ load γ x := by unfold load; positivity

theorem load_strictMono {γ : ℝ} (hγ : 1 < γ) : StrictMono (load γ) := by
  intro x y h
  rcases le_or_gt 0 x with hx | hx
  · exact load_lt hγ hx h
  · rcases le_or_gt 0 y with hy | hy
    · have := load_lt hγ le_rfl (neg_pos.mpr hx)
      rw [load_neg] at this
      have h0 : load γ 0 = 0 := by simp [load]
      have := load_nonneg γ hy
      linarith
    · have := load_lt hγ (x := -y) (y := -x) (by linarith) (by linarith)
      rw [load_neg, load_neg] at this
      linarith

theorem throat_pos {γ : ℝ} (hγ : 1 < γ) : 0 < ((γ + 1) / 2) ^ ((γ + 1) / (2 * (γ - 1))) := by
  apply rpow_pos_of_pos; linarith

/-- C425: for every nozzle and every pressure there is exactly one number that the solver may return,
and it is a positive Mach number. -/
theorem C425_unique (a γ Pt P0 : ℝ) (ha : 0 < a) (hγ : 1 < γ) (hPt : 0 < Pt) (hP : 0 < P0) :
    ∃ M, (0 < M ∧ IsExitMach a γ Pt P0 M) ∧ ∀ N, IsExitMach a γ Pt P0 N → N = M := by
  have hc := throat_pos hγ
  set c := ((γ + 1) / 2) ^ ((γ + 1) / (2 * (γ - 1))) with hcdef
  have hq : 0 < Pt / P0 / a / c := by positivity
  have hcont : ContinuousOn (load γ) (Set.Icc 0 (Pt / P0 / a / c)) := by
    apply Continuous.continuousOn
    unfold load
    fun_prop
  have hup : Pt / P0 / a / c ≤ load γ (Pt / P0 / a / c) := by
    generalize Pt / P0 / a / c = q at hq
    unfold load
    have : 1 ≤ sqrt (1 + (γ - 1) / 2 * q ^ 2) := by
      rw [one_le_sqrt]
      have : 0 ≤ (γ - 1) / 2 * q ^ 2 := mul_nonneg (by linarith) (by positivity)
      linarith
    nlinarith
  have h0 : load γ 0 = 0 := by simp [load]
  obtain ⟨M, hM, hE⟩ := intermediate_value_Icc hq.le hcont (by rw [h0]; exact ⟨hq.le, hup⟩ :
    Pt / P0 / a / c ∈ Set.Icc (load γ 0) (load γ (Pt / P0 / a / c)))
  have hroot : IsExitMach a γ Pt P0 M := by
    unfold IsExitMach
    rw [exitFun_eq, hE, ← hcdef]
    field_simp
    ring
  refine ⟨M, ⟨?_, hroot⟩, ?_⟩
  · rcases lt_or_eq_of_le hM.1 with h | h
    · exact h
    · rw [← h, h0] at hE
      linarith
  · intro N hN
    apply (load_strictMono hγ).injective
    unfold IsExitMach at hN hroot
    rw [exitFun_eq, ← hcdef] at hN hroot
    apply mul_left_cancel₀ hc.ne'
    linarith

/-- C425: the exit Mach number rises with the pressure ahead of the nozzle. -/
theorem C425_pressure (a γ Pt Pt' P0 M M' : ℝ) (ha : 0 < a) (hγ : 1 < γ) (hP : 0 < P0) (h : Pt < Pt')
    (hM : IsExitMach a γ Pt P0 M) (hM' : IsExitMach a γ Pt' P0 M') : M < M' := by
  have hc := throat_pos hγ
  unfold IsExitMach at hM hM'
  rw [exitFun_eq] at hM hM'
  apply (load_strictMono hγ).lt_iff_lt.mp
  have : Pt / P0 / a < Pt' / P0 / a := by gcongr
  exact lt_of_mul_lt_mul_left (by linarith) hc.le

/-- C425: and it falls when the exit is made larger. -/
theorem C425_area (a a' γ Pt P0 M M' : ℝ) (ha : 0 < a) (hγ : 1 < γ) (hPt : 0 < Pt) (hP : 0 < P0) (h : a < a')
    (hM : IsExitMach a γ Pt P0 M) (hM' : IsExitMach a' γ Pt P0 M') : M' < M := by
  have hc := throat_pos hγ
  unfold IsExitMach at hM hM'
  rw [exitFun_eq] at hM hM'
  apply (load_strictMono hγ).lt_iff_lt.mp
  have : Pt / P0 / a' < Pt / P0 / a := by gcongr
  exact lt_of_mul_lt_mul_left (by linarith) hc.le

theorem flow_exit (γ R A P Tt M : ℝ) (hγ : 1 < γ) (hR : 0 < R) (hT : 0 < Tt) :
    flowThrough γ R A P (staticT γ Tt M) M = P * A * sqrt (γ / (R * Tt)) * load γ M := by
  have hk : 0 < 1 + (γ - 1) / 2 * M ^ 2 := by
    have : 0 ≤ (γ - 1) / 2 * M ^ 2 := mul_nonneg (by linarith) (by positivity)
    linarith
  simp only [flowThrough, staticT, load]
  generalize 1 + (γ - 1) / 2 * M ^ 2 = k at hk ⊢
  have hγ0 : 0 < γ := by linarith
  have e1 : γ * R * (Tt / k) = (γ / (R * Tt)) * (R * Tt) ^ 2 / k := by field_simp
  have e2 : sqrt (γ * R * (Tt / k)) = sqrt (γ / (R * Tt)) * (R * Tt) / sqrt k := by
    rw [e1, sqrt_div (by positivity), sqrt_mul (by positivity), sqrt_sq (by positivity)]
  rw [e2]
  have hs : sqrt k * sqrt k = k := mul_self_sqrt hk.le
  have hs0 : 0 < sqrt k := sqrt_pos.mpr hk
  generalize sqrt (γ / (R * Tt)) = w
  generalize sqrt k = s at hs hs0
  subst hs
  field_simp

theorem sonic_pressure (γ Pt : ℝ) (hγ : 1 < γ) :
    staticP γ Pt 1 * load γ 1 = Pt / ((γ + 1) / 2) ^ ((γ + 1) / (2 * (γ - 1))) := by
  have hk : 1 + (γ - 1) / 2 * (1 : ℝ) ^ 2 = (γ + 1) / 2 := by ring
  have hp : 0 < (γ + 1) / 2 := by linarith
  have hd : γ - 1 ≠ 0 := by linarith
  simp only [staticP, load, hk, sqrt_eq_rpow, one_mul]
  rw [div_mul_eq_mul_div, div_eq_div_iff (by positivity) (by positivity), mul_assoc, ← rpow_add hp]
  congr 2
  field_simp
  ring

/-- C425: the number found is the Mach number at which gas of the ambient pressure carries through the
exit what leaves the choked throat, for whatever gas, temperature and throat. -/
theorem C425_flow (a γ Pt P0 M R Tt At : ℝ) (ha : 0 < a) (hγ : 1 < γ) (hP : 0 < P0)
    (hR : 0 < R) (hT : 0 < Tt) (hA : 0 < At) :
    IsExitMach a γ Pt P0 M ↔
      flowThrough γ R (a * At) P0 (staticT γ Tt M) M =
        flowThrough γ R At (staticP γ Pt 1) (staticT γ Tt 1) 1 := by
  have hc := throat_pos hγ
  have hw : 0 < sqrt (γ / (R * Tt)) := sqrt_pos.mpr (by have : 0 < γ := by linarith
                                                        positivity)
  have hsp := sonic_pressure γ Pt hγ
  unfold IsExitMach
  rw [exitFun_eq, flow_exit _ _ _ _ _ _ hγ hR hT, flow_exit _ _ _ _ _ _ hγ hR hT]
  generalize sqrt (γ / (R * Tt)) = w at hw
  generalize ((γ + 1) / 2) ^ ((γ + 1) / (2 * (γ - 1))) = c at hc hsp
  rw [eq_div_iff hc.ne'] at hsp
  generalize load γ M = l
  constructor
  · intro h
    have h' : Pt = c * l * (P0 * a) := by
      field_simp at h
      linarith
    have : staticP γ Pt 1 * load γ 1 = l * (P0 * a) := by
      apply mul_right_cancel₀ hc.ne'
      linarith
    linear_combination (-At * w) * this
  · intro h
    have : staticP γ Pt 1 * load γ 1 = l * (P0 * a) := by
      apply mul_right_cancel₀ (mul_pos hA hw).ne'
      linear_combination -h
    rw [this] at hsp
    rw [← hsp]
    field_simp
    ring

/-- C425: the flow found is subsonic exactly when the pressure ahead is below the one at which the exit
itself would choke at ambient pressure. -/
theorem C425_subsonic (a γ Pt P0 M : ℝ) (ha : 0 < a) (hγ : 1 < γ) (hP : 0 < P0)
    (hM : IsExitMach a γ Pt P0 M) : M < 1 ↔ staticP γ Pt 1 < a * P0 := by
  have hc := throat_pos hγ
  have hsp := sonic_pressure γ Pt hγ
  have hl : 0 < load γ 1 := by
    have h0 : load γ 0 = 0 := by simp [load]
    have := load_strictMono hγ (zero_lt_one)
    linarith
  unfold IsExitMach at hM
  rw [exitFun_eq] at hM
  generalize ((γ + 1) / 2) ^ ((γ + 1) / (2 * (γ - 1))) = c at hc hsp hM
  rw [eq_div_iff hc.ne'] at hsp
  rw [← (load_strictMono hγ).lt_iff_lt]
  have h' : Pt = c * load γ M * (P0 * a) := by
    field_simp at hM
    linarith
  have key : staticP γ Pt 1 * load γ 1 = load γ M * (P0 * a) := by
    apply mul_right_cancel₀ hc.ne'
    linarith
  have hPa : 0 < P0 * a := by positivity
  constructor
  · intro h
    have := mul_lt_mul_of_pos_right h hPa
    rw [← key] at this
    have : staticP γ Pt 1 * load γ 1 < (a * P0) * load γ 1 := by linarith
    exact lt_of_mul_lt_mul_right this hl.le
  · intro h
    have := mul_lt_mul_of_pos_right h hl
    rw [key] at this
    exact lt_of_mul_lt_mul_right (by linarith : load γ M * (P0 * a) < load γ 1 * (P0 * a)) hPa.le

/-- C425: at the pressure ratio the library gives for the shock standing in the exit, the Mach number
found is the one behind a normal shock there. -/
theorem C425_shock_at_exit (a γ Pt P0 M1 : ℝ) (ha : 0 < a) (hγ : 1 < γ)
    (hM1 : 1 < M1) (h : P0 / Pt = Verif.Energy.Scramjet.shockRatio a γ M1) :
    IsExitMach a γ Pt P0 (Verif.Physics.Shock.normalMach γ M1) := by
  have hc := throat_pos hγ
  have hm : 0 < Verif.Physics.Shock.normalMach γ M1 := by
    unfold Verif.Physics.Shock.normalMach
    apply sqrt_pos.mpr
    apply div_pos
    · have : 0 < (γ - 1) * M1 * M1 := mul_pos (mul_pos (by linarith) (by linarith)) (by linarith)
      linarith
    · nlinarith [mul_pos (sub_pos.mpr hM1) (sub_pos.mpr hM1)]
  simp only [Verif.Energy.Scramjet.shockRatio] at h
  unfold IsExitMach exitFun
  generalize Verif.Physics.Shock.normalMach γ M1 = m at h hm
  have hr : 0 < (1 + (γ - 1) / 2 * m ^ (2 : ℝ)) ^ (1 / 2 : ℝ) := by
    apply rpow_pos_of_pos
    have : 0 ≤ (γ - 1) / 2 * m ^ (2 : ℝ) := mul_nonneg (by linarith) (by positivity)
    linarith
  generalize (1 + (γ - 1) / 2 * m ^ (2 : ℝ)) ^ (1 / 2 : ℝ) = r at h hr
  generalize ((γ + 1) / 2) ^ ((γ + 1) / (2 * (γ - 1))) = c at h hc
  have h2 : Pt / P0 = a * c * m * r := by
    rw [← inv_div, h, inv_inv]
  rw [h2]
  field_simp
  ring

/-- A nozzle of area ratio two with air at twice the ambient pressure has such a Mach number. -/
example : ∃ M, (0 < M ∧ IsExitMach 2 (7 / 5) 200000 100000 M) ∧
    ∀ N, IsExitMach 2 (7 / 5) 200000 100000 N → N = M :=
  C425_unique 2 (7 / 5) 200000 100000 (by norm_num) (by norm_num) (by norm_num) (by norm_num)

/-- At the pressure of `(γ+1)/2` cubed and times the root the exit of area one is sonic. -/
example : IsExitMach 1 (7 / 5) (((7 / 5 + 1) / 2 : ℝ) ^ ((7 / 5 + 1) / (2 * (7 / 5 - 1)) : ℝ) * load (7 / 5) 1) 1 1 := by
  unfold IsExitMach
  rw [exitFun_eq]
  ring

end Verif.Physics.ExitShock
