import Verif.Energy.BatteryProps
import Mathlib.Tactic.Linarith
import Mathlib.Tactic.Positivity

/-!
Voltage, resistance and heat of a generic lithium ion battery (C444); the model is `Energy/Battery.lean`.
-/

namespace Verif.Energy

open Verif.Num

variable {n : Nat}

theorem cellR_low (s : ℝ) (h0 : 0 ≤ s) (h1 : s ≤ 1) : 0.0043 ≤ cellR s := by
  unfold cellR
  have h : 0 ≤ 0.0069 - 0.0273 * s + 0.0418 * s ^ 2 - 0.0169 * s ^ 3 := by
    nlinarith [mul_nonneg h0 (sub_nonneg.2 h1), mul_nonneg (mul_nonneg h0 h0) (sub_nonneg.2 h1), sq_nonneg (s - 0.45),
      mul_nonneg (sub_nonneg.2 h1) (sq_nonneg (s - 0.45)), mul_nonneg h0 (sq_nonneg (s - 0.45))]
  nlinarith [mul_nonneg h0 h]

theorem cubic_mono (s t : ℝ) (h : s < t) :
    3.685 + 0.2156 * s - 0.1178 * s ^ 2 + 0.3201 * s ^ 3 < 3.685 + 0.2156 * t - 0.1178 * t ^ 2 + 0.3201 * t ^ 3 := by
  have hq : 0 < 0.2156 - 0.1178 * (t + s) + 0.3201 * (t ^ 2 + t * s + s ^ 2) := by
    nlinarith [sq_nonneg (t - s), sq_nonneg (t + s - 0.25)]
  nlinarith [mul_pos (sub_pos.2 h) hq]

theorem vNorm_strictMono : StrictMono vNorm := by
  intro s t h
  unfold vNorm
  have h1 := cubic_mono s t h
  have h2 : Real.exp (-35 * t) < Real.exp (-35 * s) := Real.exp_lt_exp.2 (by linarith)
  apply div_lt_div_of_pos_right _ (by norm_num)
  linarith

/-- **C444, resistance.** The resistance of a battery that has not got better with age is never below 4.3 mΩ, so the
correction of negative resistances is never needed. -/
theorem C444_resistance (I D : Mat n) (b : BatIn n) (hR : 1 ≤ b.rGrowth) (i : Fin (n + 2)) :
    0.0043 ≤ (energyCalc I D b).resistance i := by
  simp only [energyCalc]
  generalize hs : clip01 ((I.mulVec b.power i + b.energy 0) / (b.emax * b.eGrowth)) = s
  have hm := clip01_mem ((I.mulVec b.power i + b.energy 0) / (b.emax * b.eGrowth))
  rw [hs] at hm
  have hl := cellR_low s hm.1 hm.2
  have : 0.0043 ≤ cellR s * b.rGrowth := by nlinarith
  rw [if_neg (by linarith)]
  exact this

/-- **C444, voltage.** The open circuit voltage is between six tenths of the maximum voltage and the maximum voltage, and more
charge gives no less voltage. -/
theorem C444_voltage (I D : Mat n) (b : BatIn n) (hv : 0 < b.vmax) (i : Fin (n + 2)) :
    0.6 * b.vmax ≤ (energyCalc I D b).voc i ∧ (energyCalc I D b).voc i ≤ b.vmax ∧
    ∀ j, (energyCalc I D b).soc i ≤ (energyCalc I D b).soc j → (energyCalc I D b).voc i ≤ (energyCalc I D b).voc j := by
  have hv' : ∀ k, (energyCalc I D b).voc k = if vNorm ((energyCalc I D b).soc k) * b.vmax > b.vmax then b.vmax
      else vNorm ((energyCalc I D b).soc k) * b.vmax := fun k => rfl
  have hm := (C36_soc I D b i).1.1
  have h0 : (0.6 : ℝ) ≤ vNorm 0 := by unfold vNorm; norm_num
  refine ⟨?_, ?_, ?_⟩
  · rw [hv']
    have : vNorm 0 ≤ vNorm ((energyCalc I D b).soc i) := vNorm_strictMono.monotone hm
    split_ifs <;> nlinarith
  · rw [hv']; split_ifs with h
    · exact le_rfl
    · exact not_lt.1 h
  · intro j hij
    rw [hv', hv']
    have : vNorm ((energyCalc I D b).soc i) * b.vmax ≤ vNorm ((energyCalc I D b).soc j) * b.vmax :=
      mul_le_mul_of_nonneg_right (vNorm_strictMono.monotone hij) hv.le
    split_ifs <;> linarith

/-- **C444, below full charge** the voltage does rise: it is not at its limit while the battery is not full. -/
theorem C444_rises (I D : Mat n) (b : BatIn n) (hv : 0 < b.vmax) (i j : Fin (n + 2))
    (hij : (energyCalc I D b).soc i < (energyCalc I D b).soc j) (hj : (energyCalc I D b).soc j ≤ 0.99) :
    (energyCalc I D b).voc i < (energyCalc I D b).voc j := by
  have hv' : ∀ k, (energyCalc I D b).voc k = if vNorm ((energyCalc I D b).soc k) * b.vmax > b.vmax then b.vmax
      else vNorm ((energyCalc I D b).soc k) * b.vmax := fun k => rfl
  have h99 : vNorm 0.99 < 1 := by
    unfold vNorm
    have := Real.exp_pos (-35 * (0.99 : ℝ))
    rw [div_lt_one (by norm_num)]
    nlinarith
  have a1 : vNorm ((energyCalc I D b).soc j) < 1 := lt_of_le_of_lt (vNorm_strictMono.monotone hj) h99
  have a2 := vNorm_strictMono hij
  rw [hv', hv', if_neg (by nlinarith), if_neg (by nlinarith)]
  exact mul_lt_mul_of_pos_right a2 hv

/-- **C444, load.** Discharging lowers the voltage at the terminals by the voltage over the resistance and charging raises it
(charging currents go in as negative numbers); the heat is that voltage times the current, and never negative. -/
theorem C444_load (I D : Mat n) (b : BatIn n) (i : Fin (n + 2))
    (hsign : if b.discharge then 0 ≤ b.current i else b.current i ≤ 0) :
    (b.discharge = true → (energyCalc I D b).vul i ≤ (energyCalc I D b).voc i) ∧
    (b.discharge = false → (energyCalc I D b).voc i ≤ (energyCalc I D b).vul i) ∧
    (energyCalc I D b).losses i = |(energyCalc I D b).voc i - (energyCalc I D b).vul i| * |b.current i| ∧
    (energyCalc I D b).load i = (energyCalc I D b).vul i * |b.current i| := by
  have hR : 0 ≤ (energyCalc I D b).resistance i := by
    simp only [energyCalc]; split_ifs <;> linarith
  have hu : (energyCalc I D b).vul i = if b.discharge then
      (energyCalc I D b).voc i - (energyCalc I D b).current i * (energyCalc I D b).resistance i else
      (energyCalc I D b).voc i + (energyCalc I D b).current i * (energyCalc I D b).resistance i := rfl
  have hQ : (energyCalc I D b).losses i = (energyCalc I D b).current i ^ 2 * (energyCalc I D b).resistance i := rfl
  have hL : (energyCalc I D b).load i = (energyCalc I D b).vul i * (energyCalc I D b).current i := rfl
  have hc : (energyCalc I D b).current i = if b.discharge then b.current i else -b.current i := by
    simp only [energyCalc]; split_ifs <;> rfl
  rw [hQ, hL]
  generalize (energyCalc I D b).resistance i = R at *
  generalize (energyCalc I D b).voc i = V at *
  cases hd : b.discharge with
  | true =>
    simp only [hd, if_true] at hu hc hsign
    rw [hu, hc]
    have h0 : 0 ≤ b.current i := hsign
    refine ⟨fun _ => by nlinarith, fun h => by simp at h, ?_, by rw [abs_of_nonneg h0]⟩
    rw [show V - (V - b.current i * R) = b.current i * R by ring, abs_mul, abs_of_nonneg h0, abs_of_nonneg hR]; ring
  | false =>
    simp only [hd, Bool.false_eq_true, if_false] at hu hc hsign
    rw [hu, hc]
    have h0 : b.current i ≤ 0 := hsign
    refine ⟨fun h => by simp at h, fun _ => by nlinarith, ?_, by rw [abs_of_nonpos h0]⟩
    rw [show V - (V + -b.current i * R) = b.current i * R by ring, abs_mul, abs_of_nonpos h0, abs_of_nonneg hR]; ring

theorem pack_losses (I D : Mat n) (b : BatIn n) (i : Fin (n + 2)) :
    (energyCalc I D b).losses i = b.current i ^ 2 * (energyCalc I D b).resistance i := by
  simp only [energyCalc]
  cases b.discharge <;> simp

/-- **C444, pack.** With as many strings as cells in a string the heat is that of all cells, each with the current of its
string and the resistance reported.  Missing: all other packs, see the counterexample. -/
theorem C444_pack_partial (I D : Mat n) (b : BatIn n) (i : Fin (n + 2)) (s : ℕ) (hs : 0 < s) :
    (energyCalc I D b).losses i = (s * s : ℕ) * ((b.current i / s) ^ 2 * (energyCalc I D b).resistance i) := by
  rw [pack_losses]
  have : (s : ℝ) ≠ 0 := by positivity
  push_cast
  field_simp

/-- **C444**, refuted: the resistance is that of one cell and the current that of the pack, so with numbers of cells in series
and in parallel that differ the heat is not that of the cells. -/
theorem C444_pack_counterexample (I D : Mat n) (b : BatIn n) (hR : 1 ≤ b.rGrowth) (i : Fin (n + 2)) (s p : ℕ) (hp : 0 < p)
    (hsp : s ≠ p) (hc : b.current i ≠ 0) :
    (energyCalc I D b).losses i ≠ (s * p : ℕ) * ((b.current i / p) ^ 2 * (energyCalc I D b).resistance i) := by
  rw [pack_losses]
  have hr := C444_resistance I D b hR i
  generalize (energyCalc I D b).resistance i = R at *
  have hp' : (p : ℝ) ≠ 0 := by positivity
  have hR0 : R ≠ 0 := by linarith
  intro h
  push_cast at h
  field_simp at h
  apply hsp
  have : (s : ℝ) = p := by linarith
  exact_mod_cast this

/-- A battery of 400 V discharged with 50 A, and charged with 3 A. -/
example (I D : Mat n) (E T P : Col n) (i : Fin (n + 2)) :
    (energyCalc I D ⟨fun _ => 50, P, 400, 100, 1000, T, 1, E, 0, 1, 1, true⟩).vul i ≤
      (energyCalc I D ⟨fun _ => 50, P, 400, 100, 1000, T, 1, E, 0, 1, 1, true⟩).voc i :=
  (C444_load I D _ i (by norm_num)).1 rfl

example (I D : Mat n) (E T P : Col n) (i : Fin (n + 2)) :
    (energyCalc I D ⟨fun _ => -3, P, 400, 100, 1000, T, 1, E, 0, 1, 1, false⟩).voc i ≤
      (energyCalc I D ⟨fun _ => -3, P, 400, 100, 1000, T, 1, E, 0, 1, 1, false⟩).vul i :=
  (C444_load I D _ i (by norm_num)).2.1 rfl

end Verif.Energy
