import Verif.Energy.Battery
import Verif.Mission.ProfileProps
/-
C36: battery energy stays within capacity.  C73: ageing and charge throughput.
-/

namespace Verif.Energy

open Verif.Num Polynomial

variable {n : Nat}

theorem clip01_mem (x : ℝ) : 0 ≤ clip01 x ∧ clip01 x ≤ 1 := by
  unfold clip01; dsimp only
  split_ifs <;> constructor <;> linarith

theorem clip01_id (x : ℝ) (h0 : 0 ≤ x) (h1 : x ≤ 1) : clip01 x = x := by
  unfold clip01; dsimp only
  rw [if_neg (not_lt.2 h1), if_neg (not_lt.2 h0)]

/-- **C36, state of charge.** For every current and power history the reported state of charge is
in [0,1], the depth of discharge is its complement, the open-circuit voltage never exceeds the
maximum, losses are never negative, and the state of charge is energy over (aged) capacity whenever
the energy is within capacity. -/
theorem C36_soc (I D : Mat n) (b : BatIn n) (i : Fin (n + 2)) :
    let o := energyCalc I D b
    (0 ≤ o.soc i ∧ o.soc i ≤ 1) ∧ o.soc i + o.dod i = 1 ∧ o.voc i ≤ b.vmax ∧ 0 ≤ o.losses i ∧
    (0 < b.emax * b.eGrowth → 0 ≤ o.energy i → o.energy i ≤ b.emax * b.eGrowth →
      o.soc i * (b.emax * b.eGrowth) = o.energy i) := by
  intro o
  refine ⟨clip01_mem _, ?_, ?_, ?_, ?_⟩
  · simp only [o, energyCalc]; ring
  · simp only [o, energyCalc]; split_ifs <;> linarith
  · simp only [o, energyCalc]
    refine mul_nonneg (sq_nonneg _) ?_
    split_ifs with h
    · exact le_rfl
    · exact not_lt.1 h
  · intro hE h0 h1
    have hs : o.soc i = clip01 (o.energy i / (b.emax * b.eGrowth)) := rfl
    rw [hs, clip01_id _ (div_nonneg h0 hE.le) ((div_le_one hE).2 h1), div_mul_cancel₀ _ hE.ne']

/-- Energy accounting: what is added when the cell is charged throughout. -/
theorem addEnergy_charge {I : Mat n} (hI : specI n (chebNode n) = some I) (T : ℝ) (hT : T ≠ 0) (P : Col n) (avail : ℝ)
    (hP : ∀ i : Fin (n + 1), 0 < P i.succ) (ha : 0 ≤ avail) (i : Fin (n + 2)) :
    addEnergy (T • I) (T⁻¹ • specD n (chebNode n)) P avail i = min ((T • I).mulVec P i) avail := by
  have hcol : ∀ f g : Col n, (∀ j : Fin (n + 1), f j.succ = g j.succ) → I.mulVec f i = I.mulVec g i := by
    intro f g h
    have h0 : ∀ i, I i 0 = 0 := by
      intro i
      unfold specI at hI
      split at hI
      · cases hI; exact Fin.cases rfl (fun _ => rfl) i
      · cases hI
    simp only [Matrix.mulVec, dotProduct]
    refine Finset.sum_congr rfl fun j _ => ?_
    refine Fin.cases ?_ (fun j => ?_) j
    · rw [h0]; ring
    · rw [h]
  set raw := (T • I).mulVec P with hraw
  set delta : Col n := fun i => if raw i - avail < 0 then 0 else raw i - avail with hdelta
  have e : addEnergy (T • I) (T⁻¹ • specD n (chebNode n)) P avail i
      = (T • I).mulVec (fun j => P j - (T⁻¹ • specD n (chebNode n)).mulVec delta j) i := by
    simp only [addEnergy, ← hraw, ← hdelta, Matrix.smul_mulVec, Pi.smul_apply]
    congr 1
    exact hcol _ _ fun j => by rw [if_pos (hP j)]
  have e2 : (fun j => P j - (T⁻¹ • specD n (chebNode n)).mulVec delta j) = P - T⁻¹ • (specD n (chebNode n)).mulVec delta := by
    funext j; simp [Matrix.smul_mulVec]
  rw [e, e2, Matrix.mulVec_sub, Pi.sub_apply, ← hraw, Matrix.mulVec_smul, Pi.smul_apply, Matrix.smul_mulVec, Pi.smul_apply,
    C26_integrate_derivative n (chebNode n) delta I hI i, smul_eq_mul, smul_eq_mul, ← mul_assoc, inv_mul_cancel₀ hT, one_mul]
  have hz : delta 0 = 0 := by
    have : raw 0 = 0 := by rw [hraw, Matrix.smul_mulVec, Pi.smul_apply, C26_first n _ P I hI, smul_zero]
    simp only [hdelta, this]
    split_ifs with h
    · rfl
    · linarith
  rw [hz, sub_zero]
  simp only [hdelta]
  split_ifs with h
  · rw [min_eq_left (by linarith)]; ring
  · rw [min_eq_right (by linarith)]; ring

/-- **C36, capacity, charging.** When the net power (after losses) is positive at every control
point, the stored energy is the initial energy plus the integral of the net power, cut off at the
capacity: it never exceeds the maximum energy.
Missing: histories with discharge, for which the claim is false (`C36_mixed_counterexample`,
`C36_discharge_counterexample`). -/
theorem C36_capacity_partial {I : Mat n} (hI : specI n (chebNode n) = some I) (T : ℝ) (hT : T ≠ 0) (b : BatIn n)
    (h0 : b.energy 0 ≤ b.emax * b.eGrowth) :
    let o := energyCalc (T • I) (T⁻¹ • specD n (chebNode n)) b
    (∀ i : Fin (n + 1), 0 < b.power i.succ - |o.losses i.succ|) →
    (∀ i, o.energy i = min (b.energy 0 + (T • I).mulVec (fun j => b.power j - |o.losses j|) i) (b.emax * b.eGrowth)) ∧
    ∀ i, o.energy i ≤ b.emax * b.eGrowth := by
  intro o hP
  have h : ∀ i, o.energy i = min (b.energy 0 + (T • I).mulVec (fun j => b.power j - |o.losses j|) i) (b.emax * b.eGrowth) := by
    intro i
    have := addEnergy_charge hI T hT (fun j => b.power j - |o.losses j|) (b.emax * b.eGrowth - b.energy 0) hP (by linarith) i
    have e : o.energy i = addEnergy (T • I) (T⁻¹ • specD n (chebNode n)) (fun j => b.power j - |o.losses j|)
        (b.emax * b.eGrowth - b.energy 0) i + b.energy 0 := rfl
    rw [e, this, ← min_add_add_right]
    congr 1 <;> ring
  exact ⟨h, fun i => (h i).trans_le (min_le_right _ _)⟩

/-- The energy history always starts at the initial energy. -/
theorem C36_start {I : Mat n} (hI : specI n (chebNode n) = some I) (T : ℝ) (D : Mat n) (b : BatIn n) :
    (energyCalc (T • I) D b).energy 0 = b.energy 0 := by
  simp only [energyCalc, addEnergy, Matrix.smul_mulVec, Pi.smul_apply, C26_first n _ _ I hI]
  simp

/-- A full cell without losses: unit capacity, zero current. -/
def fullCell (p1 p2 : ℝ) : BatIn 1 :=
  { current := fun _ => 0, power := ![0, p1, p2], vmax := 4, mass := 1, cp := 1, temp := fun _ => 300, emax := 1,
    energy := fun _ => 1, q0 := 0, rGrowth := 1, eGrowth := 1, discharge := true }

theorem fullCell_losses (I D : Mat 1) (p1 p2 : ℝ) (i : Fin 3) : (energyCalc I D (fullCell p1 p2)).losses i = 0 := by
  simp [energyCalc, fullCell]

/-- C36 fails for a history that only discharges: the collocated integral of a sharply increasing
discharge is positive in the middle, and nothing caps it. -/
theorem C36_discharge_counterexample {I D : Mat 1} (hI : specI 1 (chebNode 1) = some I) :
    let o := energyCalc I D (fullCell (-1) (-10))
    (∀ i, (fullCell (-1) (-10)).power i ≤ 0) ∧ o.energy 1 = 11 / 4 ∧ ¬ o.energy 1 ≤ (fullCell (-1) (-10)).emax := by
  intro o
  have he : o.energy 1 = 11 / 4 := by
    have e : o.energy 1 = addEnergy I D (fun j => (fullCell (-1) (-10)).power j - |o.losses j|) (1 * 1 - 1) 1 + 1 := rfl
    have hl : (fun j => (fullCell (-1) (-10)).power j - |o.losses j|) = ![0, -1, -10] := by
      funext j
      simp only [o, fullCell_losses]
      simp [fullCell]
    rw [e, hl]
    have hs : (fun i : Fin 3 => if (![0, -1, -10] : Fin 3 → ℝ) i > 0 then
        (![0, -1, -10] : Fin 3 → ℝ) i - D.mulVec (fun i => if I.mulVec ![0, -1, -10] i - (1 * 1 - 1) < 0 then 0 else I.mulVec ![0, -1, -10] i - (1 * 1 - 1)) i
        else (![0, -1, -10] : Fin 3 → ℝ) i) = ![0, -1, -10] := by
      funext i
      refine if_neg ?_
      fin_cases i <;> norm_num
    simp only [addEnergy]
    rw [hs, Mission.integrate3 hI, Mission.cheb1_mid]
    norm_num [Matrix.cons_val_two]
  refine ⟨fun i => ?_, he, ?_⟩
  · fin_cases i <;> norm_num [fullCell]
  · rw [he]; norm_num [fullCell]

/-- The three-point differentiation matrix at the middle point. -/
theorem diff3_mid (f : Fin 3 → ℝ) : (specD 1 (chebNode 1)).mulVec f 1 = f 2 - f 0 := by
  have h0 : chebNode 1 0 = 0 := Mission.cheb_zero 1
  have h2 : chebNode 1 2 = 1 := Mission.cheb_last 1
  have h1 := Mission.cheb1_mid
  set c := 2 * f 0 - 4 * f 1 + 2 * f 2 with hc
  set b := -3 * f 0 + 4 * f 1 - f 2 with hb
  have hdeg : (C (f 0) + C b * X + C c * X ^ 2 : ℝ[X]).degree < ((1 + 2 : ℕ) : WithBot ℕ) := by
    refine lt_of_le_of_lt (degree_add_le _ _) (max_lt (lt_of_le_of_lt (degree_add_le _ _) (max_lt ?_ ?_)) ?_)
    · exact lt_of_le_of_lt degree_C_le (by decide)
    · exact lt_of_le_of_lt (degree_C_mul_X_le b) (by decide)
    · exact lt_of_le_of_lt (degree_C_mul_X_pow_le 2 c) (by decide)
  have h := C27_exact 1 (C (f 0) + C b * X + C c * X ^ 2) hdeg 1
  have e : (fun j => (C (f 0) + C b * X + C c * X ^ 2 : ℝ[X]).eval (chebNode 1 j)) = f := by
    funext j
    simp only [eval_add, eval_mul, eval_C, eval_X, eval_pow]
    have hj : ∀ j : Fin 3, f 0 + b * chebNode 1 j + c * chebNode 1 j ^ 2 = f j := by
      intro j
      fin_cases j
      · show f 0 + b * chebNode 1 0 + c * chebNode 1 0 ^ 2 = f 0
        rw [h0]; ring
      · show f 0 + b * chebNode 1 1 + c * chebNode 1 1 ^ 2 = f 1
        rw [h1]; ring
      · show f 0 + b * chebNode 1 2 + c * chebNode 1 2 ^ 2 = f 2
        rw [h2]; ring
    exact hj j
  rw [e] at h
  rw [h, h1]
  simp
  ring

/-- C36 fails for a history that charges and then discharges: the correction is applied only where
the power is positive, and a full cell ends up above capacity at the middle point. -/
theorem C36_mixed_counterexample {I : Mat 1} (hI : specI 1 (chebNode 1) = some I) :
    let o := energyCalc I (specD 1 (chebNode 1)) (fullCell 1 (-4))
    o.energy 1 = 2 ∧ ¬ o.energy 1 ≤ (fullCell 1 (-4)).emax ∧ o.soc 1 = 1 := by
  intro o
  have he : o.energy 1 = 2 := by
    have e : o.energy 1 = addEnergy I (specD 1 (chebNode 1)) (fun j => (fullCell 1 (-4)).power j - |o.losses j|) (1 * 1 - 1) 1 + 1 := rfl
    have hl : (fun j => (fullCell 1 (-4)).power j - |o.losses j|) = ![0, 1, -4] := by
      funext j
      simp only [o, fullCell_losses]
      simp [fullCell]
    have hraw : I.mulVec ![0, 1, -4] = ![0, 7 / 4, 1] := by
      funext i
      have h0 : chebNode 1 0 = 0 := Mission.cheb_zero 1
      have h2 : chebNode 1 2 = 1 := Mission.cheb_last 1
      have hv1 : (![0, 1, -4] : Fin 3 → ℝ) 1 = 1 := rfl
      have hv2 : (![0, 1, -4] : Fin 3 → ℝ) 2 = -4 := rfl
      rw [Mission.integrate3 hI, hv1, hv2]
      fin_cases i
      · norm_num [h0]
      · norm_num [Mission.cheb1_mid]
      · show (2 * 1 - -4) * chebNode 1 2 + (-4 - 1) * chebNode 1 2 ^ 2 = (1 : ℝ)
        rw [h2]; norm_num
    rw [e, hl]
    simp only [addEnergy, hraw]
    rw [Mission.integrate3 hI, Mission.cheb1_mid, diff3_mid]
    norm_num [Matrix.cons_val_two]
  refine ⟨he, by rw [he]; norm_num [fullCell], ?_⟩
  have hs : o.soc 1 = clip01 (o.energy 1 / (1 * 1)) := rfl
  rw [hs, he]; norm_num [clip01]

/-- A full cell that is charged further stays exactly full. -/
example {I : Mat 1} (hI : specI 1 (chebNode 1) = some I) (i : Fin 3) :
    (energyCalc ((1 : ℝ) • I) ((1 : ℝ)⁻¹ • specD 1 (chebNode 1)) (fullCell 1 1)).energy i ≤ 1 := by
  have := (C36_capacity_partial hI 1 one_ne_zero (fullCell 1 1) (by norm_num [fullCell])
    (fun j => by rw [fullCell_losses]; fin_cases j <;> simp [fullCell])).2 i
  simpa [fullCell] using this

/-! ### C73 -/

/-- Charge throughput of the generic cell never decreases over time. -/
theorem C73_throughput (q0 : ℝ) (t cur : Nat → ℝ) (ht : Monotone t) : genericThroughput q0 t cur 0 = q0 ∧ Monotone (genericThroughput q0 t cur) := by
  refine ⟨rfl, monotone_nat_of_le_succ fun k => ?_⟩
  simp only [genericThroughput, throughput]
  have h1 := ht (Nat.le_succ k)
  have : 0 ≤ (t (k + 1) - t k) * (|cur (k + 1)| + |cur k|) / 2 / 3600 := by
    have := abs_nonneg (cur k); have := abs_nonneg (cur (k + 1))
    have h2 : 0 ≤ t (k + 1) - t k := by have : t k ≤ t (k + 1) := h1; linarith
    positivity
  linarith

theorem nmcCurrent_range (c np : ℝ) (d : Bool) : 0 ≤ nmcCurrent c np d ∧ nmcCurrent c np d ≤ 8 := by
  unfold nmcCurrent
  dsimp only
  generalize (if d = true then c / np else -c / np) = x
  split_ifs <;> constructor <;> linarith

/-- The NMC cell, for every history of the current: what is added up is limited to the range of the map first,
so that it is never negative. -/
theorem C73_nmc (q0 : ℝ) (t cur : Nat → ℝ) (np : ℝ) (d : Bool) (ht : Monotone t) :
    nmcThroughput q0 t cur np d 0 = q0 ∧ Monotone (nmcThroughput q0 t cur np d) := by
  refine ⟨rfl, monotone_nat_of_le_succ fun k => ?_⟩
  have h2 : 0 ≤ t (k + 1) - t k := by have : t k ≤ t (k + 1) := ht (Nat.le_succ k); linarith
  have h3 := (nmcCurrent_range (cur k) np d).1
  have h4 := (nmcCurrent_range (cur (k + 1)) np d).1
  simp only [nmcThroughput, throughput]
  have : 0 ≤ (t (k + 1) - t k) * (nmcCurrent (cur (k + 1)) np d + nmcCurrent (cur k) np d) / 2 / 3600 := by
    positivity
  linarith

/-- Not because nothing were counted: one ampere for an hour in a discharge is one ampere hour. -/
example : nmcThroughput 5 (fun k => 3600 * k) (fun _ => 3) 3 true 2 = 7 := by
  norm_num [nmcThroughput, throughput, nmcCurrent]

/-- Ageing: along any sequence of updates the capacity factor never rises and the resistance factor
never falls. -/
theorem C73_health (upd : Nat → ℝ × ℝ) (h : Nat → ℝ × ℝ) (hh : ∀ k, h (k + 1) = health (upd k).1 (upd k).2 (h k)) :
    Antitone (fun k => (h k).1) ∧ Monotone (fun k => (h k).2) :=
  ⟨antitone_nat_of_succ_le fun k => by simp only [hh, health]; exact min_le_right _ _,
   monotone_nat_of_le_succ fun k => by simp only [hh, health]; exact le_max_right _ _⟩

/-! ### C74 -/

/-- The cell is never reported colder than its surroundings. -/
theorem C74_ambient_partial (I : Mat n) (pnet : Col n) (mass cp T0 : ℝ) (amb : Col n) (i : Fin (n + 2)) :
    amb i ≤ cellTemp I pnet mass cp T0 amb i ∧
    (amb i ≤ T0 + I.mulVec (fun j => pnet j / (mass * cp)) i →
      cellTemp I pnet mass cp T0 amb i = T0 + I.mulVec (fun j => pnet j / (mass * cp)) i) := by
  simp only [cellTemp]
  refine ⟨?_, fun h => if_neg (not_lt.2 h)⟩
  split_ifs with h
  · exact le_rfl
  · exact not_lt.1 h

/-- The correlation for Reynolds numbers above 1000 is never used, whatever the Reynolds numbers. -/
theorem C74_counterexample (re : Col n) (st sl : ℝ) : nusselt re st sl = (0.51, 0.5) := by
  unfold nusselt; dsimp only
  split_ifs <;> first | rfl | norm_num at *

end Verif.Energy
