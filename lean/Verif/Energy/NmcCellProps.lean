import Verif.Energy.NmcCell
/-
C380: voltage of the cell within the measurements.  C381: reading the voltage.  C382: charge counted.
C383: electrical state of the cell.  C384: heat of the cell.  C385: capacity of an aged battery.
-/

namespace Verif.Energy.Nmc

open Verif.Num Verif.Energy

variable {n : Nat}

theorem limit_mem {lo hi : ℝ} (h : lo ≤ hi) (x : ℝ) : lo ≤ limit lo hi x ∧ limit lo hi x ≤ hi := by
  unfold limit; dsimp only
  split_ifs <;> constructor <;> linarith

theorem limit_id {lo hi x : ℝ} (h0 : lo ≤ x) (h1 : x ≤ hi) : limit lo hi x = x := by
  unfold limit; dsimp only
  rw [if_neg (not_lt.2 h0), if_neg (not_lt.2 h1)]

theorem limit_idem {lo hi : ℝ} (h : lo ≤ hi) (x : ℝ) : limit lo hi (limit lo hi x) = limit lo hi x :=
  limit_id (limit_mem h x).1 (limit_mem h x).2

theorem limitT_mem (T : Option ℝ) : 272.65 ≤ limitT T ∧ limitT T ≤ 322.65 := limit_mem (by norm_num) _

theorem mix_mem {a b w lo hi : ℝ} (ha : lo ≤ a ∧ a ≤ hi) (hb : lo ≤ b ∧ b ≤ hi) (h0 : 0 ≤ w) (h1 : w ≤ 1) :
    lo ≤ a * (1 - w) + b * w ∧ a * (1 - w) + b * w ≤ hi := by
  have hw : 0 ≤ 1 - w := by linarith
  constructor
  · nlinarith [mul_le_mul_of_nonneg_right ha.1 hw, mul_le_mul_of_nonneg_right hb.1 h0]
  · nlinarith [mul_le_mul_of_nonneg_right ha.2 hw, mul_le_mul_of_nonneg_right hb.2 h0]

/-- Between the first and the last node an axis mixes two neighbouring values. -/
theorem axis_mem {x0 h : ℝ} (hh : 0 < h) {m : ℕ} (hm : 0 < m) {f : ℕ → ℝ} {lo hi : ℝ}
    (hf : ∀ k ≤ m, lo ≤ f k ∧ f k ≤ hi) {x : ℝ} (h0 : x0 ≤ x) (h1 : x ≤ x0 + m * h) :
    lo ≤ axis x0 h m f x ∧ axis x0 h m f x ≤ hi := by
  have ht0 : 0 ≤ (x - x0) / h := div_nonneg (by linarith) hh.le
  have ht1 : (x - x0) / h ≤ m := by rw [div_le_iff₀ hh]; linarith
  have hw : ∀ k : ℕ, (x - (x0 + k * h)) / h = (x - x0) / h - k := by intro k; field_simp; ring
  unfold axis; dsimp only
  rw [hw]
  generalize (x - x0) / h = t at *
  have hc : ⌈t⌉₊ ≤ m := Nat.ceil_le.2 ht1
  have hk : min (⌈t⌉₊ - 1) (m - 1) = ⌈t⌉₊ - 1 := min_eq_left (by omega)
  rw [hk]
  refine mix_mem (hf _ (by omega)) (hf _ (by omega)) ?_ ?_
  · rcases Nat.eq_zero_or_pos ⌈t⌉₊ with h | h
    · rw [h]; simpa using ht0
    · have := Nat.ceil_lt_add_one ht0
      rw [Nat.cast_sub h]; push_cast; linarith
  · have := Nat.le_ceil t
    rcases Nat.eq_zero_or_pos ⌈t⌉₊ with h | h
    · rw [h] at this ⊢; norm_num at this ⊢; linarith
    · rw [Nat.cast_sub h]; push_cast; linarith

/-- At a node an axis has the value of the node. -/
theorem axis_node {x0 h : ℝ} (hh : 0 < h) {m : ℕ} (hm : 0 < m) (f : ℕ → ℝ) {j : ℕ} (hj : j ≤ m) :
    axis x0 h m f (x0 + j * h) = f j := by
  have hw : ∀ k : ℕ, (x0 + j * h - (x0 + k * h)) / h = (j : ℝ) - k := by intro k; field_simp; ring
  have ht : (x0 + j * h - x0) / h = (j : ℝ) := by field_simp; ring
  unfold axis; dsimp only
  rw [hw, ht, Nat.ceil_natCast, min_eq_left (by omega)]
  rcases j with _ | j
  · simp
  · simp

theorem npInterp_mem (c : List (ℝ × ℝ)) (hc : c ≠ []) {lo hi : ℝ} (h : ∀ p ∈ c, lo ≤ p.2 ∧ p.2 ≤ hi) (x : ℝ) :
    lo ≤ npInterp c x ∧ npInterp c x ≤ hi := by
  induction c with
  | nil => exact absurd rfl hc
  | cons p c ih =>
    cases c with
    | nil => simpa [npInterp] using h p (by simp)
    | cons q c =>
      simp only [npInterp]
      have hp := h p (by simp)
      have hq := h q (by simp)
      split_ifs with h1 h2
      · exact hp
      · have hd : 0 < q.1 - p.1 := by push Not at h1; linarith
        have e : p.2 + (q.2 - p.2) / (q.1 - p.1) * (x - p.1)
            = p.2 * (1 - (x - p.1) / (q.1 - p.1)) + q.2 * ((x - p.1) / (q.1 - p.1)) := by
          field_simp; ring
        rw [e]
        push Not at h1
        exact mix_mem hp hq (div_nonneg (by linarith) hd.le) ((div_le_one hd).2 (by linarith))
      · exact ih (by simp) fun r hr => h r (List.mem_cons_of_mem _ hr)

/-- **C380.** For every state of charge, temperature (even one that is not a number) and current the voltage lies
between the least and the greatest voltage measured. -/
theorem C380_range (raw : ℕ → ℕ → List (ℝ × ℝ)) (hne : ∀ a b, raw a b ≠ []) {lo hi : ℝ}
    (h : ∀ a b, ∀ p ∈ raw a b, lo ≤ p.2 ∧ p.2 ≤ hi) (a : Args) :
    lo ≤ (stateVariables raw a).1 ∧ (stateVariables raw a).1 ≤ hi := by
  have hi8 := limit_mem (lo := 0) (hi := 8) (by norm_num) a.i
  have hT := limitT_mem a.T
  have hs := limit_mem (lo := 0) (hi := 1) (by norm_num) a.soc
  simp only [stateVariables, surface]
  refine axis_mem (by norm_num) (by norm_num) (fun i _ => ?_) hi8.1 (by norm_num; exact hi8.2)
  refine axis_mem (by norm_num) (by norm_num) (fun j _ => ?_) hT.1 (by norm_num at hT ⊢; linarith [hT.2])
  refine axis_mem (by norm_num) (by norm_num) (fun k _ => ?_) (by linarith [hs.2]) (by norm_num; linarith [hs.1])
  exact npInterp_mem _ (hne _ _) (h _ _) _

/-- Every measurement at one of the fifteen depths of discharge is reproduced. -/
theorem C380_measured (raw : ℕ → ℕ → List (ℝ × ℝ)) (a b c : ℕ) (ha : a ≤ 4) (hb : b ≤ 5) (hc : c ≤ 14)
    (hs : (raw a b).Pairwise fun p q => p.1 < q.1) (p : ℝ × ℝ) (hp : p ∈ raw a b)
    (hx : p.1 = c / 14 * maxX (raw a b)) :
    (stateVariables raw ⟨1 - c / 14, some (272.65 + b * 10), a * 2⟩).1 = p.2 := by
  have ha' : (a : ℝ) ≤ 4 := by exact_mod_cast ha
  have hb' : (b : ℝ) ≤ 5 := by exact_mod_cast hb
  have hc' : (c : ℝ) ≤ 14 := by exact_mod_cast hc
  have ha0 : (0 : ℝ) ≤ a := Nat.cast_nonneg a
  have hb0 : (0 : ℝ) ≤ b := Nat.cast_nonneg b
  have hc0 : (0 : ℝ) ≤ c := Nat.cast_nonneg c
  have h1 : limit 0 8 ((a : ℝ) * 2) = 0 + a * 2 := by rw [limit_id (by positivity) (by linarith)]; ring
  have h2 : limitT (some (272.65 + (b : ℝ) * 10)) = 272.65 + b * 10 := by
    simp only [limitT, Option.getD_some]
    exact limit_id (by linarith) (by norm_num; linarith)
  have h3 : 1 - limit 0 1 (1 - (c : ℝ) / 14) = 0 + c * (1 / 14) := by
    rw [limit_id (by linarith [(div_le_one (by norm_num : (0:ℝ) < 14)).2 hc']) (by linarith [div_nonneg hc0 (by norm_num : (0:ℝ) ≤ 14)])]
    ring
  simp only [stateVariables, surface]
  rw [h1, h2, h3, axis_node (by norm_num) (by norm_num) _ ha, axis_node (by norm_num) (by norm_num) _ hb,
    axis_node (by norm_num) (by norm_num) _ hc]
  unfold processed
  rw [← hx]
  exact npInterp_node _ hs p hp

/-- Beyond the measured range the voltage is the one at the nearest end. -/
theorem C380_outside (raw : ℕ → ℕ → List (ℝ × ℝ)) (a : Args) (s T i : ℝ)
    (hs : s = min 1 (max 0 a.soc)) (hT : T = min 322.65 (max 272.65 (a.T.getD 302.65))) (hi : i = min 8 (max 0 a.i)) :
    (stateVariables raw a).1 = (stateVariables raw ⟨s, some T, i⟩).1 := by
  have key : ∀ lo hi x : ℝ, lo ≤ hi → limit lo hi x = min hi (max lo x) := by
    intro lo hi x hh
    unfold limit; dsimp only
    split_ifs with h1 h2 h2
    · linarith
    · rw [max_eq_left h1.le, min_eq_right hh]
    · rw [max_eq_right (not_lt.1 h1), min_eq_left h2.le]
    · rw [max_eq_right (not_lt.1 h1), min_eq_right (not_lt.1 h2)]
  simp only [stateVariables, limitT, Option.getD_some]
  rw [hs, hT, hi, ← key _ _ _ (by norm_num), ← key _ _ _ (by norm_num), ← key _ _ _ (by norm_num),
    limit_idem (by norm_num), limit_idem (by norm_num), limit_idem (by norm_num)]

/-- Two straight curves with different voltages: half way between two currents the mean of the two. -/
noncomputable def twoCurves : ℕ → ℕ → List (ℝ × ℝ) := fun a _ => [(0, 4 - a), (1, 4 - a)]

theorem twoCurves_processed (a b c : ℕ) : processed (twoCurves a b) c = 4 - a := by
  simp only [processed, twoCurves, npInterp]
  split_ifs <;> simp

example : (stateVariables twoCurves ⟨0.5, none, 1⟩).1 = 3.5 := by
  have h1 : limit 0 8 1 = (1 : ℝ) := limit_id (by norm_num) (by norm_num)
  simp only [stateVariables, surface, twoCurves_processed, h1]
  simp only [axis]
  norm_num
  ring

example : ∀ a b, ∀ p ∈ (fun _ _ => [(0, 4), (3, 2.5)] : ℕ → ℕ → List (ℝ × ℝ)) a b, (2.5 : ℝ) ≤ p.2 ∧ p.2 ≤ 4 := by
  intro a b p hp
  simp only [List.mem_cons, List.not_mem_nil, or_false] at hp
  rcases hp with rfl | rfl <;> norm_num

/-! ### C381 -/

/-- **C381.** Within the measured range reading the voltage leaves the conditions as they were, and reading
it again gives the same voltage. -/
theorem C381_pure_partial (raw : ℕ → ℕ → List (ℝ × ℝ)) (ns np : ℝ) (c : Cond) :
    (computeVoltage raw ns np c).2.current = c.current ∧
    (0 ≤ c.soc → c.soc ≤ 1 → (∃ T, c.T = some T ∧ 272.65 ≤ T ∧ T ≤ 322.65) → (computeVoltage raw ns np c).2 = c) ∧
    computeVoltage raw ns np (computeVoltage raw ns np c).2 = computeVoltage raw ns np c := by
  refine ⟨rfl, ?_, ?_⟩
  · rintro h0 h1 ⟨T, hT, h2, h3⟩
    obtain ⟨s, T', cur⟩ := c
    simp only at hT h0 h1
    subst hT
    simp only [computeVoltage, stateVariables, limited, limitT, Option.getD_some, limit_id h0 h1, limit_id h2 h3]
  · simp only [computeVoltage, stateVariables, limited, limitT, Option.getD_some]
    rw [limit_idem (by norm_num), limit_idem (by norm_num)]

/-- A state of charge or a temperature out of range is replaced in the conditions of the mission, whatever the
curves. -/
theorem C381_counterexample (raw : ℕ → ℕ → List (ℝ × ℝ)) :
    (computeVoltage raw 1 1 ⟨1.5, some 300, 2⟩).2.soc = 1 ∧ (computeVoltage raw 1 1 ⟨0.5, some 330, 2⟩).2.T = some 322.65 := by
  norm_num [computeVoltage, stateVariables, limited, limit, limitT]

/-- **C381, packs.** A pack of strings side by side that share the current has the voltage of one string, which is that of one cell
times the number of its cells. -/
theorem C381_pack (raw : ℕ → ℕ → List (ℝ × ℝ)) (ns np : ℝ) (hp : np ≠ 0) (soc i : ℝ) (T : Option ℝ) :
    (computeVoltage raw ns np ⟨soc, T, np * i⟩).1 = ns * (computeVoltage raw 1 1 ⟨soc, T, i⟩).1 := by
  simp only [computeVoltage, mul_div_cancel_left₀ i hp, div_one, one_mul]

example (raw : ℕ → ℕ → List (ℝ × ℝ)) : (computeVoltage raw 1 1 ⟨0.5, some 300, 20⟩).2 = ⟨0.5, some 300, 20⟩ :=
  (C381_pure_partial raw 1 1 _).2.1 (by norm_num) (by norm_num) ⟨300, rfl, by norm_num, by norm_num⟩

/-! ### C382 -/

/-- The current of a cell: that of the pack over the number of strings. -/
noncomputable def perCell (cur np : ℝ) (d : Bool) : ℝ := if d then cur / np else -cur / np

/-- Charge through a conductor by the trapezoidal rule, in ampere hours. -/
noncomputable def charge (t c : ℕ → ℝ) : ℕ → ℝ
  | 0 => 0
  | k + 1 => charge t c k + (t (k + 1) - t k) * (c (k + 1) + c k) / 2 / 3600

/-- **C382.** As long as the cell current is between 0 and 8 A in the direction of the segment, the charge
counted is the charge through the cell. -/
theorem C382_charge_partial (q0 : ℝ) (t cur : ℕ → ℝ) (np : ℝ) (d : Bool)
    (h : ∀ k, 0 ≤ perCell (cur k) np d ∧ perCell (cur k) np d ≤ 8) (k : ℕ) :
    nmcThroughput q0 t cur np d k = q0 + charge t (fun k => |perCell (cur k) np d|) k := by
  have e : ∀ k, nmcCurrent (cur k) np d = |perCell (cur k) np d| := by
    intro k
    obtain ⟨h0, h1⟩ := h k
    rw [abs_of_nonneg h0]
    unfold nmcCurrent perCell at *
    dsimp only
    rw [if_neg (not_lt.2 h0), if_neg (not_lt.2 h1)]
  induction k with
  | zero => simp [nmcThroughput, throughput, charge]
  | succ k ih =>
    have ih' := ih
    simp only [nmcThroughput, throughput, charge] at ih' ⊢
    rw [ih', e, e]
    ring

/-- Ten amperes are counted as eight. -/
theorem C382_large_counterexample : ∃ t cur : ℕ → ℝ, StrictMono t ∧
    nmcThroughput 0 t cur 1 true 1 = 8 ∧ charge t (fun k => |perCell (cur k) 1 true|) 1 = 10 :=
  ⟨fun k => 3600 * k, fun _ => 10, fun a b h => by
    have : (a : ℝ) < b := by exact_mod_cast h
    change (3600 : ℝ) * a < 3600 * b
    linarith, by norm_num [nmcThroughput, throughput, nmcCurrent], by norm_num [charge, perCell]⟩

/-- Charging within a discharge segment is not counted at all. -/
theorem C382_reverse_counterexample : ∃ t cur : ℕ → ℝ, StrictMono t ∧
    nmcThroughput 0 t cur 1 true 1 = 0 ∧ charge t (fun k => |perCell (cur k) 1 true|) 1 = 5 :=
  ⟨fun k => 3600 * k, fun _ => -5, fun a b h => by
    have : (a : ℝ) < b := by exact_mod_cast h
    change (3600 : ℝ) * a < 3600 * b
    linarith, by norm_num [nmcThroughput, throughput, nmcCurrent], by norm_num [charge, perCell]⟩

example : ∀ k : ℕ, 0 ≤ perCell ((fun k => 3 * k / (k + 1) : ℕ → ℝ) k) 1 true ∧ perCell ((fun k => 3 * k / (k + 1) : ℕ → ℝ) k) 1 true ≤ 8 := by
  intro k
  simp only [perCell, if_true, div_one]
  have : (0 : ℝ) < k + 1 := by positivity
  refine ⟨by positivity, ?_⟩
  rw [div_le_iff₀ this]
  have : (0 : ℝ) ≤ k := Nat.cast_nonneg k
  linarith

/-! ### C383 -/

/-- **C383, resistance.** A cell resists most when it is empty, and never more than an eighth less. -/
theorem C383_resistance {s : ℝ} (h0 : 0 < s) (h1 : s ≤ 1) : r0 s < r0 0 ∧ 7 / 8 * r0 0 ≤ r0 s ∧ r0 0 = 0.1036 := by
  unfold r0
  refine ⟨by nlinarith, by nlinarith [sq_nonneg (s - 0.849)], by norm_num⟩

theorem r0_pos {s : ℝ} : 0 < r0 s := by
  unfold r0
  nlinarith [sq_nonneg (s - 0.849)]

/-- **C383.** The state of charge is a fraction and the depth of discharge its complement; the power is that of
the voltage under load and the current; the open circuit voltage exceeds that under load by resistance times
the cell current reported; the voltage under load is the number of cells in series times a voltage between
the least and the greatest measured; the cell current is the share of one string while between 0 and 8 A. -/
theorem C383_state_partial (raw : ℕ → ℕ → List (ℝ × ℝ)) (I D : Mat n) (b : CellIn n) (k : Fin (n + 2)) :
    let o := energyCalcN raw I D b
    (0 ≤ o.soc k ∧ o.soc k ≤ 1) ∧ o.soc k + o.dod k = 1 ∧ o.load k = o.vul k * o.current k ∧ o.current k = b.current k ∧
    o.voc k - o.vul k = o.cellCurrent k * o.resistance k ∧
    (0 ≤ b.nSeries → o.vul k ≤ o.voc k) ∧
    (0 ≤ perCell (b.current k) b.nParallel b.discharge → perCell (b.current k) b.nParallel b.discharge ≤ 8 →
      o.cellCurrent k = perCell (b.current k) b.nParallel b.discharge) ∧
    (∀ lo hi, (∀ a b, raw a b ≠ []) → (∀ a b, ∀ p ∈ raw a b, lo ≤ p.2 ∧ p.2 ≤ hi) → 0 ≤ b.nSeries →
      lo * b.nSeries ≤ o.vul k ∧ o.vul k ≤ hi * b.nSeries) := by
  intro o
  have hsoc := limit_mem (lo := 0) (hi := 1) (by norm_num)
    ((addEnergy I D (fun k => b.power k - |(energyCalcN raw I D b).losses k|) (b.emax - b.energy 0) k + b.energy 0) / b.emax)
  have hs : 0 ≤ o.soc k ∧ o.soc k ≤ 1 := hsoc
  have hv : ∃ v : ℝ × Args, v = stateVariables raw ⟨limit 0 1 ((I.mulVec b.power k + b.energy 0) / b.emax),
      some (limit 272.65 322.65 (b.temp k)), perCell (b.current k) b.nParallel b.discharge⟩ ∧
      o.vul k = v.1 * b.nSeries ∧ o.voc k = (v.1 + v.2.i * r0 v.2.soc) * b.nSeries ∧ o.cellCurrent k = v.2.i ∧
      o.resistance k = r0 v.2.soc * b.nSeries := by
    refine ⟨_, rfl, ?_, rfl, rfl, rfl⟩
    have : o.vul k = (if o.soc k < 0 then 0 else (stateVariables raw ⟨limit 0 1 ((I.mulVec b.power k + b.energy 0) / b.emax),
      some (limit 272.65 322.65 (b.temp k)), perCell (b.current k) b.nParallel b.discharge⟩).1) * b.nSeries := rfl
    rw [this, if_neg (not_lt.2 hs.1)]
  obtain ⟨v, hv0, h1, h2, h3, h4⟩ := hv
  have hvi : v.2.i = limit 0 8 (perCell (b.current k) b.nParallel b.discharge) := by rw [hv0]; rfl
  have hi0 : 0 ≤ v.2.i := by rw [hvi]; exact (limit_mem (by norm_num) _).1
  refine ⟨hs, ?_, rfl, rfl, ?_, ?_, ?_, ?_⟩
  · change o.soc k + (1 - o.soc k) = 1; ring
  · rw [h1, h2, h3, h4]; ring
  · intro hn
    rw [h1, h2]
    refine mul_le_mul_of_nonneg_right ?_ hn
    have := mul_nonneg hi0 (r0_pos (s := v.2.soc)).le
    linarith
  · intro ha hb
    rw [h3, hvi, limit_id ha hb]
  · intro lo hi hne hr hn
    have := C380_range raw hne hr ⟨limit 0 1 ((I.mulVec b.power k + b.energy 0) / b.emax),
      some (limit 272.65 322.65 (b.temp k)), perCell (b.current k) b.nParallel b.discharge⟩
    rw [← hv0] at this
    rw [h1]
    exact ⟨mul_le_mul_of_nonneg_right this.1 hn, mul_le_mul_of_nonneg_right this.2 hn⟩

/-- A battery of one cell at rest. -/
noncomputable def oneCell (cur e r : ℝ) : CellIn n where
  current := fun _ => cur
  power := fun _ => 0
  area := 1
  surfaceArea := 1
  temp := fun _ => 300
  emax := 1
  energy := fun _ => e
  nSeries := 1
  nParallel := 1
  nTotal := 1
  rGrowth := r
  eGrowth := r
  discharge := true

/-- Twelve amperes through the battery are reported as eight through its only cell. -/
theorem C383_current_counterexample (raw : ℕ → ℕ → List (ℝ × ℝ)) (I D : Mat n) (k : Fin (n + 2)) :
    (energyCalcN raw I D (oneCell 12 1 1)).cellCurrent k = 8 ∧ (energyCalcN raw I D (oneCell 12 1 1)).current k = 12 := by
  norm_num [energyCalcN, oneCell, stateVariables, limited, limit]

/-- An empty battery at rest still shows the voltage of the curves: the line meant to set it to zero never
applies, because the state of charge has been limited to 0 before. -/
theorem C383_empty_counterexample (I D : Mat n) (k : Fin (n + 2)) :
    (energyCalcN (fun _ _ => [(0, 3)]) I D (oneCell 0 0 1)).soc k = 0 ∧
    (energyCalcN (fun _ _ => [(0, 3)]) I D (oneCell 0 0 1)).vul k = 3 := by
  have hQ : ∀ i, (energyCalcN (fun _ _ => [(0, 3)]) I D (oneCell 0 0 1)).losses i = 0 := by
    intro i; simp [energyCalcN, oneCell, qJoule, qEntropy]
  have hadd : addEnergy I D (fun _ => (0 : ℝ)) 1 = fun _ => 0 := by
    have hz : (fun _ : Fin (n + 2) => (0 : ℝ)) = 0 := rfl
    have h1 : (-1 : ℝ) < 0 := by norm_num
    funext i
    simp only [addEnergy, hz, Matrix.mulVec_zero, Pi.zero_apply, zero_sub, h1, if_true, gt_iff_lt, lt_self_iff_false, if_false]
  have hsoc : (energyCalcN (fun _ _ => [(0, 3)]) I D (oneCell 0 0 1)).soc k = 0 := by
    have e : (energyCalcN (fun _ _ => [(0, 3)]) I D (oneCell 0 0 1)).soc k =
        limit 0 1 ((addEnergy I D (fun i => 0 - |(energyCalcN (fun _ _ => [(0, 3)]) I D (oneCell 0 0 1)).losses i|) (1 - 0) k + 0) / 1) := rfl
    rw [e]
    simp only [hQ, abs_zero, sub_zero, hadd]
    norm_num [limit]
  refine ⟨hsoc, ?_⟩
  have h := (C383_state_partial (fun _ _ => [(0, 3)]) I D (oneCell (n := n) 0 0 1) k).2.2.2.2.2.2.2 3 3
    (by simp) (by intro a b p hp; simp only [List.mem_singleton] at hp; subst hp; norm_num) (by norm_num [oneCell])
  norm_num [oneCell] at h
  exact le_antisymm h.2 h.1

/-- The resistance of an aged cell is that of a new one. -/
theorem C383_ageing_counterexample (raw : ℕ → ℕ → List (ℝ × ℝ)) (I D : Mat n) (cur e r r' : ℝ) :
    energyCalcN raw I D (oneCell cur e r) = energyCalcN raw I D (oneCell cur e r') := rfl

example (raw : ℕ → ℕ → List (ℝ × ℝ)) (I D : Mat n) (k : Fin (n + 2)) :
    (energyCalcN raw I D (oneCell 5 1 1)).cellCurrent k = 5 := by
  rw [(C383_state_partial raw I D (oneCell 5 1 1) k).2.2.2.2.2.2.1] <;> norm_num [perCell, oneCell]

/-! ### C384 -/

/-- The entropy of the cell is negative at every state of charge (in Bernstein form, on each half). -/
theorem deltaS_neg {s : ℝ} (h0 : 0 ≤ s) (h1 : s ≤ 1) : deltaS s < 0 := by
  unfold deltaS
  rcases le_total s (1 / 2) with h | h
  · obtain ⟨u, rfl⟩ : ∃ u, s = u / 2 := ⟨2 * s, by ring⟩
    have hu : 0 ≤ u := by linarith
    obtain ⟨v, hv⟩ : ∃ v, v = 1 - u := ⟨_, rfl⟩
    have hv0 : 0 ≤ v := by linarith
    have e : -496.66 * (u / 2) ^ 6 + 1729.4 * (u / 2) ^ 5 + -2278 * (u / 2) ^ 4 + 1382.2 * (u / 2) ^ 3 + -380.47 * (u / 2) ^ 2 + 46.508 * (u / 2) + -10.692
        = -(2673 / 250 * u ^ 0 * v ^ 6 + 20449 / 500 * u ^ 1 * v ^ 5 + 55691 / 400 * u ^ 2 * v ^ 4 + 37799 / 200 * u ^ 3 * v ^ 3 + 24519 / 200 * u ^ 4 * v ^ 2 + 162933 / 4000 * u ^ 5 * v ^ 1 + 93953 / 16000 * u ^ 6 * v ^ 0) := by rw [hv]; ring
    have : 0 < 2673 / 250 * u ^ 0 * v ^ 6 + 20449 / 500 * u ^ 1 * v ^ 5 + 55691 / 400 * u ^ 2 * v ^ 4 + 37799 / 200 * u ^ 3 * v ^ 3 + 24519 / 200 * u ^ 4 * v ^ 2 + 162933 / 4000 * u ^ 5 * v ^ 1 + 93953 / 16000 * u ^ 6 * v ^ 0 := by
      rcases hu.eq_or_lt with h | h
      · rw [← h] at hv ⊢; rw [hv]; norm_num
      · positivity
    linarith
  · obtain ⟨u, rfl⟩ : ∃ u, s = 1 / 2 + u / 2 := ⟨2 * s - 1, by ring⟩
    have hu : 0 ≤ u := by linarith
    obtain ⟨v, hv⟩ : ∃ v, v = 1 - u := ⟨_, rfl⟩
    have hv0 : 0 ≤ v := by linarith
    have e : -496.66 * (1 / 2 + u / 2) ^ 6 + 1729.4 * (1 / 2 + u / 2) ^ 5 + -2278 * (1 / 2 + u / 2) ^ 4 + 1382.2 * (1 / 2 + u / 2) ^ 3 + -380.47 * (1 / 2 + u / 2) ^ 2 + 46.508 * (1 / 2 + u / 2) + -10.692
        = -(93953 / 16000 * u ^ 0 * v ^ 6 + 59463 / 2000 * u ^ 1 * v ^ 5 + 54069 / 800 * u ^ 2 * v ^ 4 + 20393 / 200 * u ^ 3 * v ^ 3 + 39269 / 400 * u ^ 4 * v ^ 2 + 4986 / 125 * u ^ 5 * v ^ 1 + 3857 / 500 * u ^ 6 * v ^ 0) := by rw [hv]; ring
    have : 0 < 93953 / 16000 * u ^ 0 * v ^ 6 + 59463 / 2000 * u ^ 1 * v ^ 5 + 54069 / 800 * u ^ 2 * v ^ 4 + 20393 / 200 * u ^ 3 * v ^ 3 + 39269 / 400 * u ^ 4 * v ^ 2 + 4986 / 125 * u ^ 5 * v ^ 1 + 3857 / 500 * u ^ 6 * v ^ 0 := by
      rcases hu.eq_or_lt with h | h
      · rw [← h] at hv ⊢; rw [hv]; norm_num
      · positivity
    linarith

/-- **C384.** With a current in the direction of the segment, the losses are never negative, whatever the state of
the battery: a cell never cools itself, and what leaves the battery is at least what is taken. -/
theorem C384_losses_partial (raw : ℕ → ℕ → List (ℝ × ℝ)) (I D : Mat n) (b : CellIn n) (k : Fin (n + 2))
    (hA : 0 < b.area) (hS : 0 ≤ b.surfaceArea) (hN : 0 ≤ b.nTotal)
    (hc : 0 ≤ perCell (b.current k) b.nParallel b.discharge) : 0 ≤ (energyCalcN raw I D b).losses k := by
  have e : (energyCalcN raw I D b).losses k = b.nTotal * ((qJoule (perCell (b.current k) b.nParallel b.discharge / b.area) +
      qEntropy (limit 0 1 ((I.mulVec b.power k + b.energy 0) / b.emax)) (limit 272.65 322.65 (b.temp k))
        (perCell (b.current k) b.nParallel b.discharge / b.area)) * b.surfaceArea) := rfl
  rw [e]
  have hs := limit_mem (lo := 0) (hi := 1) (by norm_num) ((I.mulVec b.power k + b.energy 0) / b.emax)
  have hT := (limit_mem (lo := 272.65) (hi := 322.65) (by norm_num) (b.temp k)).1
  have hi : 0 ≤ perCell (b.current k) b.nParallel b.discharge / b.area := div_nonneg hc hA.le
  have hd := deltaS_neg hs.1 hs.2
  generalize limit 0 1 ((I.mulVec b.power k + b.energy 0) / b.emax) = s at *
  generalize limit 272.65 322.65 (b.temp k) = T at *
  generalize perCell (b.current k) b.nParallel b.discharge / b.area = i at *
  have hT0 : 0 ≤ T := by norm_num at hT; linarith
  have h1 : 0 ≤ qEntropy s T i := by
    unfold qEntropy
    refine div_nonneg ?_ (by norm_num)
    have : 0 ≤ T * (-deltaS s) * i := mul_nonneg (mul_nonneg hT0 (by linarith)) hi
    linarith
  have h2 : 0 ≤ qJoule i := by unfold qJoule; positivity
  positivity

/-- The two parts of the heat are fractions of the whole and sum to it, as long as a current flows in the
direction of the segment. -/
theorem C384_fractions_partial {s T i : ℝ} (h0 : 0 ≤ s) (h1 : s ≤ 1) (hT : 0 ≤ T) (hi : 0 < i) :
    ∃ j e, fractions s T i = some (j, e) ∧ j + e = 1 ∧ 0 < j ∧ 0 ≤ e := by
  have hd := deltaS_neg h0 h1
  have hj : 0 < qJoule i := by unfold qJoule; positivity
  have he : 0 ≤ qEntropy s T i := by
    unfold qEntropy
    refine div_nonneg ?_ (by norm_num)
    have : 0 ≤ T * (-deltaS s) * i := mul_nonneg (mul_nonneg hT (by linarith)) hi.le
    linarith
  have hq : 0 < qJoule i + qEntropy s T i := by linarith
  refine ⟨qJoule i / (qJoule i + qEntropy s T i), qEntropy s T i / (qJoule i + qEntropy s T i), ?_, ?_, ?_, ?_⟩
  · simp only [fractions]; rw [if_neg hq.ne']
  · rw [← add_div, div_self hq.ne']
  · exact div_pos hj hq
  · exact div_nonneg he hq.le

/-- With no current the fractions are not numbers. -/
theorem C384_rest_counterexample (s T : ℝ) : fractions s T 0 = none := by
  simp [fractions, qJoule, qEntropy]

/-- Charging within a discharge segment: the battery is said to take up heat. -/
theorem C384_reverse_counterexample (raw : ℕ → ℕ → List (ℝ × ℝ)) (I D : Mat n) (k : Fin (n + 2)) :
    (energyCalcN raw I D (oneCell (-1) 1 1)).losses k < 0 := by
  have e : (energyCalcN raw I D (oneCell (-1) 1 1)).losses k = 1 * ((qJoule (-1 / 1 / 1) +
      qEntropy (limit 0 1 ((I.mulVec (fun _ => 0) k + 1) / 1)) (limit 272.65 322.65 300) (-1 / 1 / 1)) * 1) := rfl
  rw [e]
  have hz : I.mulVec (fun _ => (0 : ℝ)) k = 0 := congrFun (Matrix.mulVec_zero I) k
  rw [hz]
  norm_num [limit, qJoule, qEntropy, deltaS]

example (raw : ℕ → ℕ → List (ℝ × ℝ)) (I D : Mat n) (k : Fin (n + 2)) : 0 ≤ (energyCalcN raw I D (oneCell 3 0.5 1)).losses k :=
  C384_losses_partial raw I D _ k (by norm_num [oneCell]) (by norm_num [oneCell]) (by norm_num [oneCell])
    (by norm_num [oneCell, perCell])

example : ∃ j e, fractions 0.5 300 2 = some (j, e) ∧ j + e = 1 ∧ 0 < j ∧ 0 ≤ e :=
  C384_fractions_partial (by norm_num) (by norm_num) (by norm_num) (by norm_num)

/-! ### C385 -/

/-- **C385.** From the first recharge on the NMC cell counts with the capacity of the new battery times the fade
factor, however many segments follow. -/
theorem C385_nmc_partial (a : Aged) (flags : List Bool) :
    nmcCapacity (flags.foldl nextAged (nextAged a false)) = a.initial * a.fade := by
  have h : ∀ (l : List Bool) (x : Aged), x.initial = a.initial → x.fade = a.fade → x.maxAged = a.initial * a.fade →
      (l.foldl nextAged x).maxAged = a.initial * a.fade := by
    intro l
    induction l with
    | nil => intro x _ _ h; exact h
    | cons d l ih =>
      intro x h1 h2 h3
      refine ih _ h1 h2 ?_
      cases d
      · simp [nextAged, h1, h2]
      · simp [nextAged, h3]
  exact h flags _ rfl rfl rfl

/-- The generic cell multiplies by the factor once more: half the capacity left counts as a quarter. -/
theorem C385_generic_counterexample : genericCapacity (nextAged ⟨100, 100, 0.5⟩ false) = 25 := by
  norm_num [genericCapacity, nextAged]

/-- For a battery that is not recharged the NMC cell ignores the factor. -/
theorem C385_discharge_counterexample (flags : List Bool) (h : ∀ f ∈ flags, f = true) :
    nmcCapacity (flags.foldl nextAged ⟨100, 100, 0.5⟩) = 100 := by
  have : flags.foldl nextAged ⟨100, 100, 0.5⟩ = ⟨100, 100, 0.5⟩ := by
    induction flags with
    | nil => rfl
    | cons d l ih =>
      have hd : d = true := h d (by simp)
      subst hd
      exact ih fun f hf => h f (by simp [hf])
  rw [this]; rfl

/-- The generic cell before any recharge, with the capacity of the new battery. -/
theorem C385_generic_partial (c f : ℝ) (flags : List Bool) (h : ∀ x ∈ flags, x = true) :
    genericCapacity (flags.foldl nextAged ⟨c, c, f⟩) = c * f := by
  have : flags.foldl nextAged ⟨c, c, f⟩ = ⟨c, c, f⟩ := by
    induction flags with
    | nil => rfl
    | cons d l ih =>
      have hd : d = true := h d (by simp)
      subst hd
      exact ih fun f hf => h f (by simp [hf])
  rw [this]; rfl

example : nmcCapacity ([true, false, true].foldl nextAged (nextAged ⟨100, 100, 0.9⟩ false)) = 90 := by
  rw [C385_nmc_partial]; norm_num

end Verif.Energy.Nmc
