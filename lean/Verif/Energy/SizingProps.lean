import Verif.Energy.Sizing
import Verif.Num.BlendProps
import Mathlib.Tactic.Linarith
import Mathlib.Tactic.FieldSimp
import Mathlib.Tactic.NormNum

namespace Verif.Energy.Sizing

/-- **C234.** The stack sized has a whole number of cells, gives at least the power asked for, and would not with one cell less;
power, mass, volume and their quotients fit together. -/
theorem C234_stack (c : Cell) (P j : ℝ) (hp : 0 < c.power j) (hP : 0 < P) (ha : 0 < c.area) (hw : 0 < c.wall) (hd : 0 < c.density)
    (hφ : 0 < c.porosity) :
    let s := sizeStack c P j
    (∃ k : ℕ, s.cells = k) ∧ P ≤ s.maxPower ∧ (s.cells - 1) * (c.voltage j * (j * c.area)) < P ∧ s.maxPower = s.cells * (c.voltage j * (j * c.area)) ∧ s.specificPower * s.mass = s.maxPower ∧
      s.massDensity * s.volume = s.mass ∧ 0 < s.mass := by
  have hpos : 0 < P / c.power j := by positivity
  have hceil : 0 < ⌈P / c.power j⌉ := Int.ceil_pos.mpr hpos
  have hN : (0 : ℝ) < (⌈P / c.power j⌉ : ℤ) := by exact_mod_cast hceil
  have h1 : P / c.power j ≤ (⌈P / c.power j⌉ : ℤ) := Int.le_ceil _
  have h2 : ((⌈P / c.power j⌉ : ℤ) : ℝ) < P / c.power j + 1 := Int.ceil_lt_add_one _
  intro s
  simp only [s, sizeStack]
  have hv : 0 < ((⌈P / c.power j⌉ : ℤ) : ℝ) * c.area * c.wall := by positivity
  have hm : 0 < ((⌈P / c.power j⌉ : ℤ) : ℝ) * c.area * c.wall * c.density * c.porosity := by positivity
  have hpw : c.voltage j * (j * c.area) = c.power j := by unfold Cell.power; ring
  rw [hpw]
  refine ⟨⟨⌈P / c.power j⌉.toNat, ?_⟩, ?_, ?_, rfl, ?_, ?_, hm⟩
  · have : ((⌈P / c.power j⌉.toNat : ℤ)) = ⌈P / c.power j⌉ := Int.toNat_of_nonneg hceil.le
    exact_mod_cast this.symm
  · rwa [div_le_iff₀ hp] at h1
  · have : ((⌈P / c.power j⌉ : ℤ) : ℝ) - 1 < P / c.power j := by linarith
    rwa [lt_div_iff₀ hp] at this
  · exact div_mul_cancel₀ _ hm.ne'
  · exact div_mul_cancel₀ _ hv.ne'

/-- **C235.** The voltage, and with it the efficiency, falls with the current density, so less fuel per energy is used at lower
load. -/
theorem C235_efficiency (c : Cell) (a b : ℝ) (ha : 0 < a) (hab : a < b) (hr : 0 < c.r) (hA : 0 ≤ c.A1) (hm : 0 ≤ c.m) (hn : 0 ≤ c.n) :
    c.voltage b < c.voltage a := by
  unfold Cell.voltage
  have h1 : c.r / 0.1 * (a / 10) < c.r / 0.1 * (b / 10) := by
    apply mul_lt_mul_of_pos_left (by linarith) (by positivity)
  have h2 : c.A1 * Real.log (a / 10) ≤ c.A1 * Real.log (b / 10) := by
    apply mul_le_mul_of_nonneg_left _ hA
    exact Real.log_le_log (by positivity) (by linarith)
  have h3 : c.m * Real.exp (c.n * (a / 10)) ≤ c.m * Real.exp (c.n * (b / 10)) := by
    apply mul_le_mul_of_nonneg_left _ hm
    apply Real.exp_le_exp.mpr
    apply mul_le_mul_of_nonneg_left (by linarith) hn
  linarith

/-- **C235.** Fuel flow times energy content times efficiency is the power demanded, in both models. -/
theorem C235_fuel (c : Cell) (se η P j : ℝ) (hse : se ≠ 0) (hη : η ≠ 0) (hv : c.voltage j ≠ 0) (hi : c.ideal ≠ 0) :
    zeroFidelityFlow se η P * se * η = P ∧ larminieFlow c se P j * se * (c.voltage j / c.ideal) = P := by
  unfold zeroFidelityFlow larminieFlow
  constructor <;> field_simp

/-- **C235, counterexample.** The demand is compared with one cell instead of the stack: at the current density that fits, a stack
of two or more cells gives too much, -/
theorem C235_cells_counterexample (c : Cell) (P j N : ℝ) (hP : 0 < P) (hN : 2 ≤ N) (hfit : c.mismatch P j = 0) : P < N * c.power j := by
  have : P - c.power j = 0 := by simpa [Cell.mismatch] using hfit
  have : c.power j = P := by linarith
  rw [this]
  nlinarith

/-- **C235, counterexample.** and the maximum power of such a stack is out of reach of every current density. -/
theorem C235_maximum_counterexample (c : Cell) (P j0 : ℝ) (hj0 : 0 < c.power j0) (hmax : ∀ j, 1 ≤ j → j ≤ 12000 → c.power j ≤ c.power j0)
    (hP : c.power j0 < P) (j : ℝ) (hj1 : 1 ≤ j) (hj2 : j ≤ 12000) : 0 < c.mismatch P j ∧ 2 ≤ (sizeStack c P j0).cells := by
  constructor
  · unfold Cell.mismatch
    have := hmax j hj1 hj2
    have : 0 < P - c.power j := by linarith
    positivity
  · simp only [sizeStack]
    have : 1 < P / c.power j0 := by rw [one_lt_div hj0]; exact hP
    have : 1 < ⌈P / c.power j0⌉ := by
      have h := Int.le_ceil (P / c.power j0)
      have : (1 : ℝ) < (⌈P / c.power j0⌉ : ℤ) := by linarith
      exact_mod_cast this
    exact_mod_cast this

/-- **C235.** With one cell the current density that fits gives the power demanded. -/
theorem C235_single_partial (c : Cell) (P j : ℝ) (hfit : c.mismatch P j = 0) : c.power j = P := by
  have : P - c.power j = 0 := by simpa [Cell.mismatch] using hfit
  linarith

/-- A cell without losses: 0.5 V, one square metre, at 10 A per square metre. -/
example : (⟨1, 0, 0.5, 0, 0, 0, 1.48, 1, 1, 1⟩ : Cell).mismatch 5 10 = 0 := by
  norm_num [Cell.mismatch, Cell.power, Cell.voltage]

/-- A cell with a resistance has its greatest power, 2.5 W, at 5 A per square metre; a demand of 3 W takes a stack of two cells. -/
example (j : ℝ) (h1 : 1 ≤ j) (h2 : j ≤ 12000) : 0 < (⟨1, 0.1, 1, 0, 0, 0, 1.48, 1, 1, 1⟩ : Cell).mismatch 3 j := by
  refine (C235_maximum_counterexample ⟨1, 0.1, 1, 0, 0, 0, 1.48, 1, 1, 1⟩ 3 5 ?_ ?_ ?_ j h1 h2).1
  · norm_num [Cell.power, Cell.voltage]
  · intro j _ _
    simp only [Cell.power, Cell.voltage]
    norm_num
    nlinarith [sq_nonneg (j - 5)]
  · norm_num [Cell.power, Cell.voltage]

/-- **C236.** The battery mass suffices for energy and power, no smaller mass does, and the smooth variant is heavier by at most
`log 2` kilograms. -/
theorem C236_mass (se sp E P : ℝ) (hse : 0 < se) (hsp : 0 < sp) :
    (E ≤ se * massFor false se sp E P ∧ P ≤ sp * massFor false se sp E P) ∧
      (∀ m, E ≤ se * m → P ≤ sp * m → massFor false se sp E P ≤ m) ∧
      (E < se * massFor true se sp E P ∧ P < sp * massFor true se sp E P) ∧
      massFor true se sp E P ≤ massFor false se sp E P + Real.log 2 := by
  have e1 : E / se ≤ max (E / se) (P / sp) := le_max_left _ _
  have e2 : P / sp ≤ max (E / se) (P / sp) := le_max_right _ _
  have e3 := Verif.Num.C30_ge_max (E / se) (P / sp)
  simp only [massFor, if_true, Bool.false_eq_true, if_false]
  refine ⟨⟨?_, ?_⟩, ?_, ⟨?_, ?_⟩, Verif.Num.C30_le_max_add _ _⟩
  · rwa [div_le_iff₀' hse] at e1
  · rwa [div_le_iff₀' hsp] at e2
  · intro m h1 h2
    apply max_le
    · rwa [div_le_iff₀' hse]
    · rwa [div_le_iff₀' hsp]
  · have := lt_of_le_of_lt e1 e3
    rwa [div_lt_iff₀' hse] at this
  · have := lt_of_le_of_lt e2 e3
    rwa [div_lt_iff₀' hsp] at this

/-- **C237.** On a falling Ragone line, when some specific energy inside the bounds makes energy and power need the same mass, the
specific energy of least mass is that one: the battery found meets both demands exactly. -/
theorem C237_ragone (c1 c2 E P lb ub s0 s : ℝ) (h1 : 0 < c1) (h2 : c2 < 0) (hE : 0 < E) (hP : 0 < P) (hlb : 0 < lb)
    (hs0 : lb ≤ s0 ∧ s0 ≤ ub) (hcross : E / s0 = P / ragonePower c1 c2 s0) (hs : lb ≤ s ∧ s ≤ ub)
    (hmin : ∀ t, lb ≤ t → t ≤ ub → ragoneMass c1 c2 E P s ≤ ragoneMass c1 c2 E P t) :
    s = s0 ∧ s * ragoneMass c1 c2 E P s = E ∧ ragonePower c1 c2 s * ragoneMass c1 c2 E P s = P := by
  have hpos : ∀ t, 0 < ragonePower c1 c2 t := by
    intro t
    unfold ragonePower
    have := Real.rpow_pos_of_pos (by norm_num : (0 : ℝ) < 10) (c2 * t)
    positivity
  have hs0pos : 0 < s0 := by linarith [hs0.1]
  have hspos : 0 < s := by linarith [hs.1]
  have hm0 : ragoneMass c1 c2 E P s0 = E / s0 := by
    simp [ragoneMass, massFor, ← hcross]
  have hle := hmin s0 hs0.1 hs0.2
  rw [hm0] at hle
  have hge1 : E / s ≤ ragoneMass c1 c2 E P s := by simp [ragoneMass, massFor]
  have hge2 : P / ragonePower c1 c2 s ≤ ragoneMass c1 c2 E P s := by simp [ragoneMass, massFor]
  have heq : s = s0 := by
    rcases lt_trichotomy s s0 with h | h | h
    · exfalso
      have : E / s0 < E / s := div_lt_div_of_pos_left hE hspos h
      linarith
    · exact h
    · exfalso
      have hlt : ragonePower c1 c2 s < ragonePower c1 c2 s0 := by
        unfold ragonePower
        apply mul_lt_mul_of_pos_left _ h1
        apply Real.rpow_lt_rpow_of_exponent_lt (by norm_num)
        nlinarith
      have : P / ragonePower c1 c2 s0 < P / ragonePower c1 c2 s := div_lt_div_of_pos_left hP (hpos s) hlt
      linarith
  refine ⟨heq, ?_, ?_⟩
  · rw [heq, hm0]; field_simp
  · rw [heq, hm0, hcross]
    have := (hpos s0).ne'
    field_simp

/-- Such a demand: one kilogram at specific energy one. -/
example : (1 : ℝ) / 1 = (1 / 10) / ragonePower 1 (-1) 1 := by
  unfold ragonePower
  rw [show ((-1 : ℝ) * 1) = ((-1 : ℤ) : ℝ) by norm_num, Real.rpow_intCast]
  norm_num

/-- **C238.** A pack built from cells stores the energy of its cells, and the same pack sized from its mass stores the same energy. -/
theorem C238_energy (cap v cm factor maxV : ℝ) (s p : ℕ) (cell : Option (ℝ × ℝ)) (q : Pack) (hcm : 0 < cm) (hf : 0 < factor)
    (hq : fromMass (fromCircuit cap v cm factor s p).mass (fromCircuit cap v cm factor s p).specificEnergy
      (fromCircuit cap v cm factor s p).specificPower maxV factor cell = some q) :
    (fromCircuit cap v cm factor s p).maxEnergy = (s * p : ℕ) * (cap * v * 3600) ∧
      q.maxEnergy = (fromCircuit cap v cm factor s p).maxEnergy := by
  constructor
  · simp only [fromCircuit]
    push_cast
    field_simp
  · unfold fromMass at hq
    cases cell with
    | none =>
      simp only [Option.some.injEq] at hq
      subst hq
      simp only [fromCircuit]
      field_simp
    | some c =>
      simp only at hq
      split at hq
      · cases hq
      · simp only [Option.some.injEq] at hq
        subst hq
        simp only [fromCircuit]
        field_simp

/-- **C238, counterexample.** The power differs: from the circuit the module counts, from the mass the cells only. -/
theorem C238_power_counterexample (cap v cm factor maxV : ℝ) (s p : ℕ) (hcm : 0 < cm) (hf : 1 < factor) (hcap : 0 < cap) (hv : 0 < v)
    (hs : 0 < s) (hp : 0 < p) :
    ∃ q, fromMass (fromCircuit cap v cm factor s p).mass (fromCircuit cap v cm factor s p).specificEnergy
      (fromCircuit cap v cm factor s p).specificPower maxV factor none = some q ∧
      q.maxPower < (fromCircuit cap v cm factor s p).maxPower := by
  refine ⟨_, rfl, ?_⟩
  simp only [fromCircuit]
  have hs' : (0 : ℝ) < s := by exact_mod_cast hs
  have hp' : (0 : ℝ) < p := by exact_mod_cast hp
  have h1 : cm * s * p * factor / factor = cm * s * p := by field_simp
  rw [h1]
  have h2 : 0 < cm * s * p * (cap * v / cm * 3600 / cap) := by positivity
  nlinarith

/-- **C238.** Sized from its mass, a pack has no more cells in its strings than it has mass for, and no more voltage than asked
for; it fails when the voltage is below that of one cell. -/
theorem C238_cells_partial (mass se sp maxV factor cm cv : ℝ) (hcm : 0 < cm) (hcv : 0 < cv) (hf : 0 < factor) (hm : 0 ≤ mass)
    (hmaxV : 0 ≤ maxV) :
    (fromMass mass se sp maxV factor (some (cm, cv)) = none ↔ maxV < cv) ∧
      ∀ q, fromMass mass se sp maxV factor (some (cm, cv)) = some q →
        q.series * q.parallel ≤ q.total ∧ q.total * cm ≤ mass / factor ∧ q.series * cv ≤ maxV ∧ maxV < (q.series + 1) * cv := by
  have hs1 : (⌊maxV / cv⌋₊ : ℝ) ≤ maxV / cv := Nat.floor_le (by positivity)
  have hs2 : maxV / cv < (⌊maxV / cv⌋₊ : ℝ) + 1 := Nat.lt_floor_add_one _
  have hn : (⌊mass / factor / cm⌋₊ : ℝ) ≤ mass / factor / cm := Nat.floor_le (by positivity)
  constructor
  · unfold fromMass
    simp only
    constructor
    · intro h
      split at h
      · rename_i h0
        rw [h0] at hs2
        rw [div_lt_iff₀ hcv] at hs2
        simpa using hs2
      · cases h
    · intro h
      rw [if_pos]
      rw [Nat.floor_eq_zero, div_lt_one hcv]
      exact h
  · intro q hq
    unfold fromMass at hq
    simp only at hq
    split at hq
    · cases hq
    · simp only [Option.some.injEq] at hq
      subst hq
      refine ⟨Nat.mul_div_le _ _, ?_, ?_, ?_⟩
      · rwa [le_div_iff₀ hcm] at hn
      · rwa [le_div_iff₀ hcv] at hs1
      · rwa [div_lt_iff₀ hcv] at hs2

/-- **C238, counterexample.** The cells are not all used: five cells in strings of two make four, but five are counted; and the
least energy is set to the greatest. -/
theorem C238_total_counterexample :
    ∃ q, fromMass 5 1 1 2 1 (some (1, 1)) = some q ∧ q.series * q.parallel = 4 ∧ q.total = 5 ∧ q.minEnergy = some q.maxEnergy := by
  have h1 : ⌊(5 : ℝ) / 1 / 1⌋₊ = 5 := by norm_num
  have h2 : ⌊(2 : ℝ) / 1⌋₊ = 2 := by norm_num
  unfold fromMass
  simp only [h1, h2]
  exact ⟨_, rfl, rfl, rfl, rfl⟩

end Verif.Energy.Sizing
