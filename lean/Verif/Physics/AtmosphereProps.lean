import Verif.Physics.Atmosphere
import Mathlib.Analysis.SpecialFunctions.Pow.Deriv
import Mathlib.Analysis.SpecialFunctions.ExpDeriv
import Mathlib.Topology.Order.ProjIcc
import Mathlib.Tactic.Linarith
import Mathlib.Tactic.FieldSimp
import Mathlib.Tactic.Ring
import Mathlib.Tactic.NormNum
import Mathlib.Tactic.Positivity
import Mathlib.Tactic.IntervalCases
/-! C31 (standard atmosphere) and C61 (hydrostatic balance). -/

namespace Verif.Physics

open Real

/-! ### Specification -/

/-- A usable table: at least two breaks, altitudes strictly increasing, temperatures and
pressures positive. -/
structure Breaks.Ok (b : Breaks) : Prop where
  two : 2 ≤ b.nb
  mono : ∀ i j, i < j → j < b.nb → b.z i < b.z j
  Tpos : ∀ i < b.nb, 0 < b.T i
  ppos : ∀ i < b.nb, 0 < b.p i

/-- Straight line between two breaks. -/
noncomputable def Breaks.line (b : Breaks) (i : Nat) (z : ℝ) : ℝ :=
  b.T i + (b.T (i + 1) - b.T i) * ((z - b.z i) / (b.z (i + 1) - b.z i))

/-- The table of the standard atmosphere is usable. -/
theorem us76_ok : us76.Ok where
  two := by norm_num [us76]
  mono := by
    have h : ∀ i, i + 1 < 9 → us76.z i < us76.z (i + 1) := by
      intro i hi
      have hi' : i < 8 := by omega
      interval_cases i <;> norm_num [us76]
    intro i j hij hj
    have hj' : j < 9 := hj
    clear hj
    induction j with
    | zero => omega
    | succ j ih =>
      rcases Nat.lt_or_eq_of_le (Nat.lt_succ_iff.1 hij) with h1 | h1
      · exact lt_trans (ih h1 (by omega)) (h j hj')
      · subst h1; exact h i hj'
  Tpos := by
    intro i hi
    have hi' : i < 9 := hi
    clear hi
    interval_cases i <;> norm_num [us76]
  ppos := by
    intro i hi
    have hi' : i < 9 := hi
    clear hi
    interval_cases i <;> norm_num [us76]

/-! ### Helper lemmas -/

/-- The loop keeps the last matching layer. -/
theorem fold_last (b : Breaks) (z : ℝ) (m : Nat) :
    let r := (List.range m).foldl
      (fun acc i => if b.z i ≤ z ∧ z ≤ b.z (i + 1) then b.layer i else acc) (⟨0, 0, 0, 0⟩ : Layer)
    (∃ i < m, (b.z i ≤ z ∧ z ≤ b.z (i + 1)) ∧ r = b.layer i) ∨
      (∀ i < m, ¬ (b.z i ≤ z ∧ z ≤ b.z (i + 1))) := by
  induction m with
  | zero => right; simp
  | succ m ih =>
    simp only [List.range_succ, List.foldl_append, List.foldl_cons, List.foldl_nil]
    by_cases hm : b.z m ≤ z ∧ z ≤ b.z (m + 1)
    · left; exact ⟨m, by omega, hm, by rw [if_pos hm]⟩
    · rcases ih with ⟨i, hi, h1, h2⟩ | h
      · left; exact ⟨i, by omega, h1, by rw [if_neg hm]; exact h2⟩
      · right
        intro i hi
        rcases Nat.lt_or_eq_of_le (Nat.lt_succ_iff.1 hi) with h' | h'
        · exact h i h'
        · rw [h']; exact hm

theorem select_mem (b : Breaks) (z : ℝ) (i : Nat) (hi : i + 1 < b.nb) (h : b.z i ≤ z ∧ z ≤ b.z (i + 1)) :
    ∃ j, j + 1 < b.nb ∧ (b.z j ≤ z ∧ z ≤ b.z (j + 1)) ∧ b.select z = b.layer j := by
  rcases fold_last b z (b.nb - 1) with ⟨j, hj, h1, h2⟩ | hn
  · exact ⟨j, by omega, h1, h2⟩
  · exact absurd h (hn i (by omega))

/-- Layers that both contain the altitude are equal or share it as a break. -/
theorem layers_adjacent (b : Breaks) (hb : b.Ok) (z : ℝ) (i j : Nat) (hj : j + 1 < b.nb)
    (h1 : b.z i ≤ z ∧ z ≤ b.z (i + 1)) (h2 : b.z j ≤ z ∧ z ≤ b.z (j + 1)) (hij : i < j) :
    j = i + 1 ∧ z = b.z j := by
  have hle : i + 1 = j := by
    by_contra hne
    have := hb.mono (i + 1) j (by omega) (by omega)
    linarith [h1.2, h2.1]
  subst hle
  exact ⟨rfl, le_antisymm h1.2 h2.1⟩

theorem temp_layer (b : Breaks) (hb : b.Ok) (j : Nat) (hj : j + 1 < b.nb) (z : ℝ) :
    (b.layer j).T0 - (z - (b.layer j).z0) * (b.layer j).alpha = b.line j z := by
  have hne : b.z (j + 1) - b.z j ≠ 0 := (sub_pos.2 (hb.mono j (j + 1) (by omega) hj)).ne'
  unfold Breaks.layer Breaks.line
  simp only
  field_simp
  ring

theorem line_left (b : Breaks) (i : Nat) : b.line i (b.z i) = b.T i := by simp [Breaks.line]

theorem line_right (b : Breaks) (hb : b.Ok) (i : Nat) (hi : i + 1 < b.nb) : b.line i (b.z (i + 1)) = b.T (i + 1) := by
  have hne : b.z (i + 1) - b.z i ≠ 0 := (sub_pos.2 (hb.mono i (i + 1) (by omega) hi)).ne'
  unfold Breaks.line
  rw [div_self hne]; ring

/-! ### C31 -/

/-- **C31, layers.** In every layer, both breaks included, the temperature is the straight line
between the tabulated values (plus the deviation). -/
theorem C31_layer (b : Breaks) (hb : b.Ok) (i : Nat) (hi : i + 1 < b.nb) (z dT : ℝ)
    (h : b.z i ≤ z ∧ z ≤ b.z (i + 1)) : b.temp z dT = b.line i z + dT := by
  obtain ⟨j, hj, h2, hsel⟩ := select_mem b z i hi h
  unfold Breaks.temp
  simp only [hsel, temp_layer b hb j hj]
  congr 1
  rcases lt_trichotomy i j with hij | hij | hij
  · obtain ⟨rfl, hz⟩ := layers_adjacent b hb z i j hj h h2 hij
    rw [hz, line_left, line_right b hb i hi]
  · rw [hij]
  · obtain ⟨rfl, hz⟩ := layers_adjacent b hb z j i hi h2 h hij
    rw [hz, line_left, line_right b hb j hj]

/-- **C31, breaks.** At every break the tabulated temperature is returned. -/
theorem C31_breaks (b : Breaks) (hb : b.Ok) (i : Nat) (hi : i < b.nb) (dT : ℝ) : b.temp (b.z i) dT = b.T i + dT := by
  have h2 := hb.two
  by_cases hl : i + 1 < b.nb
  · rw [C31_layer b hb i hl (b.z i) dT ⟨le_rfl, (hb.mono i (i + 1) (by omega) hl).le⟩, line_left]
  · obtain ⟨k, rfl⟩ : ∃ k, i = k + 1 := ⟨i - 1, by omega⟩
    rw [C31_layer b hb k hi (b.z (k + 1)) dT ⟨(hb.mono k (k + 1) (by omega) hi).le, le_rfl⟩, line_right b hb k hi]

theorem clamp_eq (b : Breaks) (hb : b.Ok) (z : ℝ) : b.clamp z = min (max z (b.z 0)) (b.z (b.nb - 1)) := by
  unfold Breaks.clamp
  simp only
  by_cases h : z < b.z 0
  · rw [if_pos h, max_eq_right h.le]
    have h2 := hb.two
    have := hb.mono 0 (b.nb - 1) (by omega) (by omega)
    rw [if_neg (by linarith), min_eq_left this.le]
  · rw [if_neg h, max_eq_left (not_lt.1 h)]
    split
    · rename_i h'; rw [min_eq_right h'.le]
    · rename_i h'; rw [min_eq_left (not_lt.1 h')]

theorem clamp_range (b : Breaks) (hb : b.Ok) (z : ℝ) : b.z 0 ≤ b.clamp z ∧ b.clamp z ≤ b.z (b.nb - 1) := by
  rw [clamp_eq b hb]
  have h2 := hb.two
  have := (hb.mono 0 (b.nb - 1) (by omega) (by omega)).le
  exact ⟨le_min (le_max_right _ _) this, min_le_right _ _⟩

/-- Every altitude in range lies in a layer. -/
theorem exists_layer (b : Breaks) (z : ℝ) (m : Nat) (h0 : b.z 0 ≤ z) (hm : z ≤ b.z (m + 1)) :
    ∃ i ≤ m, b.z i ≤ z ∧ z ≤ b.z (i + 1) := by
  induction m with
  | zero => exact ⟨0, le_rfl, h0, hm⟩
  | succ m ih =>
    by_cases h : z ≤ b.z (m + 1)
    · obtain ⟨i, hi, h'⟩ := ih h
      exact ⟨i, by omega, h'⟩
    · exact ⟨m + 1, le_rfl, (not_le.1 h).le, hm⟩

theorem exists_layer' (b : Breaks) (hb : b.Ok) (z : ℝ) :
    ∃ i, i + 1 < b.nb ∧ b.z i ≤ b.clamp z ∧ b.clamp z ≤ b.z (i + 1) := by
  obtain ⟨h0, h1⟩ := clamp_range b hb z
  have h2 := hb.two
  obtain ⟨i, hi, h⟩ := exists_layer b (b.clamp z) (b.nb - 2) h0 (by
    rw [show b.nb - 2 + 1 = b.nb - 1 by omega]; exact h1)
  exact ⟨i, by omega, h⟩

/-- **C31, outside.** Below the first and above the last break the values are those at the
break. -/
theorem C31_outside (b : Breaks) (hb : b.Ok) (z : ℝ) :
    (z ≤ b.z 0 → b.clamp z = b.z 0) ∧ (b.z (b.nb - 1) ≤ z → b.clamp z = b.z (b.nb - 1)) := by
  have h2 := hb.two
  have := (hb.mono 0 (b.nb - 1) (by omega) (by omega)).le
  rw [clamp_eq b hb]
  constructor
  · intro h; rw [max_eq_right h, min_eq_left this]
  · intro h; rw [max_eq_left (le_trans this h), min_eq_right h]

/-- Inside the range the altitude is not changed. -/
theorem C31_inside (b : Breaks) (hb : b.Ok) (z : ℝ) (h0 : b.z 0 ≤ z) (h1 : z ≤ b.z (b.nb - 1)) : b.clamp z = z := by
  rw [clamp_eq b hb, max_eq_left h0, min_eq_left h1]

theorem temp_continuousOn (b : Breaks) (hb : b.Ok) (dT : ℝ) (m : Nat) (hm : m + 1 < b.nb) :
    ContinuousOn (fun z => b.temp z dT) (Set.Icc (b.z 0) (b.z (m + 1))) := by
  have hline : ∀ i, Continuous (fun z => b.line i z + dT) := by
    intro i
    unfold Breaks.line
    fun_prop
  have hpiece : ∀ i, i + 1 < b.nb → ContinuousOn (fun z => b.temp z dT) (Set.Icc (b.z i) (b.z (i + 1))) := by
    intro i hi
    exact (hline i).continuousOn.congr (fun z hz => C31_layer b hb i hi z dT hz)
  induction m with
  | zero => exact hpiece 0 hm
  | succ m ih =>
    have h1 := ih (by omega)
    have h2 := hpiece (m + 1) hm
    have hunion : Set.Icc (b.z 0) (b.z (m + 1 + 1)) = Set.Icc (b.z 0) (b.z (m + 1)) ∪ Set.Icc (b.z (m + 1)) (b.z (m + 1 + 1)) := by
      rw [Set.Icc_union_Icc_eq_Icc]
      · exact (hb.mono 0 (m + 1) (by omega) (by omega)).le
      · exact (hb.mono (m + 1) (m + 1 + 1) (by omega) hm).le
    rw [hunion]
    exact h1.union_of_isClosed h2 isClosed_Icc isClosed_Icc

/-- **C31, continuity.** The temperature is a continuous function of geopotential altitude on
the whole line. -/
theorem C31_continuous (b : Breaks) (hb : b.Ok) (dT : ℝ) : Continuous fun z => b.temp (b.clamp z) dT := by
  have h2 := hb.two
  have hon := temp_continuousOn b hb dT (b.nb - 2) (by omega)
  rw [show b.nb - 2 + 1 = b.nb - 1 by omega] at hon
  have hc : Continuous b.clamp := by
    have : b.clamp = fun z => min (max z (b.z 0)) (b.z (b.nb - 1)) := by
      funext z; exact clamp_eq b hb z
    rw [this]; fun_prop
  rw [← continuousOn_univ]
  exact hon.comp hc.continuousOn (fun z _ => clamp_range b hb z)

/-- … and of geometric altitude above minus one planet radius. -/
theorem C31_continuous_altitude (b : Breaks) (hb : b.Ok) (g Rad R dT : ℝ) (hR : 0 < Rad) :
    ContinuousOn (fun h => (b.compute g Rad R h dT).T) (Set.Ioi (-Rad)) := by
  have h1 : ContinuousOn (geopotential Rad) (Set.Ioi (-Rad)) := by
    unfold geopotential
    apply ContinuousOn.div continuousOn_id (by fun_prop)
    intro h hh
    have : -Rad < h := hh
    have : 0 < 1 + h / Rad := by
      rw [show 1 + h / Rad = (Rad + h) / Rad by field_simp]
      exact div_pos (by linarith) hR
    exact this.ne'
  exact (C31_continuous b hb dT).comp_continuousOn h1

/-- Standard-day temperature is between the tabulated extremes. -/
theorem temp_pos (b : Breaks) (hb : b.Ok) (z : ℝ) (lo : ℝ) (hlo : ∀ i < b.nb, lo ≤ b.T i) :
    lo ≤ b.temp (b.clamp z) 0 := by
  obtain ⟨i, hi, h⟩ := exists_layer' b hb z
  rw [C31_layer b hb i hi _ 0 h, add_zero]
  have hp : 0 < b.z (i + 1) - b.z i := sub_pos.2 (hb.mono i (i + 1) (by omega) hi)
  unfold Breaks.line
  set t := (b.clamp z - b.z i) / (b.z (i + 1) - b.z i) with ht
  have t0 : 0 ≤ t := div_nonneg (by linarith [h.1]) hp.le
  have t1 : t ≤ 1 := by rw [ht, div_le_one hp]; linarith [h.2]
  have e : b.T i + (b.T (i + 1) - b.T i) * t = (1 - t) * b.T i + t * b.T (i + 1) := by ring
  rw [e]
  have a1 := mul_le_mul_of_nonneg_left (hlo i (by omega)) (sub_nonneg.2 t1)
  have a2 := mul_le_mul_of_nonneg_left (hlo (i + 1) hi) t0
  linarith

theorem temp_add (b : Breaks) (z dT : ℝ) : b.temp z dT = b.temp z 0 + dT := by
  unfold Breaks.temp; simp

/-- Pressure is positive. -/
theorem press_pos (b : Breaks) (hb : b.Ok) (g R z : ℝ) : 0 < b.press g R (b.clamp z) := by
  obtain ⟨i, hi, h⟩ := exists_layer' b hb z
  obtain ⟨j, hj, h2, hsel⟩ := select_mem b _ i hi h
  have hT : 0 < b.line j (b.clamp z) := by
    have hmin : 0 < min (b.T j) (b.T (j + 1)) := lt_min (hb.Tpos j (by omega)) (hb.Tpos _ hj)
    have hp : 0 < b.z (j + 1) - b.z j := sub_pos.2 (hb.mono j (j + 1) (by omega) hj)
    unfold Breaks.line
    set t := (b.clamp z - b.z j) / (b.z (j + 1) - b.z j) with ht
    have t0 : 0 ≤ t := div_nonneg (by linarith [h2.1]) hp.le
    have t1 : t ≤ 1 := by rw [ht, div_le_one hp]; linarith [h2.2]
    have e : b.T j + (b.T (j + 1) - b.T j) * t = (1 - t) * b.T j + t * b.T (j + 1) := by ring
    rw [e]
    have a1 := mul_le_mul_of_nonneg_left (min_le_left (b.T j) (b.T (j + 1))) (sub_nonneg.2 t1)
    have a2 := mul_le_mul_of_nonneg_left (min_le_right (b.T j) (b.T (j + 1))) t0
    linarith
  have hp0 : 0 < (b.layer j).p0 := hb.ppos j (by omega)
  have hT0 : 0 < (b.layer j).T0 := hb.Tpos j (by omega)
  unfold Breaks.press
  simp only [hsel]
  split
  · exact mul_pos hp0 (exp_pos _)
  · apply mul_pos hp0
    apply rpow_pos_of_pos
    have : 1 - (b.layer j).alpha * (b.clamp z - (b.layer j).z0) / (b.layer j).T0 = b.line j (b.clamp z) / (b.layer j).T0 := by
      rw [← temp_layer b hb j hj]
      field_simp
    rw [this]
    exact div_pos hT hT0

/-- **C31, positive values and gas law.** For every altitude and every temperature deviation
that does not reach below the coldest tabulated temperature, temperature, pressure, density
and speed of sound are positive and `p = rho R T`. -/
theorem C31_positive (b : Breaks) (hb : b.Ok) (g Rad R h dT : ℝ) (hR : 0 < R) (hdT : ∀ i < b.nb, 0 < b.T i + dT) :
    let v := b.compute g Rad R h dT
    0 < v.T ∧ 0 < v.p ∧ 0 < v.rho ∧ 0 < v.a ∧ v.p = v.rho * R * v.T := by
  intro v
  have hT : 0 < v.T := by
    show 0 < b.temp (b.clamp _) dT
    rw [temp_add]
    -- the least tabulated temperature
    have h2 := hb.two
    obtain ⟨k, hk, hmin⟩ : ∃ k < b.nb, ∀ i < b.nb, b.T k ≤ b.T i := by
      obtain ⟨k, hk, hm⟩ := Finset.exists_min_image (Finset.range b.nb) b.T ⟨0, Finset.mem_range.2 (by omega)⟩
      exact ⟨k, Finset.mem_range.1 hk, fun i hi => hm i (Finset.mem_range.2 hi)⟩
    have := temp_pos b hb (geopotential Rad h) (b.T k) hmin
    linarith [hdT k hk]
  have hp : 0 < v.p := press_pos b hb g R _
  have hRT : 0 < R * v.T := mul_pos hR hT
  refine ⟨hT, hp, div_pos hp hRT, ?_, ?_⟩
  · show 0 < sqrt (1.4 * R * v.T)
    apply sqrt_pos.2
    have : 1.4 * R * v.T = 1.4 * (R * v.T) := by ring
    rw [this]; positivity
  · show v.p = v.p / (R * v.T) * R * v.T
    have := hT.ne'
    field_simp

/-- The hypotheses hold for the actual table and deviations above −186 K. -/
example : ∀ i < us76.nb, 0 < us76.T i + (-186) := by
  intro i hi
  have hi' : i < 9 := hi
  clear hi
  interval_cases i <;> norm_num [us76]

/-- **C31, pressure at breaks** below the last one: the tabulated value. -/
theorem C31_pressure_at_break (b : Breaks) (hb : b.Ok) (g R : ℝ) (i : Nat) (hi : i + 1 < b.nb) :
    b.press g R (b.z i) = b.p i := by
  have hself : b.z i ≤ b.z i ∧ b.z i ≤ b.z (i + 1) := ⟨le_rfl, (hb.mono i (i + 1) (by omega) hi).le⟩
  -- the loop keeps layer i: a later one cannot contain its lower break
  have hsel : b.select (b.z i) = b.layer i := by
    unfold Breaks.select
    have gen : ∀ m, i < m → m ≤ b.nb - 1 → (List.range m).foldl
        (fun acc k => if b.z k ≤ b.z i ∧ b.z i ≤ b.z (k + 1) then b.layer k else acc) (⟨0, 0, 0, 0⟩ : Layer) = b.layer i := by
      intro m
      induction m with
      | zero => omega
      | succ m ih =>
        intro h1 h2
        rw [List.range_succ, List.foldl_append, List.foldl_cons, List.foldl_nil]
        rcases Nat.lt_or_eq_of_le (Nat.lt_succ_iff.1 h1) with h3 | h3
        · have := hb.mono i m h3 (by omega)
          rw [if_neg (by rintro ⟨h4, _⟩; linarith)]
          exact ih h3 (by omega)
        · subst h3; rw [if_pos hself]
    exact gen _ (by omega) le_rfl
  unfold Breaks.press
  simp only [hsel]
  have : b.z i - (b.layer i).z0 = 0 := sub_self _
  rw [this]
  split <;> simp [Breaks.layer]

/-! ### C61 -/

/-- Strictly inside a layer the loop selects that layer. -/
theorem select_interior (b : Breaks) (hb : b.Ok) (i : Nat) (hi : i + 1 < b.nb) (z : ℝ) (h : b.z i < z ∧ z < b.z (i + 1)) :
    b.select z = b.layer i := by
  obtain ⟨j, hj, h2, hsel⟩ := select_mem b z i hi ⟨h.1.le, h.2.le⟩
  rcases lt_trichotomy i j with hij | hij | hij
  · obtain ⟨rfl, hz⟩ := layers_adjacent b hb z i j hj ⟨h.1.le, h.2.le⟩ h2 hij
    exact absurd h.2 (by rw [hz]; exact lt_irrefl _)
  · rw [hsel, hij]
  · obtain ⟨rfl, hz⟩ := layers_adjacent b hb z j i hi h2 ⟨h.1.le, h.2.le⟩ hij
    exact absurd h.1 (by rw [hz]; exact lt_irrefl _)

/-- **C61, hydrostatic balance.** Strictly inside each layer, on a standard day, the pressure's
derivative with respect to geopotential altitude is `-rho g`. -/
theorem C61_hydrostatic (b : Breaks) (hb : b.Ok) (g R : ℝ) (hR : 0 < R) (i : Nat) (hi : i + 1 < b.nb) (z : ℝ)
    (h : b.z i < z ∧ z < b.z (i + 1)) :
    HasDerivAt (b.press g R) (-(b.press g R z / (R * b.temp z 0)) * g) z := by
  have hev : ∀ᶠ y in nhds z, b.select y = b.layer i := by
    filter_upwards [eventually_gt_nhds h.1, eventually_lt_nhds h.2] with y h1 h2
    exact select_interior b hb i hi y ⟨h1, h2⟩
  have hsel := select_interior b hb i hi z h
  have hT0 : 0 < (b.layer i).T0 := hb.Tpos i (by omega)
  have htemp : b.temp z 0 = (b.layer i).T0 - (z - (b.layer i).z0) * (b.layer i).alpha := by
    unfold Breaks.temp; simp only [hsel]; ring
  have hTpos : 0 < b.temp z 0 := by
    have := temp_pos b hb z (min (b.T i) (b.T (i+1)) - 0)
    rw [C31_layer b hb i hi z 0 ⟨h.1.le, h.2.le⟩, add_zero]
    have hp : 0 < b.z (i + 1) - b.z i := sub_pos.2 (hb.mono i (i + 1) (by omega) hi)
    unfold Breaks.line
    set t := (z - b.z i) / (b.z (i + 1) - b.z i) with ht
    have t0 : 0 ≤ t := div_nonneg (by linarith [h.1]) hp.le
    have t1 : t ≤ 1 := by rw [ht, div_le_one hp]; linarith [h.2]
    have e : b.T i + (b.T (i + 1) - b.T i) * t = (1 - t) * b.T i + t * b.T (i + 1) := by ring
    rw [e]
    have hm : 0 < min (b.T i) (b.T (i + 1)) := lt_min (hb.Tpos i (by omega)) (hb.Tpos _ hi)
    have a1 := mul_le_mul_of_nonneg_left (min_le_left (b.T i) (b.T (i + 1))) (sub_nonneg.2 t1)
    have a2 := mul_le_mul_of_nonneg_left (min_le_right (b.T i) (b.T (i + 1))) t0
    linarith
  generalize b.layer i = l at *
  by_cases ha : l.alpha = 0
  · have hpz : b.press g R z = l.p0 * exp (-1 * (z - l.z0) * g / (R * l.T0)) := by
      unfold Breaks.press; simp only [hsel, ha, if_true]
    have hd : HasDerivAt (fun y => l.p0 * exp (-1 * (y - l.z0) * g / (R * l.T0)))
        (l.p0 * (exp (-1 * (z - l.z0) * g / (R * l.T0)) * (-1 * 1 * g / (R * l.T0)))) z := by
      have h1 : HasDerivAt (fun y => -1 * (y - l.z0) * g / (R * l.T0)) (-1 * 1 * g / (R * l.T0)) z :=
        ((((hasDerivAt_id z).sub_const l.z0).const_mul (-1)).mul_const g).div_const _
      exact (h1.exp).const_mul _
    refine (hd.congr_of_eventuallyEq ?_).congr_deriv ?_
    · filter_upwards [hev] with y hy
      unfold Breaks.press; simp only [hy, ha, if_true]
    · rw [hpz, htemp, ha, mul_zero, sub_zero]
      field_simp
  · have hbase : 1 - l.alpha * (z - l.z0) / l.T0 = b.temp z 0 / l.T0 := by
      rw [htemp]; field_simp
    have hbpos : 0 < 1 - l.alpha * (z - l.z0) / l.T0 := by rw [hbase]; exact div_pos hTpos hT0
    have hpz : b.press g R z = l.p0 * (1 - l.alpha * (z - l.z0) / l.T0) ^ (1 * g / (l.alpha * R)) := by
      unfold Breaks.press; simp only [hsel, ha, if_false]
    have h1 : HasDerivAt (fun y => 1 - l.alpha * (y - l.z0) / l.T0) (-(l.alpha * 1 / l.T0)) z := by
      have := ((((hasDerivAt_id z).sub_const l.z0).const_mul l.alpha).div_const l.T0).const_sub 1
      exact this
    have hd := (h1.rpow_const (p := 1 * g / (l.alpha * R)) (Or.inl hbpos.ne')).const_mul l.p0
    refine (hd.congr_of_eventuallyEq ?_).congr_deriv ?_
    · filter_upwards [hev] with y hy
      unfold Breaks.press; simp only [hy, ha, if_false]
    · rw [hpz, rpow_sub_one hbpos.ne', hbase]
      have := hTpos.ne'
      field_simp

/-- **C61, pressure falls** strictly with altitude inside each layer, for positive gravity. -/
theorem C61_decreasing (b : Breaks) (hb : b.Ok) (g R : ℝ) (hg : 0 < g) (hR : 0 < R) (i : Nat) (hi : i + 1 < b.nb)
    (y z : ℝ) (hy : b.z i < y) (hyz : y < z) (hz : z < b.z (i + 1)) : b.press g R z < b.press g R y := by
  have hcont : ∀ w ∈ Set.Ioo (b.z i) (b.z (i + 1)), HasDerivAt (b.press g R) (-(b.press g R w / (R * b.temp w 0)) * g) w :=
    fun w hw => C61_hydrostatic b hb g R hR i hi w hw
  have hanti : StrictAntiOn (b.press g R) (Set.Ioo (b.z i) (b.z (i + 1))) := by
    apply strictAntiOn_of_deriv_neg (convex_Ioo _ _)
    · intro w hw; exact (hcont w hw).continuousAt.continuousWithinAt
    · intro w hw
      rw [interior_Ioo] at hw
      rw [(hcont w hw).deriv]
      have hin : b.clamp w = w := by
        apply C31_inside b hb w
        · rcases Nat.eq_zero_or_pos i with h0 | h0
          · rw [← h0]; exact hw.1.le
          · exact le_trans (hb.mono 0 i h0 (by omega)).le hw.1.le
        · rcases Nat.lt_or_eq_of_le (show i + 1 ≤ b.nb - 1 by omega) with h0 | h0
          · exact le_trans hw.2.le (hb.mono _ _ h0 (by have := hb.two; omega)).le
          · rw [← h0]; exact hw.2.le
      have hp := press_pos b hb g R w
      rw [hin] at hp
      have hT : 0 < b.temp w 0 := by
        have h2 := hb.two
        obtain ⟨k, hk, hm⟩ := Finset.exists_min_image (Finset.range b.nb) b.T ⟨0, Finset.mem_range.2 (by omega)⟩
        have := temp_pos b hb w (b.T k) (fun i hi => hm i (Finset.mem_range.2 hi))
        rw [hin] at this
        exact lt_of_lt_of_le (hb.Tpos k (Finset.mem_range.1 hk)) this
      have : 0 < b.press g R w / (R * b.temp w 0) * g := mul_pos (div_pos hp (mul_pos hR hT)) hg
      linarith
  exact hanti ⟨hy, by linarith⟩ ⟨by linarith, hz⟩ hyz

/-- Gravity: sea-level value at zero altitude and falling with altitude. -/
theorem C61_gravity (g0 Re : ℝ) (hg : 0 < g0) (hR : 0 < Re) :
    gravity g0 Re 0 = g0 ∧ ∀ H1 H2, 0 ≤ H1 → H1 < H2 → 0 < gravity g0 Re H2 ∧ gravity g0 Re H2 < gravity g0 Re H1 := by
  constructor
  · unfold gravity; rw [add_zero, div_self hR.ne']; ring
  · intro H1 H2 h1 h12
    unfold gravity
    have a : 0 < Re / (Re + H2) := div_pos hR (by linarith)
    have b : Re / (Re + H2) < Re / (Re + H1) := div_lt_div_of_pos_left hR (by linarith) (by linarith)
    refine ⟨by positivity, ?_⟩
    exact mul_lt_mul_of_pos_left (pow_lt_pow_left₀ b a.le (by norm_num)) hg

end Verif.Physics
