import Verif.Weights.FlopsWing
import Mathlib.Analysis.SpecialFunctions.Integrals.Basic
import Mathlib.Algebra.BigOperators.Intervals
import Mathlib.Data.List.GetD
import Mathlib.Tactic.Linarith
import Mathlib.Tactic.NormNum
import Mathlib.Tactic.FieldSimp
import Mathlib.Tactic.Ring
import Mathlib.Tactic.LinearCombination

/-!
# FLOPS wing, detailed method: properties C411 and C412
-/

namespace Verif.Weights.FlopsWing

open Verif.Weights

/-- The loop of `find_sweep` over the first `m` stations. -/
theorem find_loop (y : ℝ) (lst swp : List ℝ) (k : ℕ) (hk : lst.getD k 0 ≤ y) (m : ℕ) (acc : ℝ)
    (hm : ∀ i, k < i → i < m → y < lst.getD i 0) (hkm : k < m) :
    (List.range m).foldl (fun acc i => if lst.getD i 0 ≤ y then swp.getD i 0 else acc) acc = swp.getD k 0 := by
  induction m with
  | zero => omega
  | succ m ih =>
    rw [List.range_succ, List.foldl_append]
    simp only [List.foldl_cons, List.foldl_nil]
    by_cases h : k = m
    · subst h; rw [if_pos hk]
    · rw [if_neg (not_le.2 (hm m (by omega) (by omega)))]
      exact ih (fun i h1 h2 => hm i h1 (by omega)) (by omega)

/-- **C411, look-up.** Between two stations the sweep is the one stored with the inner station. -/
theorem C411_lookup (y : ℝ) (lst swp : List ℝ) (k : ℕ) (hk : k + 1 < lst.length) (hsort : lst.Pairwise (· ≤ ·))
    (h1 : lst.getD k 0 ≤ y) (h2 : y < lst.getD (k + 1) 0) : findSweep y lst swp = swp.getD k 0 := by
  unfold findSweep
  refine find_loop y lst swp k h1 _ _ ?_ (by omega)
  intro i hi him
  refine lt_of_lt_of_le h2 ?_
  rcases Nat.lt_or_ge (k + 1) i with h | h
  · rw [List.getD_eq_getElem _ _ hk, List.getD_eq_getElem _ _ (by omega)]
    exact List.pairwise_iff_getElem.1 hsort (k + 1) i hk (by omega) h
  · have : i = k + 1 := by omega
    rw [this]

theorem fuselageChord_const (root semispan c y1 y2 width : ℝ) (hr : root ≠ 0) (hc : c ≠ 0) :
    fuselageChord root semispan c y1 c y2 width = root * c := by
  have : root * c ≠ 0 := mul_ne_zero hr hc
  simp only [fuselageChord, div_self this]
  ring

/-- **C411, constant chord.** On a wing of constant chord the sweep used at every station outside the
fuselage is the sweep of the segment the station is in.  Missing: tapered wings, see the
counterexample. -/
theorem C411_constant_partial (root semispan width y c : ℝ) (s0 s1 : Seg) (rest : List Seg) (k : ℕ) (hr : root ≠ 0) (hc : c ≠ 0)
    (hchord : ∀ s ∈ s0 :: s1 :: rest, s.frac = c)
    (hsw : ∀ s ∈ s0 :: s1 :: rest, -(Real.pi / 2) < s.sweep ∧ s.sweep < Real.pi / 2)
    (hsort : (etas semispan width s0 (s1 :: rest)).Pairwise (· ≤ ·)) (hk : k < (s1 :: rest).length)
    (h1 : (etas semispan width s0 (s1 :: rest)).getD (k + 1) 0 ≤ y)
    (h2 : y < (etas semispan width s0 (s1 :: rest)).getD (k + 2) 0) :
    findSweep y (etas semispan width s0 (s1 :: rest))
        (sweeps (s0 :: s1 :: rest) (chords (fuselageChord root semispan s0.frac s0.eta s1.frac s1.eta width) root semispan s0 (s1 :: rest))) =
      ((s0 :: s1 :: rest).map Seg.sweep).getD k 0 := by
  have hlen : (etas semispan width s0 (s1 :: rest)).length = rest.length + 3 := by simp [etas]
  have hk' : k < rest.length + 1 := by simpa using hk
  rw [C411_lookup y _ _ (k + 1) (by omega) hsort h1 h2]
  have hC : ∀ i, i < rest.length + 3 →
      (chords (fuselageChord root semispan s0.frac s0.eta s1.frac s1.eta width) root semispan s0 (s1 :: rest)).getD i 0 = root * c * 1 / semispan := by
    intro i hi
    rw [hchord s0 (by simp), hchord s1 (by simp), fuselageChord_const root semispan c _ _ _ hr hc]
    rcases i with _ | _ | i
    · simp [chords, hchord s0 (by simp)]
    · simp [chords]
    · have hi' : i < (s1 :: rest).length := by simp; omega
      simp only [chords, List.getD_cons_succ]
      rw [List.getD_eq_getElem _ _ (by simpa using hi'), List.getElem_map, hchord _ (List.mem_cons_of_mem _ (List.getElem_mem hi'))]
  have hget : (sweeps (s0 :: s1 :: rest) (chords (fuselageChord root semispan s0.frac s0.eta s1.frac s1.eta width) root semispan s0 (s1 :: rest))).getD (k + 1) 0 =
      Real.arctan (Real.tan (((s0 :: s1 :: rest).map Seg.sweep).getD k 0)) := by
    simp only [sweeps, List.cons_append, List.getD_cons_succ]
    have hl : k < ((List.range ((s0 :: s1 :: rest).length - 1)).map fun i =>
        Real.arctan (Real.tan (((s0 :: s1 :: rest).map Seg.sweep).getD (i + 1 - 1) 0) -
          ((chords (fuselageChord root semispan s0.frac s0.eta s1.frac s1.eta width) root semispan s0 (s1 :: rest)).getD (i + 1 - 1) 0 -
            (chords (fuselageChord root semispan s0.frac s0.eta s1.frac s1.eta width) root semispan s0 (s1 :: rest)).getD (i + 1) 0))).length := by
      simp; omega
    rw [List.getD_append _ _ _ _ hl, List.getD_eq_getElem _ _ hl, List.getElem_map, List.getElem_range]
    rw [hC (k + 1 - 1) (by omega), hC (k + 1) (by omega)]
    simp
  rw [hget]
  have hkl : k < ((s0 :: s1 :: rest).map Seg.sweep).length := by simp; omega
  rw [List.getD_eq_getElem _ _ hkl, List.getElem_map]
  have hmem : (s0 :: s1 :: rest)[k]'(by simpa using hkl) ∈ s0 :: s1 :: rest := List.getElem_mem _
  exact Real.arctan_tan (hsw _ hmem).1 (hsw _ hmem).2

example : (etas 1 0.5 ⟨0, 1, 0.3, none⟩ [⟨0.5, 1, 0.2, none⟩, ⟨1, 1, 0, none⟩]).Pairwise (· ≤ ·) ∧
    (etas 1 0.5 ⟨0, 1, 0.3, none⟩ [⟨0.5, 1, 0.2, none⟩, ⟨1, 1, 0, none⟩]).getD 2 0 ≤ (0.7 : ℝ) ∧
    (0.7 : ℝ) < (etas 1 0.5 ⟨0, 1, 0.3, none⟩ [⟨0.5, 1, 0.2, none⟩, ⟨1, 1, 0, none⟩]).getD 3 0 := by
  norm_num [etas]

theorem taper_sweep (width : ℝ) (hw : 0 ≤ width) (hw2 : width ≤ 1) :
    findSweep 0.6 (etas 1 width ⟨0, 1, 0, none⟩ [⟨1, 0.5, 0, none⟩])
      (sweeps [⟨0, 1, 0, none⟩, ⟨1, 0.5, 0, none⟩] (chords (fuselageChord 1 1 1 0 0.5 1 width) 1 1 ⟨0, 1, 0, none⟩ [⟨1, 0.5, 0, none⟩])) =
      Real.arctan (-(width / 2)) := by
  rw [C411_lookup 0.6 _ _ 1 (by simp [etas])]
  · simp [sweeps, chords, fuselageChord, List.range_succ]
    ring
  · simp [etas]; constructor <;> linarith
  · simp [etas]; linarith
  · norm_num [etas]

/-- **C411, thickness.** Every station has a thickness: that of the segment beginning there, at the side of the fuselage that of the root; a segment
without one has that of the wing. -/
theorem C411_thickness (wingTc semispan width : ℝ) (s0 : Seg) (rest : List Seg) :
    (thicknesses wingTc s0 rest).length = (etas semispan width s0 rest).length ∧
      (thicknesses wingTc s0 rest)[0]? = (thicknesses wingTc s0 rest)[1]? ∧
      ∀ k (hk : k < (s0 :: rest).length),
        (∀ t, (s0 :: rest)[k].tc = some t → (thicknesses wingTc s0 rest)[k + 1]? = some t) ∧
          ((s0 :: rest)[k].tc = none → (thicknesses wingTc s0 rest)[k + 1]? = some wingTc) := by
  refine ⟨by simp [thicknesses, etas], by simp [thicknesses], fun k hk => ?_⟩
  rcases k with _ | k
  · refine ⟨fun t h => ?_, fun h => ?_⟩ <;> simp only [List.getElem_cons_zero] at h <;> simp [thicknesses, h]
  · simp only [List.length_cons, Nat.add_lt_add_iff_right] at hk
    refine ⟨fun t h => ?_, fun h => ?_⟩ <;> simp only [List.getElem_cons_succ] at h <;> simp [thicknesses, hk, h]

/-- A root of its own thickness and a tip of the wing's. -/
example : (thicknesses 0.12 ⟨0, 1, 0, some 0.15⟩ [⟨1, 0.5, 0, none⟩])[1]? = some (0.15 : ℝ) :=
  ((C411_thickness 0.12 1 0.2 ⟨0, 1, 0, some 0.15⟩ [⟨1, 0.5, 0, none⟩]).2.2 0 (by simp)).1 _ rfl

/-- C411 is false of a tapered wing: the sweep used outside the fuselage depends on how wide the
fuselage is, although the wing is the same. -/
theorem C411_taper_counterexample :
    findSweep 0.6 (etas 1 0 ⟨0, 1, 0, none⟩ [⟨1, 0.5, 0, none⟩])
        (sweeps [⟨0, 1, 0, none⟩, ⟨1, 0.5, 0, none⟩] (chords (fuselageChord 1 1 1 0 0.5 1 0) 1 1 ⟨0, 1, 0, none⟩ [⟨1, 0.5, 0, none⟩])) ≠
      findSweep 0.6 (etas 1 1 ⟨0, 1, 0, none⟩ [⟨1, 0.5, 0, none⟩])
        (sweeps [⟨0, 1, 0, none⟩, ⟨1, 0.5, 0, none⟩] (chords (fuselageChord 1 1 1 0 0.5 1 1) 1 1 ⟨0, 1, 0, none⟩ [⟨1, 0.5, 0, none⟩])) := by
  rw [taper_sweep 0 (by norm_num) (by norm_num), taper_sweep 1 (by norm_num) (by norm_num)]
  intro h
  have := Real.arctan_injective h
  norm_num at this

/-- **C411, engines.** With as many mounted engines left as right of the centre, and none on it, the
stations are those of the right-hand engines, in order. -/
theorem C411_engines_partial (semispan : ℝ) (es : List Engine)
    (hsym : (es.filter fun e => e.mounted).length = 2 * (es.filter fun e => e.mounted && decide (0 < e.y)).length) :
    spanwiseEngines semispan es = some ((es.filter fun e => e.mounted && decide (0 < e.y)).map fun e => e.y / semispan) := by
  simp only [spanwiseEngines, hsym, List.length_map]
  rw [Nat.mul_div_cancel_left _ (by norm_num), if_neg (lt_irrefl _)]
  simp

example : (([⟨true, 10⟩, ⟨true, -10⟩, ⟨false, 0⟩] : List Engine).filter fun e => e.mounted).length =
    2 * (([⟨true, 10⟩, ⟨true, -10⟩, ⟨false, 0⟩] : List Engine).filter fun e => e.mounted && decide (0 < e.y)).length := by
  norm_num [List.filter]

/-- C411 is false of a wing with engines listed on the right only: an index error. -/
theorem C411_engines_counterexample : spanwiseEngines 50 [⟨true, 10⟩, ⟨true, 20⟩] = none := by
  norm_num [spanwiseEngines, List.filter]

/-- **C412, panel.** The lift of a panel is the integral of chord times load, both linear between the
stations; its moment about the inner station is the integral of that times the distance. -/
theorem C412_panel (dy c0 c1 p0 p1 : ℝ) :
    delp dy c0 c1 p0 p1 = ∫ t in (0 : ℝ)..1, (c0 + (c1 - c0) * t) * (p0 + (p1 - p0) * t) * dy ∧
    delm dy c0 c1 p0 p1 = ∫ t in (0 : ℝ)..1, (c0 + (c1 - c0) * t) * (p0 + (p1 - p0) * t) * dy * ((1 - t) * dy) := by
  constructor
  · have hd : ∀ t ∈ Set.uIcc (0 : ℝ) 1, HasDerivAt (fun t : ℝ => dy * (c0 * p0 * t + (c0 * (p1 - p0) + (c1 - c0) * p0) * t ^ 2 / 2 + (c1 - c0) * (p1 - p0) * t ^ 3 / 3))
        ((c0 + (c1 - c0) * t) * (p0 + (p1 - p0) * t) * dy) t := by
      intro t _
      have h1 := (hasDerivAt_id t).const_mul (c0 * p0)
      have h2 := ((hasDerivAt_pow 2 t).const_mul (c0 * (p1 - p0) + (c1 - c0) * p0)).div_const 2
      have h3 := ((hasDerivAt_pow 3 t).const_mul ((c1 - c0) * (p1 - p0))).div_const 3
      refine (((h1.add h2).add h3).const_mul dy).congr_deriv ?_
      norm_num; ring
    rw [intervalIntegral.integral_eq_sub_of_hasDerivAt hd (by apply Continuous.intervalIntegrable; fun_prop)]
    unfold delp; ring
  · have hd : ∀ t ∈ Set.uIcc (0 : ℝ) 1, HasDerivAt (fun t : ℝ => dy ^ 2 * (c0 * p0 * t + (c0 * (p1 - p0) + (c1 - c0) * p0 - c0 * p0) * t ^ 2 / 2 +
          ((c1 - c0) * (p1 - p0) - (c0 * (p1 - p0) + (c1 - c0) * p0)) * t ^ 3 / 3 - (c1 - c0) * (p1 - p0) * t ^ 4 / 4))
        ((c0 + (c1 - c0) * t) * (p0 + (p1 - p0) * t) * dy * ((1 - t) * dy)) t := by
      intro t _
      have h1 := (hasDerivAt_id t).const_mul (c0 * p0)
      have h2 := ((hasDerivAt_pow 2 t).const_mul (c0 * (p1 - p0) + (c1 - c0) * p0 - c0 * p0)).div_const 2
      have h3 := ((hasDerivAt_pow 3 t).const_mul ((c1 - c0) * (p1 - p0) - (c0 * (p1 - p0) + (c1 - c0) * p0))).div_const 3
      have h4 := ((hasDerivAt_pow 4 t).const_mul ((c1 - c0) * (p1 - p0))).div_const 4
      refine ((((h1.add h2).add h3).sub h4).const_mul (dy ^ 2)).congr_deriv ?_
      norm_num; ring
    rw [intervalIntegral.integral_eq_sub_of_hasDerivAt hd (by apply Continuous.intervalIntegrable; fun_prop)]
    unfold delm; ring

/-- **C412, bending moment.** On a wing of constant sweep the moment at station `k` is that of every
panel outboard of it: the panel's moment about its own inner station and its lift times the distance from
there to `k`, along the swept axis. -/
theorem C412_moment (DELM DELP DY Y : ℕ → ℝ) (c : ℝ) (hDY : ∀ j, DY (j + 1) = Y j - Y (j + 1)) (k : ℕ) :
    em DELM DELP DY (fun _ => c) k = (∑ j ∈ Finset.range (k + 1), (DELM j + DELP j * (Y j - Y k))) / c := by
  have hkey : ∀ k, ∑ j ∈ Finset.range (k + 1), (DELM j + DY j * el DELP j) =
      ∑ j ∈ Finset.range (k + 1), (DELM j + DELP j * (Y j - Y k)) := by
    intro k
    induction k with
    | zero => simp [el]
    | succ k ih =>
      rw [Finset.sum_range_succ, ih, Finset.sum_range_succ (fun j => DELM j + DELP j * (Y j - Y (k + 1))), hDY]
      have : ∑ j ∈ Finset.range (k + 1), (DELM j + DELP j * (Y j - Y (k + 1))) =
          ∑ j ∈ Finset.range (k + 1), (DELM j + DELP j * (Y j - Y k)) + el DELP (k + 1) * (Y k - Y (k + 1)) := by
        unfold el
        rw [Finset.sum_mul, ← Finset.sum_add_distrib]
        apply Finset.sum_congr rfl
        intro j _; ring
      rw [this]; ring
  unfold em
  simp only [mul_one]
  rw [← Finset.sum_div, hkey]

/-- What the search for the station of an engine finds. -/
theorem nearest_spec (e : ℝ) (Y : ℕ → ℝ) (M : ℕ) (hY : ∀ i j, i < j → j < M → Y j < Y i) :
    ((∀ i < M, e < Y i) ∧ nearest e Y M = none) ∨
      ∃ i, i < M ∧ Y i ≤ e ∧ (∀ j < i, e < Y j) ∧ nearest e Y M = some (i, e - Y i) := by
  induction M with
  | zero => left; exact ⟨fun i hi => absurd hi (by omega), rfl⟩
  | succ M ih =>
    rcases ih (fun i j h1 h2 => hY i j h1 (by omega)) with ⟨h1, h2⟩ | ⟨i, hi, h1, h2, h3⟩
    · by_cases h : e < Y M
      · left
        refine ⟨fun i hi => ?_, ?_⟩
        · rcases Nat.lt_succ_iff_lt_or_eq.1 hi with h' | h'
          · exact h1 i h'
          · rw [h']; exact h
        · simp only [nearest, h2]; rw [if_pos (by linarith)]
      · right
        refine ⟨M, by omega, not_lt.1 h, h1, ?_⟩
        simp only [nearest, h2]; rw [if_neg (by linarith)]
    · right
      refine ⟨i, by omega, h1, h2, ?_⟩
      have := hY i M hi (by omega)
      simp only [nearest, h3]
      by_cases h : e - Y M < 0
      · rw [if_pos h]
      · rw [if_neg h, if_neg (by linarith)]

theorem mapM_some_map {α β : Type} (f : α → Option β) (g : α → β) (l : List α) (h : ∀ a ∈ l, f a = some (g a)) :
    l.mapM f = some (l.map g) := by
  induction l with
  | nil => rfl
  | cons a l ih =>
    rw [List.mapM_cons, h a (by simp), ih fun b hb => h b (by simp [hb])]
    rfl

/-- One engine: its steps add up to its distance from the station. -/
theorem engine_steps (e : ℝ) (Y DY : ℕ → ℝ) (i : ℕ) (hDY : ∀ j, DY (j + 1) = Y j - Y (j + 1)) (k : ℕ) :
    ∑ j ∈ Finset.range (k + 1), ((if i = j then e - Y i else 0) + (if i < j then 1 else 0) * DY j) = if i ≤ k then e - Y k else 0 := by
  induction k with
  | zero =>
    rcases Nat.eq_zero_or_pos i with h | h
    · simp [h]
    · simp [h.ne']
  | succ k ih =>
    rw [Finset.sum_range_succ, ih, hDY]
    rcases Nat.lt_trichotomy i (k + 1) with h | h | h
    · rw [if_pos (by omega), if_neg (by omega), if_pos h, if_pos (by omega)]; ring
    · rw [if_neg (by omega), if_pos h, if_neg (by omega), if_pos (by omega), h]; ring
    · rw [if_neg (by omega), if_neg (by omega), if_neg (by omega), if_neg (by omega)]; ring

/-- **C412, engines.** On a wing of constant sweep the relief at a station is the moment of unit weights
at the engines outboard of it.  Missing: an engine inboard of all stations, see the counterexample. -/
theorem C412_engines_partial (es : List ℝ) (Y DY : ℕ → ℝ) (c : ℝ) (M k : ℕ) (hk : k < M)
    (hY : ∀ i j, i < j → j < M → Y j < Y i) (hDY : ∀ j, DY (j + 1) = Y j - Y (j + 1)) (hes : ∀ e ∈ es, Y (M - 1) ≤ e) :
    eem es Y DY (fun _ => c) M k = some ((es.map fun e => max 0 (e - Y k)).sum / c) := by
  have hn : ∀ e, Y (M - 1) ≤ e → ∃ i, Y i ≤ e ∧ (∀ j < i, e < Y j) ∧ i < M ∧ nearest e Y M = some (i, e - Y i) := by
    intro e he
    rcases nearest_spec e Y M hY with ⟨h1, _⟩ | ⟨i, hi, h1, h2, h3⟩
    · exact absurd (h1 (M - 1) (by omega)) (not_lt.2 he)
    · exact ⟨i, h1, h2, hi, h3⟩
  let loc : ℝ → ℕ := fun e => ((nearest e Y M).getD (0, 0)).1
  have hloc : ∀ e ∈ es, nearest e Y M = some (loc e, e - Y (loc e)) ∧ Y (loc e) ≤ e ∧ (∀ j < loc e, e < Y j) ∧ loc e < M := by
    intro e he
    obtain ⟨i, h1, h2, h3, h4⟩ := hn e (hes e he)
    have : loc e = i := by simp [loc, h4]
    rw [this]; exact ⟨h4, h1, h2, h3⟩
  have hd : ∀ j, delm2 es Y DY M j = some ((es.map fun e => (if loc e = j then e - Y (loc e) else 0) + (if loc e < j then (1 : ℝ) else 0) * DY j).sum) := by
    intro j
    simp only [delm2]
    rw [mapM_some_map _ (fun e => (loc e, e - Y (loc e))) es fun e he => (hloc e he).1]
    simp only [Option.bind_eq_bind, Option.bind_some, List.map_map, Function.comp_def, pure]
    rw [List.sum_map_add, List.sum_map_mul_right]
  simp only [eem]
  rw [mapM_some_map _ (fun j => (es.map fun e => (if loc e = j then e - Y (loc e) else 0) + (if loc e < j then (1 : ℝ) else 0) * DY j).sum / c) _
    fun j _ => by rw [hd]; rfl]
  simp only [Option.bind_eq_bind, Option.bind_some, pure, Option.some.injEq]
  have hsum : ∀ (es : List ℝ), ((List.range (k + 1)).map fun j => (es.map fun e => (if loc e = j then e - Y (loc e) else 0) + (if loc e < j then (1 : ℝ) else 0) * DY j).sum / c).sum =
      (es.map fun e => ∑ j ∈ Finset.range (k + 1), ((if loc e = j then e - Y (loc e) else 0) + (if loc e < j then (1 : ℝ) else 0) * DY j)).sum / c := by
    intro es
    have : ∀ f : ℕ → ℝ, ((List.range (k + 1)).map f).sum = ∑ j ∈ Finset.range (k + 1), f j := fun f => by
      rw [Finset.sum_eq_multiset_sum]; rfl
    rw [this, ← Finset.sum_div]
    congr 1
    induction es with
    | nil => simp
    | cons e es ih => simp only [List.map_cons, List.sum_cons, Finset.sum_add_distrib] at ih ⊢; rw [ih]
  rw [hsum]
  congr 2
  apply List.map_congr_left
  intro e he
  obtain ⟨_, h1, h2, h3⟩ := hloc e he
  rw [engine_steps e Y DY (loc e) hDY k]
  split_ifs with h
  · have : Y k ≤ Y (loc e) := by
      rcases Nat.lt_or_ge (loc e) k with h' | h'
      · exact (hY _ _ h' hk).le
      · rw [show k = loc e by omega]
    rw [max_eq_right (by linarith)]
  · rw [max_eq_left (by linarith [h2 k (by omega)])]

example : (∀ i j : ℕ, i < j → j < 3 → (1 - (j : ℝ) / 4) < 1 - (i : ℝ) / 4) ∧ (1 - ((3 - 1 : ℕ) : ℝ) / 4) ≤ (0.6 : ℝ) := by
  refine ⟨fun i j h _ => ?_, by norm_num⟩
  have : (i : ℝ) < j := by exact_mod_cast h
  linarith

/-- C412 is false of an engine inboard of the innermost station used: its distance is infinite. -/
theorem C412_engines_counterexample : eem [0.2] (fun j => 1 - (j : ℝ) / 4) (fun _ => 1 / 4) (fun _ => 1) 3 2 = none := by
  have h : nearest 0.2 (fun j => 1 - (j : ℝ) / 4) 3 = none := by norm_num [nearest]
  simp [eem, delm2, List.range_succ, h]

end Verif.Weights.FlopsWing
