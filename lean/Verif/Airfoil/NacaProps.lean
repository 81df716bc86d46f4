import Verif.Airfoil.Naca
import Mathlib.Analysis.SpecialFunctions.Pow.Deriv
import Mathlib.Analysis.Calculus.Deriv.MeanValue
import Mathlib.Tactic.Linarith
import Mathlib.Tactic.NormNum

namespace Verif.Airfoil
open Real

theorem unitStations_length (k : ℕ) : (unitStations k).length = k := by simp [unitStations]

/-- **C215.** For every number of points asked for, the outline returned has exactly that many points, and the arrays for one
surface have matching lengths. -/
theorem C215_point_count (d : List ℕ) (n : ℕ) (te : Option ℝ) (g : Section) (h : naca d n te = some g) :
    g.x.length = n ∧ g.y.length = n ∧ g.xUpper.length = g.yUpper.length ∧ g.xLower.length = g.yLower.length := by
  unfold naca at h
  split at h
  · dsimp only at h
    split at h
    · cases h
    · split at h
      · cases h
      · simp only [Option.some.injEq] at h
        subst h
        have e : lowerCount n + (upperCount n - 1) = n := by unfold lowerCount upperCount; split <;> omega
        have e2 : upperCount n - 1 + 1 = upperCount n := by unfold upperCount; split <;> omega
        simp [unitStations_length, e, e2]
  · cases h

theorem stretch_zero (t : ℝ) : stretch (some t) 0 = 0 := by simp [stretch]
theorem stretch_one (t : ℝ) (ht : 0 < t) : stretch (some t) 1 = 1 := by
  simp [stretch, ht.ne', (by linarith : t + 1 ≠ 0)]

/-- The stretched stations increase strictly. -/
theorem stretch_strictMono (t : ℝ) (ht : 0 < t) : StrictMonoOn (stretch (some t)) (Set.Icc 0 1) := by
  have hc : ContinuousOn (stretch (some t)) (Set.Icc 0 1) := by
    unfold stretch
    simp only
    apply ContinuousOn.sub
    · apply ContinuousOn.sub continuousOn_const
      apply ContinuousOn.mul (by fun_prop)
      exact ContinuousOn.rpow_const (by fun_prop) (fun x hx => Or.inr ht.le)
    · exact ContinuousOn.rpow_const (by fun_prop) (fun x hx => Or.inr (by linarith))
  apply strictMonoOn_of_deriv_pos (convex_Icc 0 1) hc
  intro s hs
  rw [interior_Icc] at hs
  have h1s : 0 < 1 - s := by linarith [hs.2]
  have hd0 : HasDerivAt (fun s : ℝ => 1 - s) (-1) s := by simpa using (hasDerivAt_id s).const_sub 1
  have hd1 : HasDerivAt (fun s : ℝ => (1 - s) ^ t) (-1 * t * (1 - s) ^ (t - 1)) s := hd0.rpow_const (Or.inl h1s.ne')
  have hd2 : HasDerivAt (fun s : ℝ => (1 - s) ^ (t + 1)) (-1 * (t + 1) * (1 - s) ^ (t + 1 - 1)) s := hd0.rpow_const (Or.inl h1s.ne')
  have hd3 : HasDerivAt (fun s : ℝ => (t + 1) * s) (t + 1) s := by simpa using (hasDerivAt_id s).const_mul (t + 1)
  have hd := ((hd3.mul hd1).const_sub 1).sub hd2
  have : HasDerivAt (stretch (some t)) ((t + 1) * t * s * (1 - s) ^ (t - 1)) s := by
    rw [show t + 1 - 1 = t by ring] at hd
    have e : (t + 1) * t * s * (1 - s) ^ (t - 1) =
        -((t + 1) * (1 - s) ^ t + (t + 1) * s * (-1 * t * (1 - s) ^ (t - 1))) - -1 * (t + 1) * (1 - s) ^ t := by ring
    rw [e]
    exact hd
  rw [this.deriv]
  have := Real.rpow_pos_of_pos h1s (t - 1)
  have := hs.1
  positivity

/-- The resolution factors meant: none, or a positive one. -/
def Factor (te : Option ℝ) : Prop := ∀ t, te = some t → 0 < t

theorem stretch_mono (te : Option ℝ) (h : Factor te) :
    StrictMonoOn (stretch te) (Set.Icc 0 1) ∧ stretch te 0 = 0 ∧ stretch te 1 = 1 := by
  cases te with
  | none => exact ⟨fun a _ b _ h => h, rfl, rfl⟩
  | some t => exact ⟨stretch_strictMono t (h t rfl), stretch_zero t, stretch_one t (h t rfl)⟩

theorem stations_spec (te : Option ℝ) (h : Factor te) (k : ℕ) (hk : 2 ≤ k) :
    let l := (unitStations k).map (stretch te)
    l.Pairwise (· < ·) ∧ l.head? = some 0 ∧ l.getLast? = some 1 ∧ ∀ x ∈ l, 0 ≤ x ∧ x ≤ 1 := by
  intro l
  obtain ⟨hm, h0, h1⟩ := stretch_mono te h
  have hk1 : (0 : ℝ) < ((k - 1 : ℕ) : ℝ) := by exact_mod_cast (by omega : 0 < k - 1)
  have hin : ∀ i < k, ((i : ℝ) / ((k - 1 : ℕ) : ℝ)) ∈ Set.Icc (0 : ℝ) 1 := by
    intro i hi
    refine ⟨by positivity, ?_⟩
    rw [div_le_one hk1]
    exact_mod_cast (by omega : i ≤ k - 1)
  have hl : l = (List.range k).map fun i : ℕ => stretch te ((i : ℝ) / ((k - 1 : ℕ) : ℝ)) := by
    simp [l, unitStations, Function.comp_def]
  refine ⟨?_, ?_, ?_, ?_⟩
  · rw [hl, List.pairwise_map]
    have := List.pairwise_lt_range (n := k)
    refine List.Pairwise.imp_of_mem ?_ this
    intro a b ha hb hab
    rw [List.mem_range] at ha hb
    apply hm (hin a ha) (hin b hb)
    apply div_lt_div_of_pos_right _ hk1
    exact_mod_cast hab
  · rw [hl]
    obtain ⟨k', rfl⟩ : ∃ k', k = k' + 1 := ⟨k - 1, by omega⟩
    simp [List.range_succ_eq_map, h0]
  · rw [hl]
    obtain ⟨k', rfl⟩ : ∃ k', k = k' + 1 := ⟨k - 1, by omega⟩
    rw [List.range_succ, List.map_append]
    simp only [List.map_cons, List.map_nil, List.getLast?_append, List.getLast?_singleton, Option.some_or, Nat.add_sub_cancel]
    rw [div_self (by simpa using hk1.ne'), h1]
  · intro x hx
    rw [hl, List.mem_map] at hx
    obtain ⟨i, hi, rfl⟩ := hx
    rw [List.mem_range] at hi
    have hz : (0 : ℝ) ∈ Set.Icc (0 : ℝ) 1 := by simp
    have ho : (1 : ℝ) ∈ Set.Icc (0 : ℝ) 1 := by simp
    constructor
    · rw [← h0]; exact hm.monotoneOn hz (hin i hi) (hin i hi).1
    · rw [← h1]; exact hm.monotoneOn (hin i hi) ho (hin i hi).2

/-- The fields of the section in terms of the digits. -/
theorem naca_some {d : List ℕ} {n : ℕ} {te : Option ℝ} {g : Section} (h : naca d n te = some g) :
    ∃ d0 d1 d2 d3 rest, d = d0 :: d1 :: d2 :: d3 :: rest ∧ 1 - (d1 : ℝ) / 10 ≠ 0 ∧
      (((d0 : ℝ) / 100 = 0 ∧ (d1 : ℝ) / 10 = 0) ∨ (d1 : ℝ) / 10 ≠ 0) ∧
      g.maxThickness = d2 / 10 + d3 / 100 ∧ g.xUpper = (unitStations (upperCount n)).map (stretch te) ∧
      g.xLower = (unitStations (lowerCount n)).map (stretch te) ∧ g.x = g.xLower.reverse ++ g.xUpper.tail ∧
      g.yUpper = 0 :: (g.xUpper.map fun x => camberLine (d0 / 100) (d1 / 10) x + halfThickness (d2 / 10 + d3 / 100) x).tail ∧
      g.yLower = (g.xLower.map fun x => camberLine (d0 / 100) (d1 / 10) x - halfThickness (d2 / 10 + d3 / 100) x) ∧
      g.y = g.yLower.reverse ++ g.yUpper.tail := by
  unfold naca at h
  split at h
  · rename_i d0 d1 d2 d3 rest
    dsimp only at h
    split at h
    · cases h
    · rename_i h1
      split at h
      · cases h
      · rename_i h2
        simp only [Option.some.injEq] at h
        subst h
        refine ⟨d0, d1, d2, d3, rest, rfl, h1, ?_, rfl, rfl, rfl, rfl, rfl, rfl, rfl⟩
        by_cases h3 : (d1 : ℝ) / 10 = 0
        · left
          by_contra h4
          exact h2 ⟨h4, h3⟩
        · exact Or.inr h3
  · cases h

theorem camber_zero (m p : ℝ) (h : (m = 0 ∧ p = 0) ∨ 0 < p) : camberLine m p 0 = 0 := by
  unfold camberLine
  rcases h with ⟨rfl, rfl⟩ | h
  · simp
  · rw [if_neg (by rintro ⟨_, h0⟩; exact h.ne' h0), if_pos h]; simp

/-- **C216.** With at least three points and a positive resolution factor (or none), the stations of either surface increase
strictly from the leading edge 0 to the trailing edge 1; the outline starts at the trailing edge, ends there, and passes through
the origin. -/
theorem C216_outline (d : List ℕ) (n : ℕ) (te : Option ℝ) (g : Section) (hn : 3 ≤ n) (ht : Factor te)
    (h : naca d n te = some g) :
    g.xUpper.Pairwise (· < ·) ∧ g.xUpper.head? = some 0 ∧ g.xUpper.getLast? = some 1 ∧
      g.xLower.Pairwise (· < ·) ∧ g.xLower.head? = some 0 ∧ g.xLower.getLast? = some 1 ∧
      g.x.head? = some 1 ∧ g.x.getLast? = some 1 ∧ (0, 0) ∈ g.x.zip g.y := by
  obtain ⟨d0, d1, d2, d3, rest, _, hp1, hmp, _, hxu, hxl, hx, hyu, hyl, hy⟩ := naca_some h
  have su := stations_spec te ht (upperCount n) (by unfold upperCount; split <;> omega)
  have sl := stations_spec te ht (lowerCount n) (by unfold lowerCount; omega)
  dsimp only at su sl
  rw [← hxu] at su
  rw [← hxl] at sl
  obtain ⟨u1, u2, u3, u4⟩ := su
  obtain ⟨l1, l2, l3, l4⟩ := sl
  refine ⟨u1, u2, u3, l1, l2, l3, ?_, ?_, ?_⟩
  · rw [hx, List.head?_append, List.head?_reverse, l3]; rfl
  · have hlen : g.xUpper.length = upperCount n := by rw [hxu]; simp [unitStations_length]
    have : 2 ≤ upperCount n := by unfold upperCount; split <;> omega
    cases hu : g.xUpper with
    | nil => rw [hu] at hlen; simp at hlen; omega
    | cons a t =>
      cases t with
      | nil => rw [hu] at hlen; simp at hlen; omega
      | cons b t =>
        rw [hu] at u3
        rw [hx, hu, List.getLast?_append, List.tail_cons]
        rw [List.getLast?_cons_cons] at u3
        rw [u3]; rfl
  · cases hlow : g.xLower with
    | nil => rw [hlow] at l2; simp at l2
    | cons a t =>
      have ha : a = 0 := by rw [hlow] at l2; simpa using l2
      subst ha
      have hc : camberLine ((d0 : ℝ) / 100) ((d1 : ℝ) / 10) 0 = 0 := by
        apply camber_zero
        rcases hmp with h1 | h1
        · exact Or.inl h1
        · right
          have : (0 : ℝ) ≤ (d1 : ℝ) / 10 := by positivity
          exact lt_of_le_of_ne this (Ne.symm h1)
      have ht0 : halfThickness ((d2 : ℝ) / 10 + d3 / 100) 0 = 0 := by simp [halfThickness]
      rw [hx, hy, hyl, hlow]
      simp only [List.map_cons, List.reverse_cons, List.append_assoc, hc, ht0, sub_zero]
      rw [List.zip_append (by simp)]
      simp

/-- The polynomial of the thickness is not negative. -/
theorem halfThickness_nonneg {τ x : ℝ} (hτ : 0 ≤ τ) (h0 : 0 ≤ x) (h1 : x ≤ 1) : 0 ≤ halfThickness τ x := by
  have hs : x ≤ sqrt x := by
    apply Real.le_sqrt_of_sq_le
    nlinarith
  unfold halfThickness
  apply div_nonneg (mul_nonneg _ hτ) (by norm_num)
  have h2 : (0 : ℝ) ≤ x * (0.1709 - 0.3516 * x + 0.2843 * x ^ 2 - 0.1015 * x ^ 3) := by
    apply mul_nonneg h0
    nlinarith [mul_nonneg (sub_nonneg.mpr h1) (sq_nonneg (x - 0.9)), mul_nonneg (sub_nonneg.mpr h1) (sq_nonneg x),
      mul_nonneg (sub_nonneg.mpr h1) h0]
  nlinarith [h2, hs]

/-- **C217.** On the whole chord the camber line lies between the chord and the given height, reaches that height at the given
place, and the upper surface is never below the lower one. -/
theorem C217_camber (m p τ x : ℝ) (hm : 0 ≤ m) (hp : 0 < p) (hp1 : p < 1) (hτ : 0 ≤ τ) (h0 : 0 ≤ x) (h1 : x ≤ 1) :
    0 ≤ camberLine m p x ∧ camberLine m p x ≤ m ∧ camberLine m p p = m ∧
      camberLine m p x - halfThickness τ x ≤ camberLine m p x + halfThickness τ x := by
  have hne : ¬ (m = 0 ∧ p = 0) := fun h => hp.ne' h.2
  have h1p : 0 < 1 - p := by linarith
  have ht := halfThickness_nonneg hτ h0 h1
  refine ⟨?_, ?_, ?_, by linarith⟩
  · unfold camberLine
    rw [if_neg hne]
    split
    · rename_i hx
      apply mul_nonneg (by positivity)
      nlinarith
    · rename_i hx
      apply mul_nonneg (by positivity)
      have : (1 - 2 * p) + 2 * p * x - x ^ 2 = (1 - x) * (1 + x - 2 * p) := by ring
      rw [this]
      exact mul_nonneg (by linarith) (by linarith)
  · unfold camberLine
    rw [if_neg hne]
    split
    · have : m / p ^ 2 * (2 * p * x - x ^ 2) = m - m / p ^ 2 * (x - p) ^ 2 := by field_simp; ring
      rw [this]
      have : 0 ≤ m / p ^ 2 * (x - p) ^ 2 := by positivity
      linarith
    · have : m / (1 - p) ^ 2 * ((1 - 2 * p) + 2 * p * x - x ^ 2) = m - m / (1 - p) ^ 2 * (x - p) ^ 2 := by
        field_simp; ring
      rw [this]
      have : 0 ≤ m / (1 - p) ^ 2 * (x - p) ^ 2 := by positivity
      linarith
  · unfold camberLine
    rw [if_neg hne, if_neg (lt_irrefl p)]
    field_simp; ring

/-- A camber of 2 % at 40 % of the chord, 12 % thick. -/
example : camberLine 0.02 0.4 0.4 = 0.02 := (C217_camber 0.02 0.4 0.12 0.4 (by norm_num) (by norm_num) (by norm_num)
  (by norm_num) (by norm_num) (by norm_num)).2.2.1

/-- Both surfaces at a station of either list: mean and distance. -/
theorem C217_surfaces (d : List ℕ) (n : ℕ) (te : Option ℝ) (g : Section) (h : naca d n te = some g) (hdig : ∀ k ∈ d, k ≤ 9) :
    ∃ c t : ℝ → ℝ, (∀ (i : ℕ) (x y : ℝ), g.xUpper[i + 1]? = some x → g.yUpper[i + 1]? = some y → y = c x + t x) ∧
      (∀ (i : ℕ) (x y : ℝ), g.xLower[i]? = some x → g.yLower[i]? = some y → y = c x - t x) ∧
      (∀ x, 0 ≤ x → x ≤ 1 → 0 ≤ t x) ∧ t 0 = 0 ∧ c 0 = 0 ∧ c 1 = 0 ∧ t 1 = 0.0105 * g.maxThickness := by
  obtain ⟨d0, d1, d2, d3, rest, hd, hp1, hmp, hmax, hxu, hxl, hx, hyu, hyl, hy⟩ := naca_some h
  refine ⟨camberLine (d0 / 100) (d1 / 10), halfThickness (d2 / 10 + d3 / 100), ?_, ?_, ?_, ?_, ?_, ?_, ?_⟩
  · intro i x y h1 h2
    rw [hyu, List.getElem?_cons_succ, List.getElem?_tail, List.getElem?_map, h1] at h2
    simpa using h2.symm
  · intro i x y h1 h2
    rw [hyl, List.getElem?_map, h1] at h2
    simpa using h2.symm
  · intro x h0 h1
    exact halfThickness_nonneg (by positivity) h0 h1
  · simp [halfThickness]
  · apply camber_zero
    rcases hmp with h1 | h1
    · exact Or.inl h1
    · right
      have : (0 : ℝ) ≤ (d1 : ℝ) / 10 := by positivity
      exact lt_of_le_of_ne this (Ne.symm h1)
  · have hd1 : d1 ≤ 9 := hdig d1 (by rw [hd]; simp)
    have hlt : ¬ (1 : ℝ) < (d1 : ℝ) / 10 := by
      rw [not_lt, div_le_one (by norm_num)]
      exact_mod_cast (by omega : d1 ≤ 10)
    unfold camberLine
    rw [if_neg hlt]
    split <;> ring
  · rw [hmax]; simp [halfThickness]; ring

/-- **C218, counterexample.** The reported maximum thickness is not an upper bound of the distance between the surfaces: the
stations of a twenty-one point `0012` without refinement contain 0.3, where the distance is larger. -/
theorem C218_max_thickness_counterexample :
    ∃ g, naca [0, 0, 1, 2] 21 none = some g ∧ ∃ (i : ℕ) (x yu yl : ℝ), g.xUpper[i]? = some x ∧ g.xLower[i]? = some x ∧
      g.yUpper[i]? = some yu ∧ g.yLower[i]? = some yl ∧ g.maxThickness < yu - yl := by
  have hn : naca [0, 0, 1, 2] 21 none ≠ none := by
    unfold naca; dsimp only; norm_num
    exact Option.some_ne_none _
  obtain ⟨g, hg⟩ := Option.ne_none_iff_exists'.mp hn
  refine ⟨g, hg, ?_⟩
  obtain ⟨d0, d1, d2, d3, rest, hd, hp1, hmp, hmax, hxu, hxl, hx, hyu, hyl, hy⟩ := naca_some hg
  simp only [List.cons.injEq] at hd
  obtain ⟨rfl, rfl, rfl, rfl, -⟩ := hd
  have hxu3 : g.xUpper[3]? = some (3 / 10) := by
    rw [hxu]; norm_num [unitStations, upperCount, stretch]
  have hxl3 : g.xLower[3]? = some (3 / 10) := by
    rw [hxl]; norm_num [unitStations, lowerCount, stretch]
  refine ⟨3, 3 / 10,
    camberLine (((0 : ℕ) : ℝ) / 100) (((0 : ℕ) : ℝ) / 10) (3 / 10) + halfThickness (((1 : ℕ) : ℝ) / 10 + ((2 : ℕ) : ℝ) / 100) (3 / 10),
    camberLine (((0 : ℕ) : ℝ) / 100) (((0 : ℕ) : ℝ) / 10) (3 / 10) - halfThickness (((1 : ℕ) : ℝ) / 10 + ((2 : ℕ) : ℝ) / 100) (3 / 10),
    hxu3, hxl3, ?_, ?_, ?_⟩
  · rw [hyu, List.getElem?_cons_succ, List.getElem?_tail, List.getElem?_map, hxu3]; rfl
  · rw [hyl, List.getElem?_map, hxl3]; rfl
  · rw [hmax]
    have hs : (0.5477 : ℝ) ≤ sqrt (3 / 10) := Real.le_sqrt_of_sq_le (by norm_num)
    unfold halfThickness
    push_cast
    generalize sqrt (3 / 10) = r at hs ⊢
    norm_num at hs ⊢
    linarith

/-- **C218.** What holds: the distance between the surfaces exceeds the reported thickness by at most a fifth of one per cent. -/
theorem C218_max_thickness_partial (τ x : ℝ) (hτ : 0 ≤ τ) (h0 : 0 ≤ x) (h1 : x ≤ 1) : 2 * halfThickness τ x ≤ 1.002 * τ := by
  have hs0 := Real.sqrt_nonneg x
  have hx : sqrt x ^ 2 = x := Real.sq_sqrt h0
  have hs1 : sqrt x ≤ 1 := Real.sqrt_le_one.mpr h1
  generalize hr : sqrt x = r at *
  unfold halfThickness
  rw [hr]
  have key : 0.2969 * r - 0.126 * x - 0.3516 * x ^ 2 + 0.2843 * x ^ 3 - 0.1015 * x ^ 4 ≤ 0.1002 := by
    rw [← hx]
    have hq : 0 ≤ 0.3335 + 0.2283 * r + 0.1415 * r ^ 2 - 0.2447 * r ^ 3 - 0.1931 * r ^ 4 := by
      have h3 : r ^ 3 ≤ 1 := pow_le_one₀ hs0 hs1
      have h4 : r ^ 4 ≤ r := by nlinarith [mul_nonneg hs0 (sub_nonneg.mpr h3)]
      nlinarith [mul_nonneg hs0 hs0]
    have h8 : (0.1 : ℝ) * (r ^ 2) ^ 4 - 0.11 * 0 ≤ 0.1 * (r ^ 2) ^ 4 := by linarith
    have h5 : 0 ≤ r ^ 5 := by positivity
    have h6 : 0 ≤ r ^ 6 := by positivity
    have := mul_nonneg (sq_nonneg (r - 0.5475)) hq
    have := mul_nonneg (sq_nonneg (r - 0.5475)) h5
    have := mul_nonneg (sq_nonneg (r - 0.5475)) h6
    nlinarith
  rw [show 2 * ((0.2969 * r - 0.126 * x - 0.3516 * x ^ 2 + 0.2843 * x ^ 3 - 0.1015 * x ^ 4) * τ / 0.2) =
    (0.2969 * r - 0.126 * x - 0.3516 * x ^ 2 + 0.2843 * x ^ 3 - 0.1015 * x ^ 4) * τ / 0.1 by ring]
  rw [div_le_iff₀ (by norm_num)]
  nlinarith

/-- **C219.** A string of four digits gives a section unless a camber is asked for at the leading edge, and no other string of
four digits raises; -/
theorem C219_names (d0 d1 d2 d3 : ℕ) (h1 : d1 ≤ 9) (n : ℕ) (te : Option ℝ) :
    (naca [d0, d1, d2, d3] n te).isSome ↔ (d0 = 0 ∨ d1 ≠ 0) := by
  unfold naca
  dsimp only
  have hp1 : ¬ (1 - (d1 : ℝ) / 10 = 0) := by
    intro h
    have : (d1 : ℝ) = 10 := by linarith
    have : d1 = 10 := by exact_mod_cast this
    omega
  rw [if_neg hp1]
  by_cases hd : d0 = 0 ∨ d1 ≠ 0
  · rw [if_neg]
    · simp [hd]
    · rintro ⟨ha, hb⟩
      have hb' : d1 = 0 := by
        have : (d1 : ℝ) = 0 := by linarith
        exact_mod_cast this
      rcases hd with hd | hd
      · exact ha ⟨by simp [hd], hb⟩
      · exact hd hb'
  · rw [not_or, not_not] at hd
    rw [if_pos]
    · simp [hd]
    · refine ⟨?_, by simp [hd.2]⟩
      rintro ⟨ha, _⟩
      apply hd.1
      have : (d0 : ℝ) = 0 := by linarith
      exact_mod_cast this

/-- **C219, counterexample.** When no section is given, the default one is never made: its name is handed over inside a list,
whose only item is read as the number twelve. -/
theorem C219_default_counterexample : defaultSection = none := by
  have : itemDigits [['0', '0', '1', '2']] = some [12] := by decide +kernel
  rw [defaultSection, this]
  rfl

/-- The same name as a string gives the four digits. -/
example : itemDigits (stringItems ['0', '0', '1', '2']) = some [0, 0, 1, 2] := by decide +kernel

end Verif.Airfoil
