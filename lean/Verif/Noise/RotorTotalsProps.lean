import Verif.Noise.RotorTotals
import Verif.Noise.PropellerProps

/-! Proofs for C448. -/

namespace Verif.Noise.Mic

open Real

/-- Spec: the energy of a level, in units of the reference. -/
noncomputable def power (x : ℝ) : ℝ := (10 : ℝ) ^ (x / 10)

/-- Spec: the level `v` carries the energy `e`. -/
def Carries (v : Option ℝ) (e : ℝ) : Prop := ∃ x, v = some x ∧ power x = e

theorem power_pos (x : ℝ) : 0 < power x := by unfold power; positivity

theorem power_log {e : ℝ} (h : 0 < e) : power (10 * logb 10 e) = e := by
  unfold power
  rw [mul_div_cancel_left₀ _ (by norm_num : (10 : ℝ) ≠ 0), rpow_logb (by norm_num) (by norm_num) h]

theorem spectraSum_carries (n : ℕ) (hn : 0 < n) (f : ℕ → Option ℝ) (e : ℕ → ℝ) (h : ∀ i < n, Carries (f i) (e i)) :
    Carries (spectraSum n f) (∑ i ∈ Finset.range n, e i) := by
  have hall : ((List.range n).all fun i => (f i).isSome) = true := by
    rw [List.all_eq_true]
    intro i hi
    obtain ⟨x, hx, -⟩ := h i (List.mem_range.mp hi)
    simp [hx]
  have hs : ∑ i ∈ Finset.range n, (10 : ℝ) ^ ((f i).getD 0 / 10) = ∑ i ∈ Finset.range n, e i := by
    apply Finset.sum_congr rfl
    intro i hi
    obtain ⟨x, hx, he⟩ := h i (Finset.mem_range.mp hi)
    rw [hx, ← he]; rfl
  have hp : 0 < ∑ i ∈ Finset.range n, e i := by
    apply Finset.sum_pos
    · intro i hi
      obtain ⟨x, -, he⟩ := h i (Finset.mem_range.mp hi)
      rw [← he]; exact power_pos x
    · exact ⟨0, Finset.mem_range.mpr hn⟩
  refine ⟨_, if_pos hall, ?_⟩
  rw [hs]
  exact power_log hp

theorem combine_carries (x y : ℝ) : Carries (combine (some x) (some y)) (power x + power y) :=
  ⟨bandTotal x y, rfl, (C299_band x y).1⟩

/-- C448, in part: with every level of every rotor a number, the level and the weighted level are the sums of the energies over all rotors,
bands and kinds of noise. -/
theorem C448_sum_partial (rotors bands : ℕ) (hr : 0 < rotors) (hb : 0 < bands) (h b hA bA : ℕ → ℕ → ℝ) :
    Carries (totalSPL rotors bands fun r k => ⟨some (h r k), some (b r k), some (hA r k), some (bA r k)⟩)
        (∑ k ∈ Finset.range bands, ∑ r ∈ Finset.range rotors, (power (h r k) + power (b r k))) ∧
      Carries (totalDBA rotors bands fun r k => ⟨some (h r k), some (b r k), some (hA r k), some (bA r k)⟩)
        (∑ k ∈ Finset.range bands, ∑ r ∈ Finset.range rotors, (power (hA r k) + power (bA r k))) := by
  refine ⟨spectraSum_carries _ hb _ _ fun k _ => spectraSum_carries _ hr _ _ fun r _ => ?_,
    spectraSum_carries _ hb _ _ fun k _ => spectraSum_carries _ hr _ _ fun r _ => ?_⟩
  · exact combine_carries _ _
  · exact combine_carries _ _

example : Carries (totalSPL 2 1 fun _ _ => ⟨some 0, some 0, some 0, some 0⟩) 4 := by
  have h := (C448_sum_partial 2 1 (by norm_num) (by norm_num) (fun _ _ => 0) (fun _ _ => 0) (fun _ _ => 0) (fun _ _ => 0)).1
  have e : power 0 = 1 := by simp [power]
  simp only [e, Finset.sum_range_succ, Finset.sum_range_zero] at h
  norm_num at h
  exact h

/-- C448: the plain level is a number whatever the spectra. -/
theorem C448_defined (rotors bands : ℕ) (hr : 0 < rotors) (hb : 0 < bands) (c : ℕ → ℕ → Cell) :
    Carries (totalSPL rotors bands c) (∑ k ∈ Finset.range bands, ∑ r ∈ Finset.range rotors,
      match (c r k).h, (c r k).b with
      | some x, some y => power x + power y
      | _, _ => 1) := by
  refine spectraSum_carries _ hb _ _ fun k _ => spectraSum_carries _ hr _ _ fun r _ => ?_
  unfold Cell.plain
  cases hh : (c r k).h with
  | none => exact ⟨0, rfl, by simp [power]⟩
  | some x =>
    cases hb' : (c r k).b with
    | none => exact ⟨0, rfl, by simp [power]⟩
    | some y => exact combine_carries x y

example : Carries (totalSPL 1 1 fun _ _ => ⟨some 60, none, none, none⟩) 1 := by
  simpa using C448_defined 1 1 (by norm_num) (by norm_num) fun _ _ => ⟨some 60, none, none, none⟩

theorem spectraSum_none (n : ℕ) (f : ℕ → Option ℝ) (i : ℕ) (hi : i < n) (h : f i = none) : spectraSum n f = none := by
  unfold spectraSum
  rw [if_neg]
  intro ha
  rw [List.all_eq_true] at ha
  have := ha i (List.mem_range.mpr hi)
  rw [h] at this
  exact absurd this (by simp)

/-- C448 fails: one band of one rotor that could not be computed leaves no weighted level at all. -/
theorem C448_weighted_counterexample (rotors bands : ℕ) (c : ℕ → ℕ → Cell) (r k : ℕ) (hr : r < rotors) (hk : k < bands)
    (hn : (c r k).hA = none ∨ (c r k).bA = none) : totalDBA rotors bands c = none := by
  have hc : combine (c r k).hA (c r k).bA = none := by
    rcases hn with h | h
    · rw [h]; rfl
    · rw [h]; cases (c r k).hA <;> rfl
  have hp : (c r k).plain.isNone = false := by
    unfold Cell.plain
    cases combine (c r k).h (c r k).b <;> rfl
  have hw : (c r k).weighted = none := by
    unfold Cell.weighted
    rw [hp]
    exact hc
  exact spectraSum_none bands _ k hk (spectraSum_none rotors _ r hr hw)

example : totalDBA 4 24 (fun r k => if r = 2 ∧ k = 0 then ⟨some 50, none, some 40, none⟩ else ⟨some 60, some 50, some 50, some 40⟩) = none :=
  C448_weighted_counterexample 4 24 _ 2 0 (by norm_num) (by norm_num) (Or.inr (by simp))

/-- C448 fails: a rotor of which nothing could be computed still adds the energy of 0 dB. -/
theorem C448_missing_counterexample (x y : ℝ) :
    Carries (totalSPL 2 1 fun r _ => if r = 0 then ⟨some x, some y, none, none⟩ else ⟨none, none, none, none⟩)
      (power x + power y + 1) := by
  have h := C448_defined 2 1 (by norm_num) (by norm_num)
    fun r _ => if r = 0 then ⟨some x, some y, none, none⟩ else ⟨none, none, none, none⟩
  simpa [Finset.sum_range_succ] using h

end Verif.Noise.Mic
