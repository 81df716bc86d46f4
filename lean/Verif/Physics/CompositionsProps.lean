import Verif.Physics.Compositions
import Mathlib.Tactic.Linarith
import Mathlib.Tactic.Ring
import Mathlib.Tactic.NormNum

/-! Properties C460 and C461. -/

namespace Verif.Physics.Compositions

/-- The sum of all fractions. -/
def fractions (c : List (String × ℝ)) : ℝ := (c.map Prod.snd).sum

theorem total_eq (c : Composition) : total c = fractions c := by
  have key : ∀ (c : Composition) (s : ℝ), c.foldl (fun s kv => s + kv.2) s = s + fractions c := by
    intro c
    induction c with
    | nil => simp [fractions]
    | cons a t ih =>
      intro s
      rw [List.foldl_cons, ih]
      simp [fractions, add_assoc]
  rw [total, key, zero_add]

theorem put_sum (c : Composition) (k : String) (v : ℝ) : fractions (put c k v) = fractions c + v - (c.lookup k).getD 0 := by
  induction c with
  | nil => simp [put, fractions]
  | cons a t ih =>
    obtain ⟨k', v'⟩ := a
    unfold put
    by_cases h : k' = k
    · subst h
      simp [fractions, List.lookup]
      ring
    · have hb : (k == k') = false := by simpa using Ne.symm h
      simp only [h, if_false, List.lookup, hb]
      simp only [fractions, List.map_cons, List.sum_cons] at ih ⊢
      rw [ih]
      ring

theorem lookup_put_other (c : Composition) (k k' : String) (v : ℝ) (h : k' ≠ k) : (put c k v).lookup k' = c.lookup k' := by
  induction c with
  | nil =>
    have hb : (k' == k) = false := by simpa using h
    simp [put, List.lookup, hb]
  | cons a t ih =>
    obtain ⟨a, b⟩ := a
    unfold put
    by_cases hk : a = k
    · subst hk
      have hb : (k' == a) = false := by simpa using h
      simp [List.lookup, hb]
    · simp only [hk, if_false, List.lookup]
      rw [ih]

theorem build_sum (own : List (String × ℝ)) (c : Composition) (hn : (own.map Prod.fst).Nodup) (hk : ∀ kv ∈ own, c.lookup kv.1 = none) :
    fractions (own.foldl (fun c kv => put c kv.1 kv.2) c) = fractions c + fractions own := by
  induction own generalizing c with
  | nil => simp [fractions]
  | cons a t ih =>
    rw [List.map_cons, List.nodup_cons] at hn
    rw [List.foldl_cons, ih _ hn.2]
    · rw [put_sum, hk a (by simp)]
      simp [fractions, add_assoc]
    · intro kv hkv
      rw [lookup_put_other]
      · exact hk kv (by simp [hkv])
      · intro he
        exact hn.1 (he ▸ List.mem_map_of_mem (f := Prod.fst) hkv)

/-- C460, given fractions: a composition made of different names has just the sum of what is given; it is one only if the fractions given
add to one. -/
theorem C460_make_partial (given : List (String × ℝ)) (hn : (given.map Prod.fst).Nodup) : fractions (make given) = fractions given := by
  rw [make, build_sum given [] hn (by simp)]
  simp [fractions]

example : fractions (make [("H2", 1)]) = 1 := by rw [C460_make_partial _ (by simp)]; simp [fractions]

/-- C460, own fractions: what air, carbon dioxide and steam set of their own adds to one. -/
theorem C460_own : fractions airOwn = 1 ∧ fractions co2Own = 1 ∧ fractions steamOwn = 1 := by
  refine ⟨?_, ?_, ?_⟩ <;> simp only [fractions, airOwn, co2Own, steamOwn, List.map, List.sum_cons, List.sum_nil] <;> norm_num

/-- C460 fails for every gas: the entry `gas` of the general class stays, so that the fractions add to one more than the own ones. -/
theorem C460_gas_counterexample (own : List (String × ℝ)) (hn : (own.map Prod.fst).Nodup) (hg : ∀ kv ∈ own, kv.1 ≠ "gas") :
    fractions (onGas own) = 1 + fractions own := by
  rw [onGas, build_sum own gas hn]
  · simp [gas, put, fractions]
  · intro kv hkv
    have hb : (kv.1 == "gas") = false := by simpa using hg kv hkv
    simp [gas, put, List.lookup, hb]

/-- Air adds to two, and so do carbon dioxide and steam. -/
theorem C460_air_counterexample : fractions (onGas airOwn) = 2 ∧ fractions (onGas co2Own) = 2 ∧ fractions (onGas steamOwn) = 2 := by
  obtain ⟨h1, h2, h3⟩ := C460_own
  refine ⟨?_, ?_, ?_⟩
  · rw [C460_gas_counterexample _ (by simp [airOwn]) (by simp [airOwn]), h1]; norm_num
  · rw [C460_gas_counterexample _ (by simp [co2Own]) (by simp [co2Own]), h2]; norm_num
  · rw [C460_gas_counterexample _ (by simp [steamOwn]) (by simp [steamOwn]), h3]; norm_num

/-- C460, the check: it leaves fractions that add to one, changes no name but `Other`, and nothing at all if they do already; if they do
not it also raises an exception. -/
theorem C460_check_partial (c : Composition) :
    fractions (check c).composition = 1 ∧ (∀ k, k ≠ "Other" → (check c).composition.lookup k = c.lookup k) ∧
    (fractions c = 1 → (check c).composition = c) ∧ ((check c).raises = true ↔ fractions c ≠ 1) := by
  unfold check
  by_cases h : fractions c = 1
  · have h0 : ¬(1 - total c ≠ 0) := by rw [total_eq, h]; simp
    simp only [h0, if_false]
    exact ⟨h, fun _ _ => by trivial, fun _ => by trivial, by simp [h]⟩
  · have h0 : 1 - total c ≠ 0 := by
      rw [total_eq]
      intro hc
      exact h (by linarith)
    simp only [if_pos h0]
    refine ⟨?_, fun k hk => lookup_put_other _ _ _ _ hk, fun hc => absurd hc h, by simp [h]⟩
    rw [put_sum, total_eq]
    ring

/-- C460 fails for the warning: with fractions that add to more than one there is an exception and no warning. -/
theorem C460_warning_counterexample (c : Composition) : (check c).warns = false := by
  unfold check
  by_cases h : 1 - total c = 0
  · simp [h]
  · simp [h]

example : fractions [("A", (1 : ℝ) / 2), ("B", 1)] ≠ 1 := by simp only [fractions, List.map, List.sum_cons, List.sum_nil]; norm_num

/-! ### C461 -/

/-- The energy in a volume by way of its mass agrees with that by the energy of a cubic metre to a thousandth. -/
def SameEnergy (p : Propellant) : Prop := ∀ V : ℝ, 0 ≤ V → |p.energyDensity * V - p.density * V * p.specificEnergy| ≤ 1 / 1000 * (p.density * V * p.specificEnergy)

theorem same_of (p : Propellant) (h : |p.energyDensity - p.density * p.specificEnergy| ≤ 1 / 1000 * (p.density * p.specificEnergy)) : SameEnergy p := by
  intro V hV
  have : p.energyDensity * V - p.density * V * p.specificEnergy = (p.energyDensity - p.density * p.specificEnergy) * V := by ring
  rw [this, abs_mul, abs_of_nonneg hV]
  calc _ ≤ 1 / 1000 * (p.density * p.specificEnergy) * V := mul_le_mul_of_nonneg_right h hV
    _ = _ := by ring

/-- C461, energies: of every propellant that has both, the two energies of any volume agree to a thousandth. -/
theorem C461_energy_partial : SameEnergy gaseousH2 ∧ SameEnergy jp7 ∧ SameEnergy jetA ∧ SameEnergy jetA1 ∧ SameEnergy liquidH2 ∧ SameEnergy lng := by
  refine ⟨?_, ?_, ?_, ?_, ?_, ?_⟩ <;> apply same_of <;> simp only [gaseousH2, jp7, jetA, jetA1, liquidH2, lng] <;> rw [abs_le] <;> constructor <;> norm_num

/-- For the three kerosenes they agree exactly. -/
theorem C461_kerosene : ∀ p ∈ [jp7, jetA, jetA1], p.energyDensity = p.density * p.specificEnergy := by
  intro p hp
  simp only [List.mem_cons, List.not_mem_nil, or_false] at hp
  rcases hp with rfl | rfl | rfl <;> simp only [jp7, jetA, jetA1] <;> norm_num

/-- C461 fails for aviation gasoline, whose energy of a cubic metre is left at zero. -/
theorem C461_avgas_counterexample (V : ℝ) (hV : 0 < V) : avgas.energyDensity * V = 0 ∧ 0 < avgas.density * V * avgas.specificEnergy := by
  constructor
  · simp [avgas]
  · simp only [avgas]
    positivity

/-- C461, temperatures: the jet fuels freeze below their flash point, and flash below ignition by themselves. -/
theorem C461_temperatures_partial : ∀ p ∈ [jetA, jetA1], p.freeze < p.flash ∧ p.flash < p.autoignition := by
  intro p hp
  simp only [List.mem_cons, List.not_mem_nil, or_false] at hp
  rcases hp with rfl | rfl <;> simp only [jetA, jetA1] <;> norm_num

/-- C461 fails for JP7, which is said to freeze at 514 K, above its flash point. -/
theorem C461_freeze_counterexample : jp7.flash < jp7.freeze ∧ jp7.flash < jp7.autoignition := by
  simp only [jp7]
  norm_num

example : jetA.energyDensity * 2 = jetA.density * 2 * jetA.specificEnergy := by simp only [jetA]; norm_num

end Verif.Physics.Compositions
