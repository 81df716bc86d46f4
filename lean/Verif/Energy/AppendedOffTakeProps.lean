import Verif.Energy.AppendedOffTake
import Verif.Energy.GasTurbineProps
import Verif.Core.AppendProps

/-!
C466: shaft power off-takes attached to a turbofan.
-/

namespace Verif.Energy.AppendedOffTake

open Verif.Energy.GasTurbine

/-- No capital is left in a translated name. -/
theorem norm_no_capital_s (k : List Char) : 'S' ∉ Core.norm k := by
  intro h
  simp only [Core.norm, List.mem_map] at h
  obtain ⟨c, -, hc⟩ := h
  have h2 := Core.normChar_not_upper c
  rw [hc] at h2
  exact absurd h2 (by decide)

theorem norm_ne_wanted (k : List Char) : Core.norm k ≠ wanted := by
  intro h
  apply norm_no_capital_s k
  rw [h]
  decide

/-- Appending keeps the engine and finds nothing new under the name looked for. -/
theorem appendAll_lookup (l : List (List Char × OffTake)) : ∀ (a b : Assembly), a.appendAll l = some b →
    b.engine = a.engine ∧ b.parts.lookup wanted = a.parts.lookup wanted := by
  induction l with
  | nil => intro a b h; cases h; exact ⟨rfl, rfl⟩
  | cons p rest ih =>
    obtain ⟨t, o⟩ := p
    intro a b h
    simp only [Assembly.appendAll, Assembly.append] at h
    split_ifs at h with hk
    · cases h
    · obtain ⟨h1, h2⟩ := ih _ _ h
      refine ⟨h1, h2.trans ?_⟩
      have hw : (wanted == Core.norm t) = false := by
        rw [beq_eq_false_iff_ne]; exact (norm_ne_wanted t).symm
      simp [List.lookup_append, List.lookup, hw]

/-- **C466.** False of components that are appended, as all the others are: whatever their tags, the engine delivers what it delivers
without them. -/
theorem C466_appended (e : Turbofan) (l : List (List Char × OffTake)) (b : Assembly)
    (h : (Assembly.mk e []).appendAll l = some b) (c : Amb) (t : ℝ) :
    b.evaluate c t = { e with offTake := none }.evaluate c t := by
  obtain ⟨h1, h2⟩ := appendAll_lookup l _ b h
  simp only [Assembly.evaluate, h1, h2, List.lookup]

/-- **C466, what holds.** An off-take assigned under the capitalised name of its class is the one of the engine, whatever was attached
before. -/
theorem C466_assigned_partial (a : Assembly) (o : OffTake) (c : Amb) (t : ℝ) :
    (a.assign "Shaft_Power_Off_Take".toList o).evaluate c t = { a.engine with offTake := some o }.evaluate c t := by
  change (a.assign wanted o).evaluate c t = _
  simp [Assembly.evaluate, Assembly.assign]

/-- Nor does an assignment under another name have an effect. -/
theorem C466_other_names (a : Assembly) (n : List Char) (hn : n ≠ "Shaft_Power_Off_Take".toList) (o : OffTake) (c : Amb) (t : ℝ) :
    (a.assign n o).evaluate c t = a.evaluate c t := by
  have hl : ∀ (l : List (List Char × OffTake)), (l.filter fun p => p.1 ≠ n).lookup wanted = l.lookup wanted := by
    intro l
    induction l with
    | nil => rfl
    | cons p r ih =>
      obtain ⟨k, v⟩ := p
      by_cases hk : k = n
      · have : (wanted == k) = false := by rw [beq_eq_false_iff_ne, hk]; exact fun h => hn h.symm
        simpa [hk, List.lookup, show (wanted == n) = false from hk ▸ this] using ih
      · simp only [List.filter_cons, ne_eq, hk, not_false_eq_true, decide_true, if_true, List.lookup]
        split
        · rfl
        · simpa using ih
  have hw : (wanted == n) = false := by rw [beq_eq_false_iff_ne]; exact fun h => hn h.symm
  have := hl a.parts
  simp only [Assembly.evaluate, Assembly.assign, List.lookup, hw, this]

/-- **C466, witness.** One engine sized for a thrust of one: with the off-take assigned it has no thrust left, with the same off-take
appended it still has all of it. -/
theorem C466_counterexample :
    ∃ (e : Turbofan) (c : Amb) (o : OffTake) (b : Assembly),
      (Assembly.mk e []).append "shaft_power_off_take".toList o = some b ∧
      ((b.size c 1 1).evaluate c 1).force = 1 ∧
      ((((Assembly.mk e []).assign "Shaft_Power_Off_Take".toList o).size c 1 1).evaluate c 1).force = 0 := by
  refine ⟨{ tapped with offTake := none }, tappedAmb, ⟨3, 3 / 2, 9 / 4⟩, _, rfl, ?_, ?_⟩
  · have hsame : ∀ (b : Assembly), b.engine = { tapped with offTake := none } → b.parts.lookup wanted = none →
        ((b.size tappedAmb 1 1).evaluate tappedAmb 1) = (Turbofan.size { tapped with offTake := none } tappedAmb 1 1).evaluate tappedAmb 1 := by
      intro b h1 h2
      simp only [Assembly.evaluate, Assembly.size, h1, h2]
      rfl
    rw [hsame _ rfl (by simp [List.lookup]; decide)]
    have hs := chain_tapped 1 one_pos (by norm_num) le_rfl (fun _ => none) (by norm_num)
    have e1 : Real.sqrt (2 * (6 * 1 - 4)) = 2 := by
      rw [show (2 : ℝ) * (6 * 1 - 4) = 2 * 2 by norm_num, Real.sqrt_mul_self (by norm_num)]
    have hp : (Turbofan.pass { tapped with offTake := none } tappedAmb) = tapped.chain tappedAmb fun _ => none := rfl
    refine C93_design_thrust_partial { tapped with offTake := none } tappedAmb 1 1 rfl (by norm_num [tapped]) (by norm_num [tappedAmb])
      (by norm_num [tapped]) ?_ ?_ ?_
    · rw [hp]
      simp only [thrust]
      rw [hs.1]
      have h1 : (tapped.chain tappedAmb fun _ => none).tin.coreN = (tapped.chain tappedAmb fun _ => none).coreN := rfl
      have h3 : (tapped.chain tappedAmb fun _ => none).tin.bypass = 0 := by
        change (0 : ℝ) / (1 + 0) = 0; norm_num
      have h4 : (tapped.chain tappedAmb fun _ => none).tin.core = 1 := by
        change (1 : ℝ) / (1 + 0) = 1; norm_num
      rw [h1, h3, h4, hs.2.2.1, hs.2.2.2.1, e1]
      norm_num
    · rw [hp, hs.2.1]; norm_num [tapped]
    · rw [hp, hs.2.1]; norm_num [tapped]
  · exact C93_off_take_counterexample

/-- Two off-takes with different tags can be appended. -/
example : ((Assembly.mk sample []).appendAll
    [("Shaft_Power_Off_Take".toList, ⟨1, 288, 101325⟩), ("second".toList, ⟨2, 288, 101325⟩)]).isSome = true := by
  simp only [Assembly.appendAll, Assembly.append]
  rw [if_neg (by simp), Option.bind_some, if_neg (by simp; decide)]
  rfl

/-- Another name than the one looked for: the tag in lower case. -/
example : "shaft_power_off_take".toList ≠ "Shaft_Power_Off_Take".toList := by decide

end Verif.Energy.AppendedOffTake
