import Verif.Weights.RaymerItems
import Verif.Weights.CommonProps
import Mathlib.Data.List.Forall2
import Mathlib.Tactic.Positivity
import Mathlib.Tactic.GCongr

/-!
# C421: Raymer's items of the systems
-/

namespace Verif.Weights
open Real

/-- An aircraft for which the correlations are meant: a fuselage longer than 1.7 diameters and sizes that are not
negative. -/
structure RaymerSys.Sound (s : RaymerSys) : Prop where
  width : 0 < s.width
  height : 0 < s.height
  slender : 1.7 * s.D ≤ s.length / ft
  span : 0 ≤ s.span
  flaps : 0 ≤ s.flaps
  mach : 0 ≤ s.mach
  tow : 0 ≤ s.tow
  cargo : 0 ≤ s.cargo


namespace RaymerSys.Sound
variable {s : RaymerSys} (h : s.Sound)
include h

theorem D_pos : 0 < s.D := by
  have := ft_pos
  have h1 := h.width
  have h2 := h.height
  unfold RaymerSys.D
  positivity

theorem length_pos : 0 < s.length := by
  have h1 := h.D_pos
  have h2 := h.slender
  have h3 : 0 < s.length / ft := by linarith
  have := mul_pos h3 ft_pos
  rwa [div_mul_cancel₀ _ ft_pos.ne'] at this

theorem Sf_nonneg : 0 ≤ s.Sf := by
  have h1 := h.D_pos
  have h2 : 1.7 ≤ s.length / ft / s.D := by rw [le_div_iff₀ h1]; exact h.slender
  unfold RaymerSys.Sf
  have := pi_pos
  have h3 : 0 ≤ s.length / ft / s.D - 1.7 := by linarith
  positivity

theorem items : raymerItems s = some [s.controls, s.apu, s.instruments, s.hydraulics, s.electrical, raymerAvionics,
    s.furnishings, s.airCond, s.antiIce] := by
  have h1 := h.D_pos
  have h2 := h.length_pos
  have h3 := h.Sf_nonneg
  have h4 : 0 ≤ s.length / ft + s.span / ft := by
    have := ft_pos
    have h5 := h.span
    positivity
  unfold raymerItems
  rw [if_neg]
  have h5 := h.mach
  have h6 := h.flaps
  have h7 := h.cargo
  rintro (h | h | h | h | h | h | h) <;> linarith

end RaymerSys.Sound

theorem crew_mono {a b : RaymerSys} (h : a.pax ≤ b.pax) : (a.crew : ℝ) ≤ b.crew := by
  have : a.crew ≤ b.crew := by
    unfold RaymerSys.crew
    split <;> split <;> omega
  exact_mod_cast this

/-- **C421 (more passengers).** With the rest unchanged, no item becomes lighter when passengers are added. -/
theorem C421_passengers (s : RaymerSys) (h : s.Sound) (n : ℕ) (hn : s.pax ≤ n) :
    ∃ a b, raymerItems s = some a ∧ raymerItems { s with pax := n } = some b ∧ List.Forall₂ (· ≤ ·) a b := by
  have h' : RaymerSys.Sound { s with pax := n } :=
    ⟨h.width, h.height, h.slender, h.span, h.flaps, h.mach, h.tow, h.cargo⟩
  refine ⟨_, _, h.items, h'.items, ?_⟩
  have hc : (s.crew : ℝ) ≤ ({ s with pax := n } : RaymerSys).crew := crew_mono hn
  have hp : (s.pax : ℝ) ≤ n := by exact_mod_cast hn
  have hft := ft_pos
  have hlb := lb_pos
  have hpi := pi_pos
  have h1 := h.mach
  have h2 := h.flaps
  have h3 := h.length_pos
  have h4 := h.span
  have h5 := h.cargo
  have h6 := h.Sf_nonneg
  have h7 := h.D_pos
  have c0 : (0 : ℝ) ≤ s.crew := by positivity
  refine .cons ?_ (.cons ?_ (.cons ?_ (.cons (le_refl _) (.cons (le_refl _) (.cons (le_refl _) (.cons ?_ (.cons ?_
    (.cons (le_refl _) .nil))))))))
  · unfold RaymerSys.controls
    dsimp only
    gcongr
  · unfold RaymerSys.apu
    dsimp only
    refine max_le_max ?_ (le_refl _)
    split <;> split
    · linarith
    · omega
    · positivity
    · exact le_refl _
  · unfold RaymerSys.instruments
    dsimp only
    gcongr
  · have e : ({ s with pax := n } : RaymerSys).Sf = s.Sf := rfl
    unfold RaymerSys.furnishings
    rw [e]
    dsimp only
    gcongr
  · have e : ({ s with pax := n } : RaymerSys).D = s.D := rfl
    unfold RaymerSys.airCond
    rw [e]
    dsimp only
    gcongr

/-- **C421 (larger aircraft).** With the rest unchanged, no item becomes lighter for a longer fuselage, a larger span, more
flap area, more engines, more cargo or a larger takeoff mass. -/
theorem C421_size (s t : RaymerSys) (h : s.Sound) (hw : t.width = s.width) (hh : t.height = s.height) (hm : t.mach = s.mach)
    (hp : t.pax = s.pax) (hl : s.length ≤ t.length) (hs : s.span ≤ t.span) (hf : s.flaps ≤ t.flaps)
    (he : s.engines ≤ t.engines) (hc : s.cargo ≤ t.cargo) (ht : s.tow ≤ t.tow) :
    ∃ a b, raymerItems s = some a ∧ raymerItems t = some b ∧ List.Forall₂ (· ≤ ·) a b := by
  have hft := ft_pos
  have hlb := lb_pos
  have hpi := pi_pos
  have eD : t.D = s.D := by simp only [RaymerSys.D, hw, hh]
  have h' : t.Sound := by
    refine ⟨hw ▸ h.width, hh ▸ h.height, ?_, h.span.trans hs, h.flaps.trans hf, hm ▸ h.mach, h.tow.trans ht, h.cargo.trans hc⟩
    rw [eD]
    exact h.slender.trans (by gcongr)
  refine ⟨_, _, h.items, h'.items, ?_⟩
  have eC : t.crew = s.crew := by simp only [RaymerSys.crew, hp]
  have h1 := h.mach
  have h2 := h.flaps
  have h3 := h.length_pos
  have h4 := h.span
  have h5 := h.cargo
  have h6 := h.Sf_nonneg
  have h7 := h.D_pos
  have hE : (s.engines : ℝ) ≤ t.engines := by exact_mod_cast he
  have h8 := h'.length_pos
  have h9 := h'.cargo
  have hS : s.Sf ≤ t.Sf := by
    unfold RaymerSys.Sf
    rw [eD]
    gcongr
  refine .cons ?_ (.cons ?_ (.cons ?_ (.cons ?_ (.cons ?_ (.cons (le_refl _) (.cons ?_ (.cons ?_ (.cons ?_ .nil))))))))
  · unfold RaymerSys.controls
    rw [eC, hm]
    gcongr
  · unfold RaymerSys.apu
    rw [hp]
  · unfold RaymerSys.instruments
    rw [eC]
    gcongr
  · unfold RaymerSys.hydraulics
    gcongr
  · unfold RaymerSys.electrical
    gcongr
  · unfold RaymerSys.furnishings
    rw [eC, hp]
    gcongr
  · unfold RaymerSys.airCond
    rw [hp, eD]
    gcongr
  · unfold RaymerSys.antiIce
    gcongr

/-- **C421 (furnishings).** At least 46 lb for each passenger and 75 lb for each of the crew, three from 150 passengers on. -/
theorem C421_furnishings (s : RaymerSys) (h : s.Sound) :
    46 * (s.pax : ℝ) + 75 * (if s.pax < 150 then 2 else 3) ≤ s.furnishings := by
  have h5 := h.cargo
  have h6 := h.Sf_nonneg
  have hlb := lb_pos
  have hc : (s.crew : ℝ) = if s.pax < 150 then 2 else 3 := by
    unfold RaymerSys.crew
    by_cases hp : s.pax < 150
    · simp [hp, not_le.2 hp]
    · simp [hp, not_lt.1 hp]
  rw [← hc]
  unfold RaymerSys.furnishings
  have e1 : 0 ≤ 0.0577 * (s.crew : ℝ) ^ (0.1 : ℝ) * (s.cargo / lb) ^ (0.393 : ℝ) * s.Sf ^ (0.75 : ℝ) := by positivity
  have e2 : 0 ≤ 2.5 * (s.pax : ℝ) ^ (1.33 : ℝ) := by positivity
  linarith

/-- **C421 (laws).** Controls go with the 0.489th power of the flap area, instruments with the number of engines and the
root of length plus span, hydraulics with its 0.937th power, the electrical items with the 0.346th power of the length, air
conditioning with the 0.25th power of the passengers and anti-icing with the takeoff mass, 2 lb in 1000. -/
theorem C421_laws (s : RaymerSys) (h : s.Sound) (k : ℝ) (hk : 0 ≤ k) (n : ℕ) :
    ({ s with flaps := k * s.flaps } : RaymerSys).controls = k ^ (0.489 : ℝ) * s.controls
    ∧ ({ s with engines := n * s.engines } : RaymerSys).instruments = n * s.instruments
    ∧ ({ s with length := k * s.length, span := k * s.span } : RaymerSys).instruments = √k * s.instruments
    ∧ ({ s with length := k * s.length, span := k * s.span } : RaymerSys).hydraulics = k ^ (0.937 : ℝ) * s.hydraulics
    ∧ ({ s with length := k * s.length } : RaymerSys).electrical = k ^ (0.346 : ℝ) * s.electrical
    ∧ ({ s with pax := n * s.pax } : RaymerSys).airCond = (n : ℝ) ^ (0.25 : ℝ) * s.airCond
    ∧ s.antiIce * 1000 = 2 * (s.tow / lb) := by
  have hft := ft_pos
  have h2 := h.flaps
  have h3 := h.length_pos
  have h4 := h.span
  refine ⟨?_, ?_, ?_, ?_, ?_, ?_, ?_⟩
  · have c : ({ s with flaps := k * s.flaps } : RaymerSys).crew = s.crew := rfl
    unfold RaymerSys.controls
    rw [c]
    dsimp only
    rw [mul_div_assoc, mul_rpow hk (by positivity)]
    ring
  · have c : ({ s with engines := n * s.engines } : RaymerSys).crew = s.crew := rfl
    unfold RaymerSys.instruments
    rw [c]
    dsimp only
    push_cast
    ring
  · have c : ({ s with length := k * s.length, span := k * s.span } : RaymerSys).crew = s.crew := rfl
    unfold RaymerSys.instruments
    rw [c]
    dsimp only
    rw [mul_div_assoc, mul_div_assoc, ← mul_add, mul_rpow hk (by positivity), sqrt_eq_rpow]
    norm_num
    ring
  · unfold RaymerSys.hydraulics
    dsimp only
    rw [mul_div_assoc, mul_div_assoc, ← mul_add, mul_rpow hk (by positivity)]
    ring
  · unfold RaymerSys.electrical
    dsimp only
    rw [mul_div_assoc, mul_left_comm 2 k, mul_rpow hk (by positivity)]
    ring
  · have c : ({ s with pax := n * s.pax } : RaymerSys).D = s.D := rfl
    unfold RaymerSys.airCond
    rw [c]
    dsimp only
    push_cast
    rw [mul_rpow (by positivity) (by positivity)]
    ring
  · unfold RaymerSys.antiIce
    ring

/-- A small airliner. -/
noncomputable def exSys : RaymerSys := ⟨30, 3, 3, 28, 20, 40000, 0.78, 100, 2, 1000⟩

theorem exSys_sound : exSys.Sound := by
  constructor <;> norm_num [exSys, RaymerSys.D, ft]

example : ∃ a b, raymerItems exSys = some a ∧ raymerItems { exSys with pax := 160 } = some b ∧ List.Forall₂ (· ≤ ·) a b :=
  C421_passengers _ exSys_sound 160 (by norm_num [exSys])

/-- **C421 (counterexample, no cargo).** Without cargo the fuselage does not enter the furnishings, whatever its size. -/
theorem C421_cargo_counterexample (s : RaymerSys) (hc : s.cargo = 0) (l w d : ℝ) :
    ({ s with length := l, width := w, height := d } : RaymerSys).furnishings = s.furnishings := by
  have e : (0 : ℝ) ^ (0.393 : ℝ) = 0 := by rw [zero_rpow]; norm_num
  have c : ({ s with length := l, width := w, height := d } : RaymerSys).crew = s.crew := rfl
  unfold RaymerSys.furnishings
  rw [c]
  dsimp only
  rw [hc, zero_div, e]
  ring

/-- **C421 (counterexample, short fuselages).** For a fuselage shorter than 1.7 diameters the items are not numbers, even
without cargo. -/
theorem C421_short_counterexample (s : RaymerSys) (hw : 0 < s.width) (hh : 0 < s.height)
    (hl : s.length / ft < 1.7 * s.D) : raymerItems s = none := by
  have hft := ft_pos
  have hD : 0 < s.D := by unfold RaymerSys.D; positivity
  have hS : s.Sf < 0 := by
    unfold RaymerSys.Sf
    have h1 : s.length / ft / s.D < 1.7 := by rw [div_lt_iff₀ hD]; exact hl
    have h2 : 0 < π * s.D ^ 2 := by have := pi_pos; positivity
    nlinarith
  unfold raymerItems
  rw [if_pos]
  exact .inr (.inr (.inr (.inr (.inr (.inr hS)))))

/-- **C421 (counterexample, small aircraft).** "No apu if less than 9 seats": every aircraft gets one, of at least 70 kg,
and it is this one up to 22 passengers. -/
theorem C421_apu_counterexample (s : RaymerSys) :
    70 ≤ s.apu * lb ∧ (s.pax ≤ 22 → s.apu * lb = 70) := by
  have hlb := lb_pos
  have e : 70 / lb * lb = 70 := div_mul_cancel₀ _ hlb.ne'
  constructor
  · calc (70 : ℝ) = 70 / lb * lb := e.symm
      _ ≤ s.apu * lb := by
        have := le_max_right (if 6 ≤ s.pax then 7 * (s.pax : ℝ) else 0) (70 / lb)
        unfold RaymerSys.apu
        gcongr
  · intro hp
    have h1 : (if 6 ≤ s.pax then 7 * (s.pax : ℝ) else 0) ≤ 70 / lb := by
      have h2 : (154 : ℝ) ≤ 70 / lb := by rw [le_div_iff₀ hlb]; norm_num [lb]
      have h3 : (s.pax : ℝ) ≤ 22 := by exact_mod_cast hp
      split <;> linarith
    unfold RaymerSys.apu
    rw [max_eq_right h1, e]


/-- **C421, Mach number.** The controls grow with the 0.003rd power of the Mach number. -/
theorem C421_mach (s : RaymerSys) (h : s.Sound) (k : ℝ) (hk : 0 ≤ k) :
    ({ s with mach := k * s.mach } : RaymerSys).controls = k ^ (0.003 : ℝ) * s.controls := by
  have c : ({ s with mach := k * s.mach } : RaymerSys).crew = s.crew := rfl
  unfold RaymerSys.controls
  rw [c]
  dsimp only
  rw [mul_rpow hk h.mach]
  ring

end Verif.Weights
