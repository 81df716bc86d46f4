import Verif.Noise.Flyover
import Mathlib.LinearAlgebra.Lagrange
import Mathlib.Tactic.Linarith
import Mathlib.Tactic.Positivity

/-! Noise at the certification points: sums of levels (C350), settings and microphones (C351), sampling (C352). -/

namespace Verif.Noise.Flyover

open Verif.Noise Verif.Noise.Mic

/-! ### C350 -/

theorem power_pos' (L : ℝ) : 0 < power L := Real.rpow_pos_of_pos (by norm_num) _

theorem power_le {a b : ℝ} (h : a ≤ b) : power a ≤ power b :=
  Real.rpow_le_rpow_of_exponent_le (by norm_num) (by linarith)

theorem level_power' (a : ℝ) : level (power a) = a := by
  unfold level power
  rw [Real.logb_rpow (by norm_num) (by norm_num)]
  ring

theorem level_le {p q : ℝ} (hp : 0 < p) (h : p ≤ q) : level p ≤ level q := by
  unfold level
  have := Real.logb_le_logb_of_le (b := 10) (by norm_num) hp h
  linarith

/-- The sum of two levels lies between the larger one and the larger one with 3.02 dB, does not depend on their order, and
grows with each of them. -/
theorem sum_levels (a b : ℝ) : max a b ≤ level (power a + power b) ∧ level (power a + power b) ≤ max a b + 3.02 := by
  have ha := power_pos' a
  have hb := power_pos' b
  constructor
  · rcases le_total a b with h | h
    · rw [max_eq_right h]
      calc b = level (power b) := (level_power' b).symm
        _ ≤ _ := level_le hb (by linarith)
    · rw [max_eq_left h]
      calc a = level (power a) := (level_power' a).symm
        _ ≤ _ := level_le ha (by linarith)
  · have h1 : power a + power b ≤ 2 * power (max a b) := by
      have := power_le (le_max_left a b)
      have := power_le (le_max_right a b)
      linarith
    have h2 : (2 : ℝ) ≤ power 3.02 := by
      unfold power
      have : (2 : ℝ) ^ (500 : ℕ) ≤ ((10 : ℝ) ^ (3.02 / 10 : ℝ)) ^ (500 : ℕ) := by
        rw [← Real.rpow_natCast ((10 : ℝ) ^ (3.02 / 10 : ℝ)), ← Real.rpow_mul (by norm_num),
          show (3.02 / 10 : ℝ) * ((500 : ℕ) : ℝ) = ((151 : ℕ) : ℝ) by norm_num, Real.rpow_natCast,
          show (2 : ℝ) ^ 500 = 2 ^ 250 * 2 ^ 250 by rw [← pow_add], show (10 : ℝ) ^ 151 = 10 ^ 75 * 10 ^ 76 by rw [← pow_add]]
        norm_num
      exact le_of_pow_le_pow_left₀ (by norm_num) (by positivity) this
    have h3 : 2 * power (max a b) ≤ power (max a b + 3.02) := by
      have e : power (max a b + 3.02) = power (max a b) * power 3.02 := by
        unfold power
        rw [add_div, Real.rpow_add (by norm_num)]
      rw [e, mul_comm]
      exact mul_le_mul_of_nonneg_left h2 (power_pos' _).le
    calc level (power a + power b) ≤ level (power (max a b + 3.02)) := level_le (by linarith) (h1.trans h3)
      _ = _ := level_power' _

/-- Airframe and engine together are at least as loud as the louder, by at most 3.02 dB; without the engine the level is that
of the airframe. -/
theorem C350_sources (a e : ℝ) :
    computeNoise a e false = a ∧ max a e ≤ computeNoise a e true ∧ computeNoise a e true ≤ max a e + 3.02 ∧
    computeNoise a e true = computeNoise e a true ∧ (∀ a' e', a ≤ a' → e ≤ e' → computeNoise a e true ≤ computeNoise a' e' true) := by
  have h := sum_levels a e
  refine ⟨?_, ?_, ?_, ?_, ?_⟩
  · simp [computeNoise, level_power']
  · simpa [computeNoise] using h.1
  · simpa [computeNoise] using h.2
  · simp [computeNoise, add_comm]
  · intro a' e' h1 h2
    simp only [computeNoise, if_true, one_mul]
    exact level_le (by linarith [power_pos' a, power_pos' e]) (add_le_add (power_le h1) (power_le h2))

/-- The flyover level is that of climb and cutback together. -/
theorem C350_flyover (noise : Bool → Flags → Leg → ℝ) (f : Flags) (climb cutback : Leg) (h : 0 ≤ climb.time) :
    ∃ L, flyoverNoise noise f climb cutback = some L ∧
      max (noise true (setFlyover f) climb.refine) (noise false (setFlyover f) cutback) ≤ L ∧
      L ≤ max (noise true (setFlyover f) climb.refine) (noise false (setFlyover f) cutback) + 3.02 := by
  have hn : ¬ negative climb.time := by
    unfold negative
    rw [not_lt]
    exact Int.ceil_nonneg (by positivity)
  refine ⟨_, by rw [flyoverNoise, if_neg hn], ?_⟩
  exact sum_levels _ _

example : max (90 : ℝ) 80 ≤ computeNoise 90 80 true := (C350_sources 90 80).2.1

/-! ### C351 -/

/-- Which microphone a function is for. -/
inductive Place where
  | approach
  | flyover
  | sideline (x0 : ℝ)

/-- Microphones of the regulation: 2000 m before the threshold, 6500 m from brake release, and 450 m aside. -/
noncomputable def spec (tofl : ℝ) : Place → Pt → View
  | .approach => below 2000
  | .flyover => below (6500 - tofl)
  | .sideline x0 => aside x0

/-- The microphone that a function is for. -/
def Op.place : Op → Place
  | .flyover => .flyover
  | .sideline x0 => .sideline x0
  | .approach => .approach

/-- Settings on which only flyover and sideline are evaluated, in any order and number, give each its microphone; approach
always has its own.  Missing: settings used for an approach before (`C351_shared_counterexample`), and a microphone exactly
at the start of the segment. -/
theorem C351_place_partial (f : Flags) (hf : f.approach = false) (before : List Op) (hb : ∀ o ∈ before, o ≠ .approach) (o : Op)
    (ho : ∀ x0, o = .sideline x0 → x0 ≠ 0) (tofl x1000 : ℝ) (p : Pt) :
    view (o.set (before.foldl (fun g o => o.set g) f)) tofl x1000 p = spec tofl o.place p := by
  have h : (before.foldl (fun g o => o.set g) f).approach = false := by
    induction before generalizing f with
    | nil => exact hf
    | cons a l ih =>
      rw [List.foldl_cons]
      refine ih _ ?_ (fun o ho => hb o (List.mem_cons_of_mem a ho))
      cases a with
      | flyover => exact hf
      | sideline x => exact hf
      | approach => exact absurd rfl (hb _ List.mem_cons_self)
  generalize before.foldl (fun g o => o.set g) f = g at *
  cases o with
  | flyover => simp [view, Op.set, setFlyover, h, Op.place, spec]
  | sideline x0 => simp [view, Op.set, setSideline, h, Op.place, spec, ho x0 rfl]
  | approach => simp [view, Op.set, setApproach, Op.place, spec]

example : view ((Op.flyover).set ([Op.sideline 100, Op.flyover].foldl (fun g o => o.set g) ⟨false, false, false, 0⟩)) 1500 0 ⟨1, 0, -100⟩ =
    below (6500 - 1500) ⟨1, 0, -100⟩ :=
  C351_place_partial ⟨false, false, false, 0⟩ rfl [Op.sideline 100, Op.flyover] (by simp) .flyover (by simp) 1500 0 ⟨1, 0, -100⟩

/-- After an approach with the same settings, flyover is computed with the microphone of the approach. -/
theorem C351_shared_counterexample (f : Flags) (tofl x1000 : ℝ) (p : Pt) :
    view (Op.flyover.set (Op.approach.set f)) tofl x1000 p = below 2000 p := by
  simp [view, Op.set, setApproach, setFlyover]

/-- For a climb on a cubic with four different altitudes the sideline microphone is abeam the point at 304.8 m. -/
theorem C351_abeam (path : List Pt) (c d : Fin 4 → ℝ) (hd : ∀ p ∈ path, p.x = cubic d (-p.z)) (S : Finset ℝ) (hS : S.card = 4)
    (hz : ∀ h ∈ S, ∃ p ∈ path, -p.z = h) (hc : ∀ e, misfit path c ≤ misfit path e) : cubic c 304.8 = cubic d 304.8 := by
  have h0 : misfit path d = 0 := by
    unfold misfit
    apply List.sum_eq_zero
    intro x hx
    obtain ⟨p, hp, rfl⟩ := List.mem_map.1 hx
    rw [hd p hp]
    ring
  have hle := hc d
  rw [h0] at hle
  have hz0 : ∀ p ∈ path, cubic c (-p.z) = p.x := by
    have key : ∀ l : List Pt, (l.map fun p => (cubic c (-p.z) - p.x) ^ 2).sum ≤ 0 → ∀ p ∈ l, cubic c (-p.z) = p.x := by
      intro l
      induction l with
      | nil => simp
      | cons a l ih =>
        intro hl p hp
        rw [List.map_cons, List.sum_cons] at hl
        have h1 : 0 ≤ (l.map fun p => (cubic c (-p.z) - p.x) ^ 2).sum := by
          apply List.sum_nonneg
          intro x hx
          obtain ⟨q, -, rfl⟩ := List.mem_map.1 hx
          positivity
        have h2 := sq_nonneg (cubic c (-a.z) - a.x)
        rcases List.mem_cons.1 hp with rfl | hp
        · have : (cubic c (-p.z) - p.x) ^ 2 = 0 := by linarith
          have := pow_eq_zero_iff (two_ne_zero) |>.1 this
          linarith
        · exact ih (by linarith) p hp
    exact key path hle
  let P : (Fin 4 → ℝ) → Polynomial ℝ := fun c =>
    Polynomial.C (c 0) * Polynomial.X ^ 3 + Polynomial.C (c 1) * Polynomial.X ^ 2 + Polynomial.C (c 2) * Polynomial.X + Polynomial.C (c 3)
  have he : ∀ c h, (P c).eval h = cubic c h := by
    intro c h
    simp [P, cubic]
  have hP : P c = P d := by
    apply Polynomial.eq_of_degrees_lt_of_eval_finset_eq S
    · rw [hS]
      exact Polynomial.degree_cubic_lt
    · rw [hS]
      exact Polynomial.degree_cubic_lt
    · intro h hh
      obtain ⟨p, hp, rfl⟩ := hz h hh
      rw [he, he, hz0 p hp, hd p hp]
  rw [← he, ← he, hP]

/-- Sideline noise is computed with the microphone there, on the climb sampled anew. -/
theorem C351_sideline (noise : Bool → Flags → Leg → ℝ) (f : Flags) (climb : Leg) (ht : ¬ negative climb.time) (c d : Fin 4 → ℝ)
    (hd : ∀ p ∈ climb.path, p.x = cubic d (-p.z)) (S : Finset ℝ) (hS : S.card = 4) (hz : ∀ h ∈ S, ∃ p ∈ climb.path, -p.z = h)
    (hc : ∀ e, misfit climb.path c ≤ misfit climb.path e) :
    sidelineNoise noise f c climb = some (noise true (setSideline (cubic d 304.8) f) climb.refine) := by
  unfold sidelineNoise
  rw [if_neg ht, C351_abeam climb.path c d hd S hS hz hc]

/-- A climb along a straight line: the fit with the least misfit puts the microphone abeam the point at 304.8 m. -/
example (c : Fin 4 → ℝ) (hc : ∀ e, misfit [⟨0, 0, 0⟩, ⟨100, 0, -10⟩, ⟨300, 0, -30⟩, ⟨600, 0, -60⟩] c ≤
    misfit [⟨0, 0, 0⟩, ⟨100, 0, -10⟩, ⟨300, 0, -30⟩, ⟨600, 0, -60⟩] e) : cubic c 304.8 = 3048 := by
  have h := C351_abeam [⟨0, 0, 0⟩, ⟨100, 0, -10⟩, ⟨300, 0, -30⟩, ⟨600, 0, -60⟩] c ![0, 0, 10, 0] (by simp [cubic]; norm_num) {0, 10, 30, 60}
    (by norm_num) (by simp) hc
  rw [h]
  simp [cubic]
  norm_num

/-! ### C352 -/

/-- The number of control points asked for gives intervals of at most half a second for segments shorter than 99.5 s, and
never more than 200 points. -/
theorem C352_wanted (t : ℝ) (h : 0 ≤ t) : wanted t ≤ 200 ∧ (t ≤ 99 → t ≤ ((wanted t : ℝ) - 1) * 0.5) := by
  refine ⟨min_le_left _ _, fun h1 => ?_⟩
  have hc : 0 ≤ ⌈t / 0.5 + 1⌉ := Int.ceil_nonneg (by positivity)
  have h2 : ⌈t / 0.5 + 1⌉ ≤ 200 := by
    rw [Int.ceil_le]
    push_cast
    have : t / 0.5 = 2 * t := by ring
    linarith
  have h3 : wanted t = ⌈t / 0.5 + 1⌉.natAbs := min_eq_right (by omega)
  have h4 : ((⌈t / 0.5 + 1⌉.natAbs : ℕ) : ℝ) = (⌈t / 0.5 + 1⌉ : ℤ) := by
    rw [Nat.cast_natAbs, abs_of_nonneg hc]
  rw [h3, h4]
  have := Int.le_ceil (t / 0.5 + 1)
  have e : t / 0.5 = 2 * t := by ring
  rw [e] at this ⊢
  linarith

example : (50 : ℝ) ≤ ((wanted 50 : ℝ) - 1) * 0.5 := (C352_wanted 50 (by norm_num)).2 (by norm_num)

/-- The noise is computed on the points of the first evaluation, however few they are. -/
theorem C352_sampling_counterexample :
    ¬ ∀ l : Leg, 0 ≤ l.time → l.time ≤ 99 → l.path.length = l.points → l.refine.path.length = l.refine.points := by
  intro h
  have := h ⟨[⟨0, 0, 0⟩, ⟨1, 0, -1⟩], 60, 2⟩ (by norm_num) (by norm_num) rfl
  have h2 : wanted 60 = 121 := by
    unfold wanted
    norm_num
  simp [Leg.refine, h2] at this

end Verif.Noise.Flyover
