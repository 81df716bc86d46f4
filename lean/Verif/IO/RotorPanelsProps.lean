import Verif.IO.RotorPanels

/-!
C447 panels about rotors and ageing cells.
-/

namespace Verif.IO.RotorPanels
open Real

/-- **C447, limits.** Whatever matplotlib's limits show of a quantity that is somewhere zero or positive stays visible, and so does the
zero line. -/
theorem C447_limits_partial (lo hi y : ℝ) (hy : Seen (lo, hi) y) (h : 0 ≤ hi) : Seen (limits lo hi) y ∧ Seen (limits lo hi) 0 := by
  unfold Seen limits at *
  dsimp only at *
  split_ifs with hl
  · exact ⟨⟨by linarith, by linarith⟩, ⟨le_refl _, by linarith⟩⟩
  · exact ⟨⟨hy.1, by linarith⟩, ⟨not_lt.1 hl, by linarith⟩⟩

example : Seen ((3 : ℝ), 5) 4 ∧ (0 : ℝ) ≤ 5 := by unfold Seen; norm_num

/-- **C447 fails for negative quantities.** The torque of a driven propeller, negative throughout, has its largest values cut off, and
all of them when they vary by less than a tenth. -/
theorem C447_limits_counterexample (lo hi : ℝ) (h : hi < 0) :
    ¬ Seen (limits lo hi) hi ∧ (hi * 1.1 < lo → ∀ y, Seen (lo, hi) y → ¬ Seen (limits lo hi) y) := by
  unfold Seen limits
  dsimp only
  exact ⟨fun k => by linarith [k.2], fun hl y hy k => by linarith [hy.1, k.2]⟩

example : (-10 : ℝ) * 1.1 < -10.5 ∧ Seen ((-10.5 : ℝ), -10) (-10.2) := by unfold Seen; norm_num

/-- **C447, efficiencies.** Exactly values between zero and one are shown. -/
theorem C447_efficiency (e : ℝ) : Seen efficiencyLimits e ↔ 0 ≤ e ∧ e ≤ 1 := Iff.rfl

/-- **C447, thrust.** The thrust shown is the thrust whatever its direction. -/
theorem C447_thrust (T a b : ℝ) (hT : 0 ≤ T) : thrust (T * (cos a * cos b)) (T * (cos a * sin b)) (T * sin a) = T := by
  unfold thrust
  rw [show (T * (cos a * cos b)) ^ 2 + (T * (cos a * sin b)) ^ 2 + (T * sin a) ^ 2
      = T ^ 2 * (cos a ^ 2 * (sin b ^ 2 + cos b ^ 2) + sin a ^ 2) by ring, sin_sq_add_cos_sq, mul_one, add_comm (cos a ^ 2),
    sin_sq_add_cos_sq, mul_one, sqrt_sq hT]

/-- **C447 fails for reversed thrust.** Braking and pushing are shown alike. -/
theorem C447_thrust_counterexample (x y z : ℝ) : thrust (-x) (-y) (-z) = thrust x y z := by
  unfold thrust
  ring_nf

/-- **C447, ageing.** The second and third panel show the factor of capacity over hours at the end of the segment and over days. -/
theorem C447_ageing_partial (hour : ℝ) (s : Ageing) (t q : ℝ) (ts qs : List ℝ) (ht : s.times = ts ++ [t]) (hq : s.charges = qs ++ [q]) :
    ∃ a b c, ageing hour s = some (a, b, c) ∧ b.x = t / hour ∧ b.y = s.capacity ∧ b.label = "Time (hrs)" ∧ c.x = s.day
      ∧ c.y = s.capacity ∧ c.label = "Time (days)" := by
  refine ⟨_, _, _, by unfold ageing; rw [ht, hq]; simp [List.getLast?_append]; exact ⟨rfl, rfl, rfl⟩, rfl, rfl, rfl, rfl, rfl, rfl⟩

/-- **C447 fails for the first panel and for the unit.** The first panel shows the charge drawn, not the time of its label; and a cell as
new is shown at one, where the label asks for the percentage lost. -/
theorem C447_ageing_counterexample :
    (∃ (s : Ageing) (a b c : Mark) (t : ℝ), ageing 3600 s = some (a, b, c) ∧ s.times.getLast? = some t ∧ a.label = "Time (hrs)"
      ∧ a.x ≠ t / 3600)
    ∧ ∀ (s : Ageing) (a b c : Mark), ageing 3600 s = some (a, b, c) → s.capacity = 1 →
      (a.y ≠ 100 * (1 - s.capacity) ∧ b.y ≠ 100 * (1 - s.capacity) ∧ c.y ≠ 100 * (1 - s.capacity)) := by
  constructor
  · exact ⟨⟨[0, 3600], [0, 5], 1, 1, 1⟩, _, _, _, 3600, rfl, rfl, rfl, by norm_num⟩
  · intro s a b c h h1
    simp only [ageing, Option.bind_eq_bind, Option.bind_eq_some_iff, Option.pure_def, Option.some.injEq, Prod.mk.injEq] at h
    obtain ⟨_, _, _, _, rfl, rfl, rfl⟩ := h
    simp [h1]

/-- **C447, disc.** A ring that starts at azimuth zero is closed: the last point lies where the first does and has its value, and no
value between is lost. -/
theorem C447_ring (psi v : List ℝ) (v0 : ℝ) (h : psi.length = v.length) :
    ∃ l, ring (0 :: psi) (v0 :: v) = some l ∧ l.head? = some (0, v0) ∧ l.getLast? = some (2 * π, v0)
      ∧ cos (2 * π) = cos 0 ∧ sin (2 * π) = sin 0 ∧ l.length = v.length + 2 := by
  have hlen : (0 :: psi).length = (v0 :: v).length := by simp [h]
  refine ⟨_, rfl, rfl, ?_, by simp, by simp, ?_⟩
  · show ((0 :: psi ++ [2 * π]).zip (v0 :: v ++ [v0])).getLast? = _
    rw [List.zip_append hlen, List.getLast?_append]
    rfl
  · show ((0 :: psi ++ [2 * π]).zip (v0 :: v ++ [v0])).length = _
    rw [List.zip_append hlen]
    simp [h]

example : ([1, 2] : List ℝ).length = ([5, 6] : List ℝ).length := rfl

end Verif.IO.RotorPanels
