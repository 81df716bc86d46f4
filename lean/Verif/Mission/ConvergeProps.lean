import Verif.Mission.Converge
import Verif.Mission.FramesProps

/-! Convergence of a segment (C344) and single point segments (C345). -/

namespace Verif.Mission.Converge

open Verif.Mission.Frames

variable {X C R : Type}

/-! ### C344 -/

/-- The points at which a root finder asks, when the residuals are those of the process started at `c`. -/
def asked (p : X → C → C × R) : Solver X R → C → List X
  | .done _ _, _ => []
  | .ask x k, c => x :: asked p (k (p x c).2) (p x c).1

/-- The answer of a root finder. -/
def answer (p : X → C → C × R) : Solver X R → C → X × Bool
  | .done x ok, _ => (x, ok)
  | .ask x k, c => answer p (k (p x c).2) (p x c).1

theorem drive_answer (p : X → C → C × R) (v : Solver X R) (s : State X C R) : (drive p v s).2 = answer p v s.conditions := by
  induction v generalizing s with
  | done x ok => rfl
  | ask x k ih => exact ih _ _

theorem drive_last (p : X → C → C × R) (v : Solver X R) (s : State X C R) :
    (asked p v s.conditions = [] → (drive p v s).1 = s) ∧
    ∀ h : asked p v s.conditions ≠ [], (drive p v s).1.unknowns = (asked p v s.conditions).getLast h ∧
      ∃ c, ((drive p v s).1.conditions, (drive p v s).1.residuals) = p (drive p v s).1.unknowns c := by
  induction v generalizing s with
  | done x ok => exact ⟨fun _ => rfl, fun h => absurd rfl h⟩
  | ask x k ih =>
    refine ⟨fun h => absurd h (by simp [asked]), fun h => ?_⟩
    obtain ⟨h1, h2⟩ := ih (iterate p x s).residuals (iterate p x s)
    have hd : drive p (.ask x k) s = drive p (k (iterate p x s).residuals) (iterate p x s) := rfl
    have ha : asked p (.ask x k) s.conditions = x :: asked p (k (iterate p x s).residuals) (iterate p x s).conditions := rfl
    rw [hd]
    by_cases he : asked p (k (iterate p x s).residuals) (iterate p x s).conditions = []
    · rw [h1 he]
      refine ⟨?_, s.conditions, rfl⟩
      simp only [ha, he, List.getLast_singleton]
      rfl
    · obtain ⟨h3, h4⟩ := h2 he
      refine ⟨?_, h4⟩
      rw [h3]
      simp only [ha]
      rw [List.getLast_cons he]

/-- After convergence the conditions and residuals of a segment belong to the unknowns it holds, which are the last ones
that the root finder tried, and the flag is that of the root finder. -/
theorem C344_consistent (solver : X → Solver X R) (p : X → C → C × R) (s : State X C R)
    (h : asked p (solver s.unknowns) s.conditions ≠ []) :
    let s' := convergeRoot solver p s
    s'.unknowns = (asked p (solver s.unknowns) s.conditions).getLast h ∧ (∃ c, (s'.conditions, s'.residuals) = p s'.unknowns c) ∧
      s'.converged = some (answer p (solver s.unknowns) s.conditions).2 := by
  intro s'
  obtain ⟨h1, h2⟩ := (drive_last p (solver s.unknowns) s).2 h
  refine ⟨h1, h2, ?_⟩
  change some (drive p (solver s.unknowns) s).2.2 = _
  rw [drive_answer]

/-- If the root finder tried its solution last, a segment flagged as converged satisfies whatever test the root finder
makes of the residuals at its solution.  Missing: root finders that end after a rejected trial
(`C344_rejected_counterexample`). -/
theorem C344_solution_partial (solver : X → Solver X R) (p : X → C → C × R) (s : State X C R) (good : R → Prop)
    (h : asked p (solver s.unknowns) s.conditions ≠ [])
    (hl : (asked p (solver s.unknowns) s.conditions).getLast h = (answer p (solver s.unknowns) s.conditions).1)
    (hg : (answer p (solver s.unknowns) s.conditions).2 = true → ∀ c, good (p (answer p (solver s.unknowns) s.conditions).1 c).2)
    (hc : (convergeRoot solver p s).converged = some true) :
    (convergeRoot solver p s).unknowns = (answer p (solver s.unknowns) s.conditions).1 ∧ good (convergeRoot solver p s).residuals := by
  obtain ⟨h1, ⟨c, h2⟩, h3⟩ := C344_consistent solver p s h
  rw [hc, Option.some_inj] at h3
  have hu := h1.trans hl
  refine ⟨hu, ?_⟩
  have := hg h3.symm c
  rw [← hu, ← h2] at this
  exact this

/-- A root finder that tries the guess and, if its residual is not zero, the guess minus the residual. -/
def newton (x : ℤ) : Solver ℤ ℤ := .ask x fun r => if r = 0 then .done x true else .ask (x - r) fun r' => .done (x - r) (r' = 0)

example : (convergeRoot newton (fun x (_ : Unit) => ((), x - 3)) ⟨10, (), 0, none⟩).unknowns = 3 ∧
    (convergeRoot newton (fun x (_ : Unit) => ((), x - 3)) ⟨10, (), 0, none⟩).residuals = 0 := by
  refine C344_solution_partial newton _ _ (fun r => r = 0) (by simp [newton, asked]) (by simp [newton, asked, answer]) ?_ rfl
  intro _ _
  simp [newton, answer]

/-- A root finder that finds a solution, tries another point, rejects it and returns the solution leaves the segment at the
rejected point although it is flagged as converged. -/
theorem C344_rejected_counterexample :
    ¬ ∀ (solver : ℤ → Solver ℤ ℤ) (p : ℤ → Unit → Unit × ℤ) (s : State ℤ Unit ℤ),
      (answer p (solver s.unknowns) s.conditions).2 = true → (∀ c, (p (answer p (solver s.unknowns) s.conditions).1 c).2 = 0) →
      (convergeRoot solver p s).residuals = 0 := by
  intro h
  have := h (fun x => .ask x fun _ => .ask (x + 1) fun _ => .done x true) (fun x _ => ((), x)) ⟨0, (), 0, none⟩ rfl (fun _ => rfl)
  simp [convergeRoot, drive, iterate] at this

/-! ### C345 -/

/-- A point is flown at the altitude asked for, or at the one at which the segment before ended, at the speed asked for and
with the mass at the end of the segment before or at takeoff. -/
theorem C345_place (g : Point) (prev : Option Prev) (s : Start) (takeoff m : ℝ) (h : g.start prev = some s) :
    (∀ x, g.altitude = some x → s.altitude = x ∧ g.place prev s.pos 2 = -x) ∧
    (∀ p, g.altitude = none → prev = some p → s.altitude = -p.pos 2 ∧ g.place prev s.pos = p.pos) ∧
    (∀ p, prev = some p → g.place prev s.pos 0 = p.pos 0 ∧ g.place prev s.pos 1 = p.pos 1 ∧ Point.mass prev takeoff m = p.mass) ∧
    (prev = none → Point.mass prev takeoff m = takeoff) ∧
    s.vel = ![g.speed, 0, 0] ∧ s.acc = ![g.ax, 0, g.az] := by
  obtain ⟨alt, v, ax, az⟩ := g
  cases alt with
  | some x =>
    simp only [Point.start, Option.map_some, Option.some_inj] at h
    subst h
    refine ⟨?_, by simp, ?_, ?_, rfl, rfl⟩
    · intro y hy
      simp only [Option.some_inj] at hy
      subst hy
      refine ⟨rfl, ?_⟩
      cases prev <;> simp [Point.place]
    · rintro p rfl
      refine ⟨?_, ?_, ?_⟩ <;> simp [Point.place, Point.mass]
    · rintro rfl
      simp [Point.mass]
  | none =>
    cases prev with
    | none => simp [Point.start] at h
    | some p =>
      simp only [Point.start, Option.map_some, Option.some_inj] at h
      subst h
      refine ⟨by simp, ?_, ?_, by simp, rfl, rfl⟩
      · intro q _ hq
        simp only [Option.some_inj] at hq
        subst hq
        refine ⟨by ring, ?_⟩
        ext i
        simp [Point.place]
      · intro q hq
        simp only [Option.some_inj] at hq
        subst hq
        refine ⟨?_, ?_, ?_⟩ <;> simp [Point.place, Point.mass]

/-- Without an altitude and without a segment before it a point cannot be flown. -/
theorem C345_raises (g : Point) (prev : Option Prev) : g.start prev = none ↔ g.altitude = none ∧ prev = none := by
  obtain ⟨alt, v, ax, az⟩ := g
  cases alt <;> cases prev <;> simp [Point.start]

/-- Force on a point in level flight: thrust along the body, drag against the motion, lift upwards and weight downwards. -/
theorem point_forces (g : Point) (hv : 0 < g.speed) (θ lift drag thrust m grav : ℝ) :
    g.forces θ lift drag thrust m grav 0 = thrust * Real.cos θ - drag ∧
    g.forces θ lift drag thrust m grav 2 = m * grav - lift - thrust * Real.sin θ := by
  have hl : len2 ![g.speed, 0, 0] = g.speed ^ 2 := by simp [len2]
  have hs : Real.sqrt (len2 ![g.speed, 0, 0]) = g.speed := by rw [hl, Real.sqrt_sq hv.le]
  obtain ⟨h1, h2, -, h3⟩ := C79_plane_partial ![g.speed, 0, 0] ![0, θ, 0] (by rw [hl]; positivity) rfl rfl rfl lift drag
    ![thrust, 0, 0] ![0, 0, m * grav]
  rw [hs] at h1 h2 h3
  have hd0 := h1 0
  have hd2 := h1 2
  simp only [Matrix.cons_val_zero, Matrix.cons_val, mul_zero] at hd0 hd2 h2 h3
  have hT : ∀ i, (updateForces (updateOrientations ![g.speed, 0, 0] ![0, θ, 0]) ![0, 0, -lift] ![-drag, 0, 0] ![thrust, 0, 0] ![0, 0, m * grav]).thrust i =
      thrust * (dcm ![0, θ, 0] [2, 1, 0]) 0 i := by
    intro i
    simp only [updateForces, updateOrientations, productV, transp, Fin.sum_univ_three, Matrix.cons_val_zero, Matrix.cons_val_one,
      Matrix.cons_val, mul_zero, add_zero]
    ring
  have hT0 : T0 0 = 1 := by
    have := (C40_single 0 0 0 0).2.1
    rw [newTensor_eq] at this
    exact this
  have hT2 : T2 0 = 1 := by
    have := (C40_single 2 0 0 0).2.1
    rw [newTensor_eq] at this
    exact this
  have hD : dcm ![0, θ, 0] [2, 1, 0] = T1 θ := by
    rw [dcm210]
    simp [hT0, hT2]
  have e : ∀ i, g.forces θ lift drag thrust m grav i =
      (updateForces (updateOrientations ![g.speed, 0, 0] ![0, θ, 0]) ![0, 0, -lift] ![-drag, 0, 0] ![thrust, 0, 0] ![0, 0, m * grav]).lift i +
      (updateForces (updateOrientations ![g.speed, 0, 0] ![0, θ, 0]) ![0, 0, -lift] ![-drag, 0, 0] ![thrust, 0, 0] ![0, 0, m * grav]).drag i +
      (updateForces (updateOrientations ![g.speed, 0, 0] ![0, θ, 0]) ![0, 0, -lift] ![-drag, 0, 0] ![thrust, 0, 0] ![0, 0, m * grav]).thrust i +
      (![0, 0, m * grav] : V3) i := fun _ => rfl
  have hne := hv.ne'
  constructor
  · rw [e, hT, hD]
    have a1 := mul_left_cancel₀ hne (h2.trans (mul_zero g.speed).symm)
    have a2 := mul_left_cancel₀ hne (hd0.trans (mul_comm _ _))
    rw [a1, a2]
    simp [T1]
    ring
  · rw [e, hT, hD]
    have a1 := mul_left_cancel₀ hne (h3.trans (by ring : -(lift * g.speed) = g.speed * -lift))
    have a2 := mul_left_cancel₀ hne (hd2.trans (mul_zero g.speed).symm)
    rw [a1, a2]
    simp [T1]
    ring

/-- The residuals of a point vanish exactly when thrust balances drag and the wanted acceleration along the path, and lift
with the thrust balances weight and the wanted acceleration across it. -/
theorem C345_trim (g : Point) (hv : 0 < g.speed) (θ lift drag thrust m grav : ℝ) (hm : 0 < m) :
    residualForces (g.forces θ lift drag thrust m grav) ![g.ax, 0, g.az] m = (0, 0) ↔
      thrust * Real.cos θ = drag + m * g.ax ∧ lift + thrust * Real.sin θ = m * (grav - g.az) := by
  obtain ⟨h1, h2⟩ := point_forces g hv θ lift drag thrust m grav
  simp only [residualForces, h1, h2, Prod.mk.injEq, Matrix.cons_val_zero, Matrix.cons_val]
  rw [sub_eq_zero, div_eq_iff hm.ne', sub_eq_zero, div_eq_iff hm.ne']
  constructor <;> rintro ⟨a, b⟩ <;> constructor <;> linarith

/-- Without propulsion the residual vanishes exactly when lift balances weight and the wanted acceleration. -/
theorem C345_glide (g : Point) (hv : 0 < g.speed) (θ lift drag m grav : ℝ) (hm : 0 < m) :
    residualForce (g.forces θ lift drag 0 m grav) ![0, 0, g.az] m = 0 ↔ lift = m * (grav - g.az) := by
  obtain ⟨-, h2⟩ := point_forces g hv θ lift drag 0 m grav
  simp only [residualForce, h2, Matrix.cons_val]
  rw [sub_eq_zero, div_eq_iff hm.ne']
  constructor <;> intro a <;> linarith

/-- With given throttle the acceleration found is the excess thrust over the mass. -/
theorem C345_throttle (g : Point) (hv : 0 < g.speed) (θ lift drag thrust m grav x : ℝ) (hm : 0 < m)
    (h : residualForces (g.forces θ lift drag thrust m grav) (Point.unpackAccel ![g.ax, 0, g.az] x) m = (0, 0)) :
    x = (thrust * Real.cos θ - drag) / m ∧ lift + thrust * Real.sin θ = m * (grav - g.az) := by
  have h' := (C345_trim { g with ax := x } hv θ lift drag thrust m grav hm).1 h
  refine ⟨?_, h'.2⟩
  rw [eq_div_iff hm.ne']
  linarith [h'.1]

/-- Level flight of 1000 kg with a lift of 9800 N and equal thrust and drag. -/
example : residualForces ((⟨some 1000, 50, 0, 0⟩ : Point).forces 0 9800 700 700 1000 9.8) ![0, 0, 0] 1000 = (0, 0) :=
  (C345_trim ⟨some 1000, 50, 0, 0⟩ (by norm_num) 0 9800 700 700 1000 9.8 (by norm_num)).2 (by norm_num)

end Verif.Mission.Converge
