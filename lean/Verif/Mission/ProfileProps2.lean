import Verif.Mission.ProfileProps
import Mathlib.Tactic.LinearCombination
/-
C66-C71: cruise, hover, acceleration, pitch, residuals and the noise segments.
-/

namespace Verif.Mission

open Verif.Num Polynomial

variable {n : Nat}

/-! ### C66 -/

/-- Constant altitude, constant speed `v`, starting at time `t0` and lasting `d`; time increases
strictly when `d` is positive. -/
structure Steady (l : Level n) (v alt t0 d : ℝ) : Prop where
  speed : ∀ i, l.vx i = v
  altitude : ∀ i, l.alt i = alt ∧ l.z i = -alt
  start : l.time 0 = t0
  lasts : fin l.time - l.time 0 = d
  forward : 0 < d → StrictMono l.time

theorem steady_mk (l : Level n) (v alt t0 d : ℝ) (hv : ∀ i, l.vx i = v) (ha : ∀ i, l.alt i = alt ∧ l.z i = -alt)
    (ht : ∀ i, l.time i = chebNode n i * d + t0) : Steady l v alt t0 d := by
  refine ⟨hv, ha, by rw [ht, cheb_zero]; ring, by rw [fin, ht, ht, cheb_zero, cheb_last]; ring, fun hd i j hij => ?_⟩
  rw [ht, ht]
  have := (C25_nodes_increasing n).1 hij
  nlinarith

/-- C66: cruise segments cover the requested distance at the requested speed (or Mach number) and
altitude. -/
theorem C66_cruise {I : Matrix (Fin (n + 2)) (Fin (n + 2)) ℝ} (hI : specI n (chebNode n) = some I)
    (a : ℝ → ℝ) (v mach dist alt t0 : ℝ) (hv : v ≠ 0) (hm : mach * a alt ≠ 0) :
    (∀ l : Level n, l = cruiseSpeed (chebNode n) v dist alt t0 →
      Steady l v alt t0 (dist / v) ∧ (timeIntegrate I l.time).mulVec l.vx (Fin.last (n + 1)) = dist) ∧
    (∀ l : Level n, l = cruiseMach a (chebNode n) mach dist alt t0 →
      Steady l (mach * a alt) alt t0 (dist / (mach * a alt)) ∧
      (timeIntegrate I l.time).mulVec l.vx (Fin.last (n + 1)) = dist) := by
  have key : ∀ (l : Level n) (v : ℝ), v ≠ 0 → Steady l v alt t0 (dist / v) →
      (timeIntegrate I l.time).mulVec l.vx (Fin.last (n + 1)) = dist := by
    intro l v hv h
    rw [timeIntegrate, h.lasts, funext h.speed, Matrix.smul_mulVec, Pi.smul_apply, integrate_const hI, cheb_last, smul_eq_mul]
    field_simp
  constructor
  · rintro l rfl
    have h : Steady (cruiseSpeed (chebNode n) v dist alt t0) v alt t0 (dist / v) :=
      steady_mk _ _ _ _ _ (fun _ => rfl) (fun _ => ⟨rfl, rfl⟩) fun i => by simp only [cruiseSpeed, rampTo]; ring
    exact ⟨h, key _ _ hv h⟩
  · rintro l rfl
    have h : Steady (cruiseMach a (chebNode n) mach dist alt t0) (mach * a alt) alt t0 (dist / (mach * a alt)) :=
      steady_mk _ _ _ _ _ (fun _ => rfl) (fun _ => ⟨rfl, rfl⟩) fun i => by simp only [cruiseMach, rampTo]; ring
    exact ⟨h, key _ _ hm h⟩

/-- C66: loiter and hover segments last the requested time at the requested altitude and speed. -/
theorem C66_loiter (a : ℝ → ℝ) (v mach d alt t0 : ℝ) :
    Steady (loiterSpeed (chebNode n) v d alt t0) v alt t0 d ∧
    Steady (loiterMach a (chebNode n) mach d alt t0) (mach * a alt) alt t0 d ∧
    Steady (hover (chebNode n) d alt t0) 0 alt t0 d :=
  ⟨steady_mk _ _ _ _ _ (fun _ => rfl) (fun _ => ⟨rfl, rfl⟩) fun i => by simp only [loiterSpeed, rampTo]; ring,
   steady_mk _ _ _ _ _ (fun _ => rfl) (fun _ => ⟨rfl, rfl⟩) fun i => by simp only [loiterMach, rampTo]; ring,
   steady_mk _ _ _ _ _ (fun _ => rfl) (fun _ => ⟨rfl, rfl⟩) fun i => rfl⟩

/-- The vertical hover segments reach the requested altitude at the requested rate with no
forward speed. -/
theorem C66_hover_climb (rate a b t0 : ℝ) :
    (∀ q : Prof n × Col n, q = hoverClimb (chebNode n) rate a b t0 →
      Spans q.1 a b ∧ HasRate q.1 rate ∧ (∀ i, q.1.vx i = 0) ∧ q.2 0 = t0 ∧ fin q.2 - q.2 0 = (b - a) / rate) ∧
    (∀ q : Prof n × Col n, q = hoverDescent (chebNode n) rate a b t0 →
      Spans q.1 a b ∧ HasRate q.1 (-rate) ∧ (∀ i, q.1.vx i = 0) ∧ q.2 0 = t0 ∧ fin q.2 - q.2 0 = (a - b) / rate) := by
  constructor <;> rintro q rfl
  · exact ⟨spans_ramp _ a b rfl rfl, fun _ => neg_neg _, fun _ => rfl,
      by simp [hoverClimb, cheb_zero], by simp [hoverClimb, fin, cheb_zero, cheb_last]⟩
  · exact ⟨spans_ramp _ a b rfl rfl, fun _ => rfl, fun _ => rfl,
      by simp [hoverDescent, cheb_zero], by simp [hoverDescent, fin, cheb_zero, cheb_last]⟩

/-- The integration matrix assumed by the theorems of this file exists for every grid size. -/
example : ∃ I, specI n (chebNode n) = some I := Option.isSome_iff_exists.1 (C26_chebyshev_exists n)

example : Steady (hover (chebNode 2) 60 100 5) 0 100 5 60 := (C66_loiter (fun _ => 340) 0 0 60 100 5).2.2

/-! ### C67 -/

/-- Dynamic pressure of a speed at an altitude. -/
noncomputable def dynP (rho : ℝ → ℝ) (vx vz alt : ℝ) : ℝ := 1 / 2 * rho alt * (vx ^ 2 + vz ^ 2)

/-- The dynamic-pressure climb at a constant angle flies at the requested dynamic pressure. -/
theorem C67_angle_partial (rho : ℝ → ℝ) (hrho : ∀ h, 0 < rho h) (alts : Col n) (q angle : ℝ) (hq : 0 ≤ q) (i : Fin (n + 2)) :
    let p := climbDynPressureAngle rho alts q angle
    dynP rho (p.vx i) (p.vz i) (p.alt i) = q := by
  intro p
  have hr := hrho (alts i)
  have hs := Real.sq_sqrt (show 0 ≤ 2 * q / rho (alts i) by positivity)
  have hc := Real.sin_sq_add_cos_sq angle
  simp only [p, dynP, climbDynPressureAngle]
  have e : (Real.sqrt (2 * q / rho (alts i)) * Real.cos angle) ^ 2 + (-Real.sqrt (2 * q / rho (alts i)) * Real.sin angle) ^ 2
      = 2 * q / rho (alts i) := by
    linear_combination (Real.sin angle ^ 2 + Real.cos angle ^ 2) * hs + 2 * q / rho (alts i) * hc
  rw [e]; field_simp

/-- The other two do when the state already held altitudes of the same density. -/
theorem C67_stale_partial (rho : ℝ → ℝ) (hrho : ∀ h, 0 < rho h) (old : Col n) (q rate dist a b t0 : ℝ) (hq : 0 ≤ q) :
    ((∀ i, rho (old i) = rho (ramp (chebNode n) a b i)) → (∀ i, rate ^ 2 ≤ 2 * q / rho (old i)) →
      ∀ i, let p := climbDynPressure rho old (chebNode n) q rate a b
        dynP rho (p.vx i) (p.vz i) (p.alt i) = q) ∧
    ((∀ i, rho (old i) = rho a) → ∀ i, let l := cruiseDynPressure rho old (chebNode n) q dist a t0
        dynP rho (l.vx i) 0 (l.alt i) = q) := by
  constructor
  · intro ho hr i p
    have hp := hrho (ramp (chebNode n) a b i)
    have h1 : 0 ≤ 2 * q / rho (old i) := by rw [ho]; positivity
    simp only [p, dynP, climbDynPressure, rateProfile]
    rw [Real.sq_sqrt (by rw [Real.sq_sqrt h1, neg_sq]; linarith [hr i]), Real.sq_sqrt h1, ho]
    field_simp; ring
  · intro ho i l
    have hp := hrho a
    have h1 : 0 ≤ q / (rho (old i) * (1 / 2)) := by rw [ho]; positivity
    simp only [l, dynP, cruiseDynPressure]
    rw [Real.sq_sqrt h1, ho]
    field_simp; ring

/-- C67 fails on the first evaluation of a segment, when the state still holds altitude zero: the
speed belongs to sea-level density. -/
theorem C67_counterexample : ∃ rho : ℝ → ℝ, (∀ h, 0 < rho h) ∧ ∀ q > 0,
    (∀ i, let l := cruiseDynPressure (n := n) rho (fun _ => 0) (chebNode n) q 1 1 0
      dynP rho (l.vx i) 0 (l.alt i) = q / 2) ∧
    (∀ rate, rate ^ 2 ≤ q → let p := climbDynPressure (n := n) rho (fun _ => 0) (chebNode n) q rate 0 1
      dynP rho (fin p.vx) (fin p.vz) (fin p.alt) = q / 2) := by
  refine ⟨fun h => if h = 1 then 1 else 2, fun h => by beta_reduce; split_ifs <;> norm_num, fun q hq => ⟨fun i => ?_, fun rate hr => ?_⟩⟩
  · simp only [dynP, cruiseDynPressure]
    rw [Real.sq_sqrt (by norm_num; exact hq.le)]
    norm_num
    ring
  · have h1 : (0 : ℝ) ≤ 2 * q / 2 := by positivity
    simp only [dynP, climbDynPressure, rateProfile, fin, ramp, cheb_last]
    norm_num
    rw [Real.sq_sqrt hq.le, Real.sq_sqrt (by linarith)]
    ring

/-! ### C68 -/

/-- Constant-acceleration segments start and end at the requested speeds with the requested
acceleration in between, at constant altitude. -/
theorem C68_accelerate_partial (v0 vf ax T0 Tf alt t0 : ℝ) (hax : ax ≠ 0) :
    ∀ l : Level n, (l = accelerate (chebNode n) v0 vf ax alt t0 ∨ l = (transitionLevel (chebNode n) v0 vf ax T0 Tf alt t0).1) →
      l.time 0 = t0 ∧ fin l.time - l.time 0 = (vf - v0) / ax ∧
      l.vx 0 = v0 ∧ fin l.vx = vf ∧ (∀ i j, l.vx i - l.vx j = ax * (l.time i - l.time j)) ∧ ∀ i, l.alt i = alt ∧ l.z i = -alt := by
  rintro l (rfl | rfl)
  all_goals
    refine ⟨?_, ?_, ?_, ?_, fun i j => ?_, fun i => ⟨rfl, rfl⟩⟩
    · simp [accelerate, transitionLevel, rampTo, cheb_zero]
    · simp [accelerate, transitionLevel, rampTo, cheb_zero, cheb_last, fin]
    · simp [accelerate, transitionLevel, rampTo, cheb_zero]
    · simp [accelerate, transitionLevel, rampTo, cheb_last, fin]; field_simp; ring
    · simp only [accelerate, transitionLevel]; ring

/-- The constant-throttle cruise: the speed starts at the given value and its time derivative is
the acceleration of the force balance (all control points but the first, where the value of the
derivative is not used). -/
theorem C68_throttle_partial {I : Matrix (Fin (n + 2)) (Fin (n + 2)) ℝ} (hI : specI n (chebNode n) = some I)
    (T : ℝ) (hT : T ≠ 0) (v0 : ℝ) (ax : Col n) :
    integrateVelocity v0 (T • I) ax 0 = v0 ∧
    ∀ i : Fin (n + 1), (T⁻¹ • specD n (chebNode n)).mulVec (integrateVelocity v0 (T • I) ax) i.succ = ax i.succ :=
  C26_time_scaled n (chebNode n) ax I hI T v0 hT

/-- Speeds equal to zero or to each other are moved by one centimetre per second, others kept. -/
theorem C68_nudge (v0 vf : ℝ) :
    (nudge v0 vf).1 ≠ 0 ∧ (nudge v0 vf).1 ≠ (nudge v0 vf).2 ∧ |(nudge v0 vf).1 - v0| ≤ 1 / 100 ∧ |(nudge v0 vf).2 - vf| ≤ 2 / 100 ∧
    (v0 ≠ 0 → vf ≠ 0 → v0 ≠ vf → nudge v0 vf = (v0, vf)) := by
  unfold nudge
  refine ⟨?_, ?_, ?_, ?_, fun h1 h2 h3 => by simp [h1, h2, h3]⟩
  · dsimp only; split_ifs with h <;> [norm_num; exact h]
  · dsimp only; split_ifs <;> norm_num
    all_goals simp_all
  · dsimp only; split_ifs with h <;> norm_num [h]
  · dsimp only; split_ifs <;> rw [abs_le] <;> constructor <;> linarith

/-- The accelerating climb-out: the elapsed time is the one in which a body of initial speed `v0`
and acceleration `ax` covers the slant distance of the climb. -/
theorem C68_climbout_partial (v0 ax angle T0 Tf a b t0 : ℝ) (hv : 0 ≤ v0) (hax : 0 < ax) :
    let r := transitionClimb (chebNode n) v0 ax angle T0 Tf a b t0
    v0 * r.elapsed + 1 / 2 * ax * r.elapsed ^ 2 = Real.sqrt ((b - a) ^ 2 + ((b - a) / Real.tan angle) ^ 2) ∧
    r.vf = v0 + ax * r.elapsed ∧ 0 ≤ r.elapsed ∧ Spans r.p a b := by
  intro r
  set d := Real.sqrt ((b - a) ^ 2 + ((b - a) / Real.tan angle) ^ 2) with hd
  have hd0 : 0 ≤ d := Real.sqrt_nonneg _
  have he : r.elapsed = (-v0 + Real.sqrt (v0 ^ 2 + 2 * ax * d)) / ax := by
    simp only [r, transitionClimb, abs_of_nonneg hv, ← hd]
  have hs := Real.sq_sqrt (show 0 ≤ v0 ^ 2 + 2 * ax * d by positivity)
  refine ⟨?_, ?_, ?_, spans_ramp _ a b rfl rfl⟩
  · rw [he]
    have hne := hax.ne'
    field_simp
    linear_combination hs
  · simp only [r, transitionClimb, abs_of_nonneg hv]
  · rw [he]
    refine div_nonneg ?_ hax.le
    have : v0 ≤ Real.sqrt (v0 ^ 2 + 2 * ax * d) := Real.le_sqrt_of_sq_le (by nlinarith)
    linarith

/-- C68 fails for the climb-out when its initial airspeed is given as a number: for every climb
angle strictly between level and vertical, every acceleration and both altitudes, the airspeed at
the first control point is the cosine of the angle times the requested one, and the aircraft moves
horizontally there. -/
theorem C68_counterexample (v0 ax angle T0 Tf a b t0 : ℝ) (hv : 0 < v0) (h0 : 0 < angle) (h1 : angle < Real.pi / 2) :
    let r := transitionClimb (chebNode n) v0 ax angle T0 Tf a b t0
    r.p.vz 0 = 0 ∧ r.p.vx 0 = v0 * Real.cos angle ∧ r.p.vx 0 ^ 2 + r.p.vz 0 ^ 2 ≠ v0 ^ 2 := by
  intro r
  have hz : r.p.vz 0 = 0 := by simp [r, transitionClimb, cheb_zero]
  have hx : r.p.vx 0 = v0 * Real.cos angle := by simp [r, transitionClimb, cheb_zero]
  refine ⟨hz, hx, ?_⟩
  rw [hz, hx]
  have hsin := Real.sin_pos_of_pos_of_lt_pi h0 (by linarith [Real.pi_pos])
  have hc := Real.sin_sq_add_cos_sq angle
  intro h
  have : v0 ^ 2 * Real.sin angle ^ 2 = 0 := by linear_combination v0 ^ 2 * hc - h
  have : 0 < v0 ^ 2 * Real.sin angle ^ 2 := by positivity
  linarith

/-! ### C69 -/

/-- C69 when the segment's time starts at zero (first evaluation): the body angle goes from the
requested start to the requested end at the requested rate. -/
theorem C69_pitch_partial (T0 Tf rate v0 vf ax alt : ℝ) (hr : rate ≠ 0) (hd : (vf - v0) / ax ≠ 0) :
    (∀ q : Col n × Col n, q = pitchRate (chebNode n) T0 Tf rate 0 →
      q.2 0 = T0 ∧ fin q.2 = Tf ∧ ∀ i j, q.2 i - q.2 j = rate * (q.1 i - q.1 j)) ∧
    (∀ q : Level n × Col n, q = transitionLevel (chebNode n) v0 vf ax T0 Tf alt 0 →
      q.2 0 = T0 ∧ fin q.2 = Tf) := by
  constructor
  · rintro q rfl
    refine ⟨by simp [pitchRate, rampTo, cheb_zero], ?_, fun i j => by simp only [pitchRate]; ring⟩
    simp [pitchRate, rampTo, cheb_last, fin]; field_simp; ring
  · rintro q rfl
    by_cases h : Tf > T0 <;> refine ⟨?_, ?_⟩
    · simp [transitionLevel, rampTo, cheb_zero, h]
    · simp only [transitionLevel, rampTo, cheb_last, fin, if_pos h]
      have : 1 * ((vf - v0) / ax + 0 - 0) + 0 = (vf - v0) / ax := by ring
      rw [this, show (vf - v0) / ax + 0 - 0 = (vf - v0) / ax by ring, mul_comm, mul_div_assoc, div_self hd]; ring
    · simp [transitionLevel, rampTo, cheb_zero, h]
    · simp only [transitionLevel, rampTo, cheb_last, fin, if_neg h]
      have : 1 * ((vf - v0) / ax + 0 - 0) + 0 = (vf - v0) / ax := by ring
      rw [this, show (vf - v0) / ax + 0 - 0 = (vf - v0) / ax by ring, mul_comm, mul_div_assoc, div_self hd]; ring

/-- C69 for the climb-out holds whatever the initial time. -/
theorem C69_climbout_partial (v0 ax angle T0 Tf a b t0 : ℝ) :
    let r := transitionClimb (chebNode n) v0 ax angle T0 Tf a b t0
    r.elapsed ≠ 0 → r.pitch 0 = T0 ∧ fin r.pitch = Tf := by
  intro r he
  have ht : ∀ i, r.time i = chebNode n i * r.elapsed := fun i => by simp only [r, transitionClimb]; ring
  have hp : ∀ i, r.pitch i = r.time i * (Tf - T0) / r.elapsed + T0 := fun i => by
    simp only [r, transitionClimb]; ring_nf
  rw [fin, hp, hp, ht, ht, cheb_zero, cheb_last]
  constructor
  · ring
  · field_simp; ring

/-- C69 fails when the segment does not start at time zero: the whole history of the body angle is
off by the rate times the start time. -/
theorem C69_counterexample (T0 Tf rate t0 : ℝ) (hr : rate ≠ 0) (ht : t0 ≠ 0) :
    let q := pitchRate (chebNode n) T0 Tf rate t0
    q.2 0 = T0 + rate * t0 ∧ fin q.2 = Tf + rate * t0 ∧ q.2 0 ≠ T0 ∧ fin q.2 ≠ Tf := by
  intro q
  have h0 : q.2 0 = T0 + rate * t0 := by simp [q, pitchRate, rampTo, cheb_zero]; ring
  have h1 : fin q.2 = Tf + rate * t0 := by simp [q, pitchRate, rampTo, cheb_last, fin]; field_simp; ring
  have : rate * t0 ≠ 0 := mul_ne_zero hr ht
  exact ⟨h0, h1, by rw [h0]; simpa using this, by rw [h1]; simpa using this⟩

/-! ### C70 -/

/-- Newton's second law along one axis. -/
def Newton (F m a : ℝ) : Prop := F = m * a

/-- C70: the residuals vanish exactly when the force balance holds. -/
theorem C70_residuals (F a : Fin 3 → ℝ) (m ax : ℝ) (hm : 0 < m) :
    (climbResidual F a m = (0, 0) ↔ Newton (F 0) m (a 0) ∧ Newton (F 2) m (a 2)) ∧
    (cruiseResidual F m = (0, 0) ↔ ∀ i, Newton (F i) m 0) ∧
    (hoverResidual F = 0 ↔ Newton (F 2) m 0) ∧
    (accelerateResidual F ax m = (0, 0) ↔ Newton (F 0) m ax ∧ Newton (F 2) m 0) := by
  have hne := hm.ne'
  have key : ∀ f b : ℝ, f / m - b = 0 ↔ Newton f m b := fun f b => by
    rw [Newton, sub_eq_zero, div_eq_iff hne, mul_comm]
  refine ⟨?_, ?_, ?_, ?_⟩
  · simp only [climbResidual, Prod.mk.injEq, key]
  · simp only [cruiseResidual, Prod.mk.injEq, div_eq_zero_iff, hne, or_false, Newton, mul_zero]
    rw [Real.sqrt_eq_zero (by positivity), Fin.forall_fin_succ, Fin.forall_fin_two]
    constructor
    · rintro ⟨h, h2⟩
      have h0 : F 0 ^ 2 = 0 := by nlinarith [sq_nonneg (F 0), sq_nonneg (F 1)]
      have h1 : F 1 ^ 2 = 0 := by nlinarith [sq_nonneg (F 0), sq_nonneg (F 1)]
      exact ⟨by simpa using h0, by simpa using h1, h2⟩
    · rintro ⟨h0, h1, h2⟩
      have h1' : F 1 = 0 := h1
      exact ⟨by rw [h0, h1']; ring, h2⟩
  · simp [hoverResidual, Newton]
  · simp only [accelerateResidual, Prod.mk.injEq, key]
    rw [show (F 2 / m = 0 ↔ Newton (F 2) m 0) by simpa using key (F 2) 0]

/-- C70 for the pitch-rate segment, whose vertical residual compares a force with an acceleration:
right because the segment flies at constant altitude, where the vertical acceleration is zero. -/
theorem C70_pitch (F a : Fin 3 → ℝ) (m : ℝ) (hm : 0 < m) (ha : a 2 = 0) :
    pitchRateResidual F a m = (0, 0) ↔ Newton (F 0) m (a 0) ∧ Newton (F 2) m (a 2) := by
  simp only [pitchRateResidual, Prod.mk.injEq, Newton, ha, mul_zero, sub_zero, sub_eq_zero, div_eq_iff hm.ne', mul_comm]

example : climbResidual (fun i => if i = 0 then 6 else 0) (fun i => if i = 0 then 3 else 0) 2 = (0, 0) := by
  norm_num [climbResidual, Fin.ext_iff]

/-! ### C71 -/

/-- All control points are sampled at most `dt` apart. -/
def Sampled (time : Col n) (dt : ℝ) : Prop := ∀ i : Fin (n + 1), time i.succ - time i.castSucc ≤ dt

/-- Collocation integrates constants exactly on every grid of distinct points starting at 0. -/
theorem integrate_const' {x : Col n} (hx : Function.Injective x) (h0 : x 0 = 0) {I : Matrix (Fin (n + 2)) (Fin (n + 2)) ℝ}
    (hI : specI n x = some I) (c : ℝ) (i : Fin (n + 2)) : I.mulVec (fun _ => c) i = c * x i := by
  have h := C26_integrate_derivative n x (fun j => c * x j) I hI i
  have e : (specD n x).mulVec (fun j => c * x j) = fun _ => c := by
    funext j
    have := C25_identity n x hx j
    have e2 : (fun j => c * x j) = c • x := rfl
    rw [e2, Matrix.mulVec_smul, Pi.smul_apply, this, smul_eq_mul, mul_one]
  rw [e, h0, mul_zero, sub_zero] at h
  exact h

/-- The times of a segment of constant vertical speed on any grid from 0 to 1. -/
theorem timed_const' {x : Col n} (hx : Function.Injective x) (h0 : x 0 = 0) (h1 : x (Fin.last (n + 1)) = 1)
    {I : Matrix (Fin (n + 2)) (Fin (n + 2)) ℝ} (hI : specI n x = some I) (p : Prof n) (a b w t0 : ℝ)
    (hz : p.z = fun i => -ramp x a b i) (hv : ∀ i, p.vz i = w) (i : Fin (n + 2)) :
    p.timed x I t0 i = t0 + x i * ((a - b) / w) := by
  have : p.vz = fun _ => w := funext hv
  simp only [Prof.timed, altitudeTime, hz, this, fin, ramp, h0, h1]
  have h := integrate_const' hx h0 hI ((-(1 * (b - a) + a) - -(0 * (b - a) + a)) * (1 / w)) (Fin.last (n + 1))
  rw [h1, mul_one] at h
  simp only [Matrix.mulVec, dotProduct] at h
  simp only [mul_assoc] at h ⊢
  rw [h]; ring

/-- C71, descent: with the number of control points the segment computes for itself, equally
spaced, the approach is sampled at least every half second. -/
theorem C71_descent_partial (v angle altf t0 : ℝ) (hv : 0 < v) (h0 : 0 < angle) (h1 : angle < Real.pi / 2)
    (hn : ((n + 2 : ℕ) : ℤ) = noiseDescentPoints v angle)
    {I : Matrix (Fin (n + 2)) (Fin (n + 2)) ℝ} (hI : specI n (linNode n) = some I) :
    Sampled ((noiseDescent (linNode n) v angle altf).timed (linNode n) I t0) (1 / 2) := by
  obtain ⟨hinj, hz0, hz1⟩ := (C25_nodes n).2
  have hsin := Real.sin_pos_of_pos_of_lt_pi h0 (by linarith [Real.pi_pos])
  have hcos := Real.cos_pos_of_mem_Ioo ⟨by linarith, h1⟩
  set a := 2000 * Real.tan angle + altf + 2000 * Real.tan angle with ha
  have ht := timed_const' hinj hz0 hz1 hI (noiseDescent (linNode n) v angle altf) a altf (-v * Real.sin (-angle)) t0
    rfl (fun _ => rfl)
  have hd : (a - altf) / (-v * Real.sin (-angle)) = 4000 / (v * Real.cos angle) := by
    rw [ha, Real.tan_eq_sin_div_cos, Real.sin_neg]
    field_simp; ring
  intro i
  rw [ht, ht, hd]
  have hlin : linNode n i.succ - linNode n i.castSucc = 1 / (n + 1) := by
    simp only [linNode, Fin.val_succ, Fin.val_castSucc]; push_cast; field_simp; ring
  have hle : 4000 / (v * Real.cos angle) / (1 / 2) + 1 ≤ ((n + 2 : ℕ) : ℝ) := by
    have := Int.le_ceil (4000 / (v * Real.cos angle) / (1 / 2) + 1)
    rw [noiseDescentPoints] at hn
    rw [← hn] at this
    exact_mod_cast this
  push_cast at hle
  have hpos : (0 : ℝ) < n + 1 := by positivity
  have e : t0 + linNode n i.succ * (4000 / (v * Real.cos angle)) - (t0 + linNode n i.castSucc * (4000 / (v * Real.cos angle)))
      = (1 / (n + 1)) * (4000 / (v * Real.cos angle)) := by rw [← hlin]; ring
  rw [e, one_div_mul_eq_div, div_le_iff₀ hpos]
  linarith

/-- C71 fails for the climb whatever the number of control points and wherever they lie: the
segment lasts as many half seconds as it has control points, one more than there are intervals. -/
theorem C71_climb_counterexample (v angle alt0 t0 : ℝ) (hv : 0 < v) (h0 : 0 < angle) (h1 : angle < Real.pi / 2)
    {I : Matrix (Fin (n + 2)) (Fin (n + 2)) ℝ} (hI : specI n (chebNode n) = some I) :
    ¬ Sampled ((noiseClimb (chebNode n) v angle alt0).timed (chebNode n) I t0) (1 / 2) := by
  intro hs
  have hsin := Real.sin_pos_of_pos_of_lt_pi h0 (by linarith [Real.pi_pos])
  set T := (noiseClimb (chebNode n) v angle alt0).timed (chebNode n) I t0 with hT
  have hb : ∀ k : Nat, ∀ hk : k < n + 2, T ⟨k, hk⟩ ≤ T 0 + k * (1 / 2) := by
    intro k
    induction k with
    | zero => intro _; simp
    | succ k ih =>
      intro hk
      have h := hs ⟨k, by omega⟩
      have h2 := ih (by omega)
      have e1 : (⟨k, by omega⟩ : Fin (n + 1)).succ = ⟨k + 1, hk⟩ := rfl
      have e2 : (⟨k, by omega⟩ : Fin (n + 1)).castSucc = ⟨k, by omega⟩ := rfl
      rw [e1, e2] at h
      push_cast
      linarith
  have hl := hb (n + 1) (by omega)
  have hdur := duration_const hI (noiseClimb (chebNode n) v angle alt0) alt0
    (alt0 + v * Real.sin angle * (1 / 2) * (n + 2)) (-v * Real.sin angle) t0 rfl (fun _ => rfl)
  have hd : (alt0 - (alt0 + v * Real.sin angle * (1 / 2) * (n + 2))) / (-v * Real.sin angle) = (n + 2) / 2 := by
    field_simp; ring
  have e3 : fin T = T ⟨n + 1, by omega⟩ := rfl
  rw [hd, ← hT, e3] at hdur
  push_cast at hl
  linarith [hdur.2]

/-! ### C72 -/

/-- C72: while the wheels carry load, the ground force balances weight and lift and the friction
opposes the motion. -/
theorem C72_ground_partial (W L mu : ℝ) (hmu : 0 ≤ mu) (h : 0 ≤ W + L) :
    W + L + (groundForces W L mu).1 = 0 ∧ (groundForces W L mu).2 ≤ 0 ∧
    |(groundForces W L mu).2| = mu * |(groundForces W L mu).1| := by
  refine ⟨by simp [groundForces], ?_, ?_⟩
  · simp only [groundForces]; nlinarith
  · simp only [groundForces]; rw [abs_mul, abs_of_nonneg hmu, mul_comm]

/-- Once lift exceeds weight the "friction" pushes the aircraft forward and the ground pulls it
down, for every positive friction coefficient. -/
theorem C72_counterexample (W L mu : ℝ) (hmu : 0 < mu) (h : W + L < 0) :
    0 < (groundForces W L mu).2 ∧ 0 < (groundForces W L mu).1 := by
  simp only [groundForces]
  constructor <;> nlinarith

example : (groundForces 1000 (-1200) (1 / 20)).2 = 10 := by norm_num [groundForces]

end Verif.Mission
