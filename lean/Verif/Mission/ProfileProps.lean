import Verif.Mission.Profile
import Verif.Mission.ChainProps
/-
C64-C71: what the segments' prescribed motions deliver.
-/

namespace Verif.Mission

open Verif.Num Polynomial

variable {n : Nat}

/-! ### Specification vocabulary -/

/-- The segment runs from altitude `a` to altitude `b`, stays between them, and its vertical
position is minus the altitude. -/
structure Spans (p : Prof n) (a b : ℝ) : Prop where
  start : p.alt 0 = a
  final : fin p.alt = b
  between : ∀ i, min a b ≤ p.alt i ∧ p.alt i ≤ max a b
  z : ∀ i, p.z i = -p.alt i

/-- The airspeed at every control point. -/
def HasSpeed (p : Prof n) (v : Col n) : Prop := ∀ i, p.vx i ^ 2 + p.vz i ^ 2 = v i ^ 2

/-- The climb rate at every control point. -/
def HasRate (p : Prof n) (r : ℝ) : Prop := ∀ i, -p.vz i = r

/-- The recorded altitude is the starting altitude plus the time integral of the recorded climb
speed; `time` is the time column. -/
def Consistent (alt vz time : Col n) (I : Matrix (Fin (n + 2)) (Fin (n + 2)) ℝ) : Prop :=
  ∀ i, alt i = alt 0 + (timeIntegrate I time).mulVec (fun j => -vz j) i

/-! ### Lemmas -/

theorem cheb_zero (n : Nat) : chebNode n 0 = 0 := (C25_nodes n).1.2.1
theorem cheb_last (n : Nat) : chebNode n (Fin.last (n + 1)) = 1 := (C25_nodes n).1.2.2

theorem cheb_mem (n : Nat) (i : Fin (n + 2)) : 0 ≤ chebNode n i ∧ chebNode n i ≤ 1 := by
  have h := (C25_nodes_increasing n).1.monotone
  exact ⟨(cheb_zero n).symm ▸ h (Fin.zero_le i), (cheb_last n) ▸ h (Fin.le_last i)⟩

/-- The integration matrix is exact on constants. -/
theorem integrate_const {I : Matrix (Fin (n + 2)) (Fin (n + 2)) ℝ} (hI : specI n (chebNode n) = some I) (c : ℝ) (i : Fin (n + 2)) :
    I.mulVec (fun _ => c) i = c * chebNode n i := by
  have h := C26_exact_integral n I hI (C c * X) (lt_of_le_of_lt (degree_C_mul_X_le c) (by norm_cast; omega)) i
  simpa using h

theorem integrate_last {I : Matrix (Fin (n + 2)) (Fin (n + 2)) ℝ} (hI : specI n (chebNode n) = some I) (c : ℝ) :
    ∑ j, I (Fin.last (n + 1)) j * c = c := by
  have h := integrate_const hI c (Fin.last (n + 1))
  rw [cheb_last, mul_one] at h
  simpa [Matrix.mulVec, dotProduct] using h

theorem spans_ramp (p : Prof n) (a b : ℝ) (ha : p.alt = ramp (chebNode n) a b) (hz : p.z = fun i => -ramp (chebNode n) a b i) :
    Spans p a b := by
  refine ⟨by rw [ha]; simp [ramp, cheb_zero], by rw [ha]; simp [fin, ramp, cheb_last], fun i => ?_, fun i => by rw [hz, ha]⟩
  obtain ⟨h0, h1⟩ := cheb_mem n i
  rw [ha]; simp only [ramp]
  rcases le_total a b with h | h
  · rw [min_eq_left h, max_eq_right h]; constructor <;> nlinarith
  · rw [min_eq_right h, max_eq_left h]; constructor <;> nlinarith

theorem rateProfile_speed (t vmag : Col n) (vz a b : ℝ) (h : ∀ i, vz ^ 2 ≤ vmag i ^ 2) : HasSpeed (rateProfile t vmag vz a b) vmag := by
  intro i
  simp only [rateProfile]
  rw [Real.sq_sqrt (by linarith [h i])]; ring

/-- The time column of a profile with constant vertical speed. -/
theorem timed_const {I : Matrix (Fin (n + 2)) (Fin (n + 2)) ℝ} (hI : specI n (chebNode n) = some I) (p : Prof n) (a b w t0 : ℝ)
    (hz : p.z = fun i => -ramp (chebNode n) a b i) (hv : ∀ i, p.vz i = w) (i : Fin (n + 2)) :
    p.timed (chebNode n) I t0 i = t0 + chebNode n i * ((a - b) / w) := by
  have : p.vz = fun _ => w := funext hv
  simp only [Prof.timed, altitudeTime, hz, this, fin, ramp, cheb_zero, cheb_last]
  have h := integrate_last hI ((-(1 * (b - a) + a) - -(0 * (b - a) + a)) * (1 / w))
  simp only [mul_assoc] at h ⊢
  rw [h]; ring

/-- What the constant-rate and constant-angle segments have in common. -/
theorem duration_const {I : Matrix (Fin (n + 2)) (Fin (n + 2)) ℝ} (hI : specI n (chebNode n) = some I) (p : Prof n) (a b w t0 : ℝ)
    (hz : p.z = fun i => -ramp (chebNode n) a b i) (hv : ∀ i, p.vz i = w) :
    p.timed (chebNode n) I t0 0 = t0 ∧ fin (p.timed (chebNode n) I t0) - p.timed (chebNode n) I t0 0 = (a - b) / w := by
  have h := timed_const hI p a b w t0 hz hv
  rw [fin, h, h, cheb_zero, cheb_last]
  constructor <;> ring

theorem consistent_const {I : Matrix (Fin (n + 2)) (Fin (n + 2)) ℝ} (hI : specI n (chebNode n) = some I) (p : Prof n) (a b w t0 : ℝ)
    (ha : p.alt = ramp (chebNode n) a b) (hz : p.z = fun i => -ramp (chebNode n) a b i) (hv : ∀ i, p.vz i = w) (hw : w ≠ 0) :
    Consistent p.alt p.vz (p.timed (chebNode n) I t0) I := by
  intro i
  have : (fun j => -p.vz j) = fun _ => -w := funext fun j => by rw [hv]
  rw [timeIntegrate, (duration_const hI p a b w t0 hz hv).2, this, Matrix.smul_mulVec, Pi.smul_apply, integrate_const hI, ha]
  simp only [ramp, cheb_zero, smul_eq_mul]
  field_simp; ring

/-! ### C64 -/

/-- The climb segments at a constant rate (any speed schedule) and their requested speeds. -/
theorem C64_climb (v v0 vf mach m0 mf eas rate a b : ℝ) (snd rho : ℝ → ℝ) (hrho : ∀ h, 0 < rho h) :
    let t := chebNode n
    (rate ^ 2 ≤ v ^ 2 → Spans (climbSpeedRate t v rate a b) a b ∧ HasRate (climbSpeedRate t v rate a b) rate ∧
      HasSpeed (climbSpeedRate t v rate a b) fun _ => v) ∧
    ((∀ i, rate ^ 2 ≤ ((vf - v0) * t i + v0) ^ 2) →
      Spans (climbLinearSpeed t v0 vf rate a b) a b ∧ HasRate (climbLinearSpeed t v0 vf rate a b) rate ∧
      HasSpeed (climbLinearSpeed t v0 vf rate a b) (ramp t v0 vf)) ∧
    ((∀ h, rate ^ 2 ≤ (mach * snd h) ^ 2) →
      Spans (climbMach snd t mach rate a b) a b ∧ HasRate (climbMach snd t mach rate a b) rate ∧
      HasSpeed (climbMach snd t mach rate a b) (fun i => mach * snd ((climbMach snd t mach rate a b).alt i))) ∧
    ((∀ i, rate ^ 2 ≤ (ramp t m0 mf i * snd (ramp t a b i)) ^ 2) →
      Spans (climbLinearMach snd t m0 mf rate a b) a b ∧ HasRate (climbLinearMach snd t m0 mf rate a b) rate ∧
      HasSpeed (climbLinearMach snd t m0 mf rate a b)
        (fun i => ramp t m0 mf i * snd ((climbLinearMach snd t m0 mf rate a b).alt i))) ∧
    ((∀ h, rate ^ 2 * (rho h / rho 0) ≤ eas ^ 2) →
      Spans (climbEas rho t eas rate a b) a b ∧ HasRate (climbEas rho t eas rate a b) rate ∧
      ∀ i, rho ((climbEas rho t eas rate a b).alt i) * ((climbEas rho t eas rate a b).vx i ^ 2 + (climbEas rho t eas rate a b).vz i ^ 2)
        = rho 0 * eas ^ 2) := by
  intro t
  refine ⟨fun h => ⟨spans_ramp _ a b rfl rfl, fun i => neg_neg _, ?_⟩,
    fun h => ⟨spans_ramp _ a b rfl rfl, fun i => neg_neg _, ?_⟩,
    fun h => ⟨spans_ramp _ a b rfl rfl, fun i => neg_neg _, ?_⟩,
    fun h => ⟨spans_ramp _ a b rfl rfl, fun i => neg_neg _, ?_⟩,
    fun h => ⟨spans_ramp _ a b rfl rfl, fun i => neg_neg _, ?_⟩⟩
  · exact rateProfile_speed _ _ _ _ _ fun _ => by simpa using h
  · intro i
    have := rateProfile_speed t (fun i => (vf - v0) * t i + v0) (-rate) a b (fun i => by simpa using h i) i
    simp only [climbLinearSpeed]
    rw [this]; simp only [ramp]; ring
  · exact rateProfile_speed _ _ _ _ _ fun i => by simpa using h _
  · intro i
    have hr : ∀ i, ramp t m0 mf i = (mf - m0) * t i + m0 := fun i => by simp only [ramp]; ring
    have := rateProfile_speed t (fun i => ((mf - m0) * t i + m0) * snd (ramp t a b i)) (-rate) a b
      (fun i => by rw [← hr]; simpa using h i) i
    simp only [climbLinearMach]
    rw [this]; simp only [rateProfile]; rw [hr]
  · intro i
    set r := rho (ramp t a b i) / rho 0 with hrr
    have hr : 0 < r := div_pos (hrho _) (hrho _)
    have hle : (-rate) ^ 2 ≤ (eas / Real.sqrt r) ^ 2 := by
      rw [div_pow, Real.sq_sqrt hr.le, le_div_iff₀ hr, neg_sq]
      exact h _
    simp only [climbEas, rateProfile, ← hrr]
    rw [Real.sq_sqrt (by linarith), div_pow, Real.sq_sqrt hr.le, hrr]
    have h0 := (hrho 0).ne'
    have h1 := (hrho (ramp t a b i)).ne'
    field_simp; ring

/-- The descent segments, with the sign of the rate reversed, and the constant-angle segments. -/
theorem C64_descent (v eas m0 mf rate angle a b : ℝ) (snd rho : ℝ → ℝ) (hrho : ∀ h, 0 < rho h) :
    let t := chebNode n
    (rate ^ 2 ≤ v ^ 2 → Spans (descentSpeedRate t v rate a b) a b ∧ HasRate (descentSpeedRate t v rate a b) (-rate) ∧
      HasSpeed (descentSpeedRate t v rate a b) fun _ => v) ∧
    ((∀ h, rate ^ 2 * (rho h / rho 0) ≤ eas ^ 2) →
      Spans (descentEas rho t eas rate a b) a b ∧ HasRate (descentEas rho t eas rate a b) (-rate) ∧
      ∀ i, rho ((descentEas rho t eas rate a b).alt i) *
        ((descentEas rho t eas rate a b).vx i ^ 2 + (descentEas rho t eas rate a b).vz i ^ 2) = rho 0 * eas ^ 2) ∧
    ((∀ i, rate ^ 2 ≤ (ramp t m0 mf i * snd (ramp t a b i)) ^ 2) →
      Spans (descentLinearMach snd t m0 mf rate a b) a b ∧ HasRate (descentLinearMach snd t m0 mf rate a b) (-rate) ∧
      HasSpeed (descentLinearMach snd t m0 mf rate a b)
        (fun i => ramp t m0 mf i * snd ((descentLinearMach snd t m0 mf rate a b).alt i))) ∧
    (Spans (climbAngle t v angle a b) a b ∧ HasRate (climbAngle t v angle a b) (v * Real.sin angle) ∧
      (∀ i, (climbAngle t v angle a b).vx i = v * Real.cos angle) ∧ HasSpeed (climbAngle t v angle a b) fun _ => v) ∧
    (Spans (descentAngle t v angle a b) a b ∧ HasRate (descentAngle t v angle a b) (-(v * Real.sin angle)) ∧
      (∀ i, (descentAngle t v angle a b).vx i = v * Real.cos angle) ∧ HasSpeed (descentAngle t v angle a b) fun _ => v) := by
  intro t
  refine ⟨fun h => ⟨spans_ramp _ a b rfl rfl, fun i => rfl, ?_⟩,
    fun h => ⟨spans_ramp _ a b rfl rfl, fun i => rfl, ?_⟩,
    fun h => ⟨spans_ramp _ a b rfl rfl, fun i => rfl, ?_⟩,
    ⟨spans_ramp _ a b rfl rfl, fun i => by simp [climbAngle], fun i => rfl, ?_⟩,
    ⟨spans_ramp _ a b rfl rfl, fun i => by simp [descentAngle], fun i => by simp [descentAngle], ?_⟩⟩
  · exact rateProfile_speed _ _ _ _ _ fun _ => h
  · intro i
    set r := rho (ramp t a b i) / rho 0 with hrr
    have hr : 0 < r := div_pos (hrho _) (hrho _)
    have hle : rate ^ 2 ≤ (eas / Real.sqrt r) ^ 2 := by
      rw [div_pow, Real.sq_sqrt hr.le, le_div_iff₀ hr]
      exact h _
    simp only [descentEas, rateProfile, ← hrr]
    rw [Real.sq_sqrt (by linarith), div_pow, Real.sq_sqrt hr.le, hrr]
    have h0 := (hrho 0).ne'
    have h1 := (hrho (ramp t a b i)).ne'
    field_simp; ring
  · intro i
    have hr : ∀ i, ramp t m0 mf i = (mf - m0) * t i + m0 := fun i => by simp only [ramp]; ring
    have := rateProfile_speed t (fun i => ((mf - m0) * t i + m0) * snd (ramp t a b i)) rate a b
      (fun i => by rw [← hr]; exact h i) i
    simp only [descentLinearMach]
    rw [this]; simp only [rateProfile]; rw [hr]
  · intro i; simp only [climbAngle]
    have := Real.sin_sq_add_cos_sq angle
    linear_combination v ^ 2 * this
  · intro i; simp only [descentAngle, Real.cos_neg, Real.sin_neg]
    have := Real.sin_sq_add_cos_sq angle
    linear_combination v ^ 2 * this

/-- The segment lasts the altitude change divided by the climb rate and starts at its initial
time; any segment with constant vertical speed. -/
theorem C64_duration {I : Matrix (Fin (n + 2)) (Fin (n + 2)) ℝ} (hI : specI n (chebNode n) = some I) (vmag : Col n) (v angle rate a b t0 : ℝ) :
    let t := chebNode n
    (∀ p : Prof n, (p = rateProfile t vmag (-rate) a b) →
      p.timed t I t0 0 = t0 ∧ fin (p.timed t I t0) - p.timed t I t0 0 = (b - a) / rate) ∧
    (∀ p : Prof n, (p = rateProfile t vmag rate a b) →
      p.timed t I t0 0 = t0 ∧ fin (p.timed t I t0) - p.timed t I t0 0 = (a - b) / rate) ∧
    (∀ p : Prof n, (p = climbAngle t v angle a b) →
      p.timed t I t0 0 = t0 ∧ fin (p.timed t I t0) - p.timed t I t0 0 = (b - a) / (v * Real.sin angle)) := by
  intro t
  refine ⟨?_, ?_, ?_⟩
  · rintro p rfl
    obtain ⟨h1, h2⟩ := duration_const hI (rateProfile t vmag (-rate) a b) a b (-rate) t0 rfl (fun _ => rfl)
    exact ⟨h1, by rw [h2, div_neg, ← neg_div]; ring_nf⟩
  · rintro p rfl
    exact duration_const hI (rateProfile t vmag rate a b) a b rate t0 rfl (fun _ => rfl)
  · rintro p rfl
    obtain ⟨h1, h2⟩ := duration_const hI (climbAngle t v angle a b) a b (-v * Real.sin angle) t0 rfl (fun _ => rfl)
    exact ⟨h1, by rw [h2, neg_mul, div_neg, ← neg_div]; ring_nf⟩

/-- The constant-speed climb with given distance covers that distance, at that speed. -/
theorem C64_linear_altitude {I : Matrix (Fin (n + 2)) (Fin (n + 2)) ℝ} (hI : specI n (chebNode n) = some I)
    (v dist a b t0 : ℝ) (hv : v ≠ 0) (hd : dist ≠ 0) (hab : a ≠ b) :
    let p := climbLinear (chebNode n) v dist a b
    Spans p a b ∧ HasSpeed p (fun _ => v) ∧
    (timeIntegrate I (p.timed (chebNode n) I t0)).mulVec p.vx (Fin.last (n + 1)) = dist := by
  intro p
  refine ⟨spans_ramp _ a b rfl rfl, fun i => ?_, ?_⟩
  · simp only [p, climbLinear]
    have := Real.sin_sq_add_cos_sq (Real.arctan ((b - a) / dist))
    linear_combination v ^ 2 * this
  · set g := Real.arctan ((b - a) / dist) with hg
    have hz : p.z = fun i => -ramp (chebNode n) a b i := rfl
    have hvz : ∀ i, p.vz i = -(Real.sin g * v) := fun _ => rfl
    have hc : Real.cos g ≠ 0 := (Real.cos_arctan_pos _).ne'
    have hs : Real.sin g = (b - a) / dist * Real.cos g := by
      have := Real.tan_arctan ((b - a) / dist)
      rw [← hg, Real.tan_eq_sin_div_cos, div_eq_iff hc] at this
      exact this
    have hba : b - a ≠ 0 := sub_ne_zero.2 (Ne.symm hab)
    have hvx : p.vx = fun _ => Real.cos g * v := rfl
    rw [timeIntegrate, (duration_const hI p a b _ t0 hz hvz).2, hvx, Matrix.smul_mulVec, Pi.smul_apply, integrate_const hI,
      cheb_last, smul_eq_mul, hs]
    field_simp; ring

/-- Non-trivial instances: 200 m/s at 5 m/s climb from 1000 m to 3000 m takes 400 s. -/
example : HasSpeed (climbSpeedRate (chebNode 14) 200 5 1000 3000) (fun _ => 200) ∧
    ∃ I, specI 14 (chebNode 14) = some I ∧
      fin ((climbSpeedRate (chebNode 14) 200 5 1000 3000).timed (chebNode 14) I 7) -
        (climbSpeedRate (chebNode 14) 200 5 1000 3000).timed (chebNode 14) I 7 0 = 400 := by
  refine ⟨((C64_climb (n := 14) 200 0 0 0 0 0 0 5 1000 3000 (fun _ => 0) (fun _ => 1) (fun _ => one_pos)).1 (by norm_num)).2.2, ?_⟩
  obtain ⟨I, hI⟩ := Option.isSome_iff_exists.1 (C26_chebyshev_exists 14)
  refine ⟨I, hI, ?_⟩
  have := ((C64_duration hI (fun _ => 200) 0 0 5 1000 3000 7).1 _ rfl).2
  rw [climbSpeedRate, this]; norm_num

/-! ### C65 -/

/-- C65: for all segments of constant vertical speed the recorded altitude is the integral of the
recorded climb speed over the recorded time. -/
theorem C65_constant_partial {I : Matrix (Fin (n + 2)) (Fin (n + 2)) ℝ} (hI : specI n (chebNode n) = some I)
    (vmag : Col n) (v dist angle rate a b t0 : ℝ) (hr : rate ≠ 0) (hs : v * Real.sin angle ≠ 0) (hv : v ≠ 0) (hd : dist ≠ 0) (hab : a ≠ b) :
    (∀ p : Prof n, (p = rateProfile (chebNode n) vmag rate a b ∨ p = climbAngle (chebNode n) v angle a b ∨
        p = descentAngle (chebNode n) v angle a b ∨ p = climbLinear (chebNode n) v dist a b) →
      Consistent p.alt p.vz (p.timed (chebNode n) I t0) I) ∧
    ∀ q : Prof n × Col n, (q = hoverClimb (chebNode n) rate a b t0 ∨ q = hoverDescent (chebNode n) rate a b t0) →
      Consistent q.1.alt q.1.vz q.2 I := by
  constructor
  · rintro p (rfl | rfl | rfl | rfl)
    · exact consistent_const hI _ a b rate t0 rfl rfl (fun _ => rfl) hr
    · exact consistent_const hI _ a b (-v * Real.sin angle) t0 rfl rfl (fun _ => rfl) (by simpa using hs)
    · exact consistent_const hI _ a b (-v * Real.sin (-angle)) t0 rfl rfl (fun _ => rfl) (by simpa using hs)
    · refine consistent_const hI _ a b _ t0 rfl rfl (fun _ => rfl) (neg_ne_zero.2 (mul_ne_zero ?_ hv))
      intro h0
      have := Real.tan_arctan ((b - a) / dist)
      rw [Real.tan_eq_sin_div_cos, h0, zero_div] at this
      exact (div_ne_zero (sub_ne_zero.2 (Ne.symm hab)) hd) this.symm
  · have key : ∀ (q : Prof n × Col n) (w : ℝ), q.1.alt = ramp (chebNode n) a b → (∀ i, q.1.vz i = w) →
        (∀ i, q.2 i = t0 + chebNode n i * ((a - b) / w)) → w ≠ 0 → Consistent q.1.alt q.1.vz q.2 I := by
      intro q w ha hw ht hne i
      have : (fun j => -q.1.vz j) = fun _ => -w := funext fun j => by rw [hw]
      rw [timeIntegrate, this, Matrix.smul_mulVec, Pi.smul_apply, integrate_const hI, ha, fin, ht, ht, cheb_zero, cheb_last]
      simp only [ramp, cheb_zero, smul_eq_mul]
      field_simp; ring
    rintro q (rfl | rfl)
    · refine key _ (-rate) rfl (fun _ => rfl) (fun i => ?_) (neg_ne_zero.2 hr)
      simp only [hoverClimb]; rw [div_neg, ← neg_div]; ring
    · exact key _ rate rfl (fun _ => rfl) (fun i => rfl) hr

/-- C65 for the segments whose altitude is obtained by integration (constant throttle, optimized,
constant Mach or dynamic pressure and angle): consistent by construction, and the end altitude is
reached. -/
theorem C65_integrated_partial {I : Matrix (Fin (n + 2)) (Fin (n + 2)) ℝ} (hI : specI n (chebNode n) = some I)
    (a b : ℝ) (vz : Col n) (s : Traj n) (hne : I.mulVec (fun j => -vz j) (Fin.last (n + 1)) ≠ 0) :
    ∀ s' : Traj n, (s' = optimizedClimb (chebNode n) I a b vz s ∨ s' = throttleClimb (chebNode n) I a b (fun j => -vz j) s) →
      s'.z 0 = -a ∧ fin s'.z = -b ∧ s'.time 0 = s.time 0 ∧ Consistent (fun i => -s'.z i) vz s'.time I := by
  have h0 : ∀ f : Col n, I.mulVec f 0 = 0 := fun f => C26_first n _ f I hI
  set w := I.mulVec (fun j => -vz j) (Fin.last (n + 1)) with hw
  have hsum : ∑ j, I (Fin.last (n + 1)) j * -vz j = w := rfl
  rintro s' (rfl | rfl)
  · have ht : ∀ i, (optimizedClimb (chebNode n) I a b vz s).time i = s.time 0 + chebNode n i * ((b - a) / w) := by
      intro i
      simp only [optimizedClimb]
      split
      · rename_i hi; rw [hi, cheb_zero]; ring
      · rfl
    have hz : ∀ i, (optimizedClimb (chebNode n) I a b vz s).z i = -((b - a) / w * I.mulVec (fun j => -vz j) i + a) := by
      intro i
      simp only [optimizedClimb, Matrix.smul_mulVec, Pi.smul_apply, smul_eq_mul, ← hw]
    refine ⟨by rw [hz, h0]; simp, ?_, by rw [ht, cheb_zero]; ring, fun i => ?_⟩
    · rw [fin, hz, ← hw]; field_simp; ring
    · beta_reduce
      rw [timeIntegrate, Matrix.smul_mulVec, Pi.smul_apply, fin, ht, ht, hz, hz, cheb_zero, cheb_last, h0, smul_eq_mul]
      ring
  · have ht : ∀ i, (throttleClimb (chebNode n) I a b (fun j => -vz j) s).time i = s.time 0 + chebNode n i * ((b - a) / w) := by
      intro i
      simp only [throttleClimb, hsum]
    have hz : ∀ i, (throttleClimb (chebNode n) I a b (fun j => -vz j) s).z i = -(a + (b - a) / w * I.mulVec (fun j => -vz j) i) := by
      intro i
      simp only [throttleClimb, Matrix.smul_mulVec, Pi.smul_apply, smul_eq_mul, hsum]
    refine ⟨by rw [hz, h0]; simp, ?_, by rw [ht, cheb_zero]; ring, fun i => ?_⟩
    · rw [fin, hz, ← hw]; field_simp; ring
    · beta_reduce
      rw [timeIntegrate, Matrix.smul_mulVec, Pi.smul_apply, fin, ht, ht, hz, hz, cheb_zero, cheb_last, h0, smul_eq_mul]
      ring

theorem cheb1_mid : chebNode 1 1 = 1 / 2 := by
  have : Real.pi * 1 / 2 = Real.pi / 2 := by ring
  simp [chebNode, Real.cos_pi_div_two]

/-- The integration matrix for three control points ignores the first value and integrates the
line through the other two. -/
theorem integrate3 {I : Matrix (Fin 3) (Fin 3) ℝ} (hI : specI 1 (chebNode 1) = some I) (f : Fin 3 → ℝ) (i : Fin 3) :
    I.mulVec f i = (2 * f 1 - f 2) * chebNode 1 i + (f 2 - f 1) * chebNode 1 i ^ 2 := by
  set c := 2 * f 1 - f 2 with hc
  set d := f 2 - f 1 with hd
  have hdeg : (C c * X + C d * X ^ 2 : ℝ[X]).degree < ((1 + 2 : ℕ) : WithBot ℕ) := by
    refine lt_of_le_of_lt (degree_add_le _ _) (max_lt ?_ ?_)
    · exact lt_of_le_of_lt (degree_C_mul_X_le c) (by decide)
    · exact lt_of_le_of_lt (degree_C_mul_X_pow_le 2 d) (by decide)
  have h := C26_exact_integral 1 I hI (C c * X + C d * X ^ 2) hdeg i
  simp only [derivative_add, derivative_C_mul, derivative_X, derivative_X_pow, eval_add, eval_mul, eval_C,
    eval_X, eval_pow, mul_one, Nat.cast_ofNat] at h
  have h0 : ∀ i, I i 0 = 0 := by
    intro i
    unfold specI at hI
    split at hI
    · cases hI
      refine Fin.cases ?_ (fun i' => ?_) i
      · rfl
      · rfl
    · cases hI
  have e : I.mulVec f i = I.mulVec (fun j => c + d * (2 * chebNode 1 j ^ (2 - 1))) i := by
    simp only [Matrix.mulVec, dotProduct, Fin.sum_univ_three, h0, zero_mul, zero_add]
    have h2 : chebNode 1 2 = 1 := cheb_last 1
    rw [cheb1_mid, h2, hc, hd]
    norm_num
    ring
  rw [e]
  have h' := h
  simp at h'
  simpa using h'

/-- C65 fails for the constant-Mach climb with given distance as soon as the speed of sound
changes with altitude: half way the recorded altitude is not the integral of the recorded climb
speed. -/
theorem C65_counterexample {I : Matrix (Fin 3) (Fin 3) ℝ} (hI : specI 1 (chebNode 1) = some I) :
    let p := climbMachLinear (n := 1) (fun h => 1 + h) (chebNode 1) 1 1 0 1
    ¬ Consistent p.alt p.vz (p.timed (chebNode 1) I 0) I := by
  intro p hcon
  have h := hcon 1
  set s := Real.sin (Real.arctan ((1 - 0) / 1)) with hs
  have hspos : 0 < s := by
    have : Real.tan (Real.arctan ((1 - 0) / 1)) = (1 - 0) / 1 := Real.tan_arctan _
    rw [Real.tan_eq_sin_div_cos, div_eq_iff (Real.cos_arctan_pos _).ne'] at this
    have hc := Real.cos_arctan_pos ((1 - 0) / 1)
    rw [hs, this]; linarith
  have h2 : chebNode 1 2 = 1 := cheb_last 1
  have h0 : chebNode 1 0 = 0 := cheb_zero 1
  have hvz : ∀ i, p.vz i = -(s * (1 + chebNode 1 i)) := fun i => by
    simp only [p, climbMachLinear, ramp, ← hs]; ring
  have halt : ∀ i, p.alt i = chebNode 1 i := fun i => by simp [p, climbMachLinear, ramp]
  have hz : ∀ i, p.z i = -chebNode 1 i := fun i => by simp [p, climbMachLinear, ramp]
  have hdur : fin (p.timed (chebNode 1) I 0) - p.timed (chebNode 1) I 0 0 = 2 / 3 / s := by
    have hsum : ∑ j, I (Fin.last (1 + 1)) j * (fin p.z - p.z 0) * (1 / p.vz j) = 2 / 3 / s := by
      have hm := integrate3 hI (fun j => (fin p.z - p.z 0) * (1 / p.vz j)) 2
      have e : I.mulVec (fun j => (fin p.z - p.z 0) * (1 / p.vz j)) 2 = ∑ j, I (Fin.last (1 + 1)) j * (fin p.z - p.z 0) * (1 / p.vz j) := by
        simp only [Matrix.mulVec, dotProduct, mul_assoc]; rfl
      rw [← e, hm, fin, hz, hz, hvz, hvz]
      simp only [h2, h0, cheb1_mid, show (Fin.last (1 + 1)) = (2 : Fin 3) from rfl]
      field_simp; norm_num
    simp only [Prof.timed, altitudeTime, fin]
    simp only [fin] at hsum
    rw [hsum, h0, show chebNode 1 (Fin.last (1 + 1)) = 1 from h2]; ring
  rw [timeIntegrate, hdur, Matrix.smul_mulVec, Pi.smul_apply, integrate3 hI, halt, halt, hvz, hvz, h0, h2, cheb1_mid, smul_eq_mul] at h
  field_simp at h
  norm_num at h

end Verif.Mission
