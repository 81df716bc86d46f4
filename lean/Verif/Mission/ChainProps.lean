import Verif.Mission.Chain
import Verif.Num.SpectralProps
import Mathlib.Analysis.Calculus.Deriv.MeanValue
import Mathlib.Analysis.Calculus.Deriv.Polynomial
import Mathlib.Topology.Algebra.Polynomial
/-! C33 (segments chain), C35 (mass), C63 (earlier results are left alone). -/

namespace Verif.Mission

open Verif.Num Polynomial

/-! ### Specification -/

/-- Two consecutive states join: the later starts where the earlier ends. -/
structure Joins {m n : Nat} (p : Traj m) (s : Traj n) : Prop where
  time : s.time 0 = fin p.time
  x : s.x 0 = fin p.x
  y : s.y 0 = fin p.y
  z : s.z 0 = fin p.z
  range : s.range 0 = fin p.range
  mass : s.mass 0 = fin p.mass
  lon : s.lon 0 = fin p.lon
  lat : s.lat 0 = fin p.lat
  energy : s.energy 0 = fin p.energy

/-- A function on states keeps the first row of every column. -/
structure KeepsStart {n : Nat} (f : Traj n → Traj n) : Prop where
  time : ∀ s, (f s).time 0 = s.time 0
  x : ∀ s, (f s).x 0 = s.x 0
  y : ∀ s, (f s).y 0 = s.y 0
  z : ∀ s, (f s).z 0 = s.z 0
  range : ∀ s, (f s).range 0 = s.range 0
  mass : ∀ s, (f s).mass 0 = s.mass 0
  lon : ∀ s, (f s).lon 0 = s.lon 0
  lat : ∀ s, (f s).lat 0 = s.lat 0
  energy : ∀ s, (f s).energy 0 = s.energy 0

/-- The segment's own physics keeps the initial values it was given. -/
def Seg.Good (g : Seg) : Prop := KeepsStart g.body ∧ KeepsStart g.finalize

/-- Consecutive entries join. -/
def AllJoin : List ((m : Nat) × Traj m) → Prop
  | [] => True
  | [_] => True
  | p :: q :: l => Joins p.2 q.2 ∧ AllJoin (q :: l)

/-! ### Helper lemmas -/

@[simp] theorem shift_zero {n : Nat} (c : Col n) (v : ℝ) : shift c v 0 = v := by simp [shift]

@[simp] theorem fin_setFin {n : Nat} (c : Col n) (v : ℝ) : fin (setFin c v) = v := by simp [fin, setFin]

theorem pin_idem {m : Nat} (a b : Option ℝ) (p : Traj m) : pinAltitude a b (pinAltitude a b p) = pinAltitude a b p := by
  unfold pinAltitude setFin
  cases a with
  | some v => simp
  | none => cases b <;> simp

theorem pin_other {m : Nat} (a b : Option ℝ) (p : Traj m) :
    (pinAltitude a b p).time = p.time ∧ (pinAltitude a b p).mass = p.mass ∧ (pinAltitude a b p).lon = p.lon ∧
    (pinAltitude a b p).lat = p.lat ∧ (pinAltitude a b p).energy = p.energy ∧ (pinAltitude a b p).x = p.x ∧
    (pinAltitude a b p).y = p.y ∧ (pinAltitude a b p).range = p.range := by
  unfold pinAltitude
  cases a with
  | some v => simp
  | none => cases b <;> simp

/-- The initial-value steps establish the join with the previous state as it is after them. -/
theorem initials_joins (g : Seg) {m : Nat} (p : Traj m) (s : Traj g.n) :
    (g.initials (some p) s).1 = some (pinAltitude g.altitude g.altitudeStart p) ∧
    Joins (pinAltitude g.altitude g.altitudeStart p) (g.initials (some p) s).2 := by
  obtain ⟨h1, h2, h3, h4, h5, h6, h7, h8⟩ := pin_other g.altitude g.altitudeStart p
  refine ⟨rfl, ?_⟩
  constructor <;>
    simp [Seg.initials, initTime, initWeights, initPosition, initPlanet, initBattery, h1, h2]

theorem joins_trans {m n : Nat} {p : Traj m} {s : Traj n} {f : Traj n → Traj n} (hf : KeepsStart f) (h : Joins p s) :
    Joins p (f s) where
  time := (hf.time s).trans h.time
  x := (hf.x s).trans h.x
  y := (hf.y s).trans h.y
  z := (hf.z s).trans h.z
  range := (hf.range s).trans h.range
  mass := (hf.mass s).trans h.mass
  lon := (hf.lon s).trans h.lon
  lat := (hf.lat s).trans h.lat
  energy := (hf.energy s).trans h.energy

theorem iterate_joins (g : Seg) (hg : g.Good) {m : Nat} (p : Traj m) (s : Traj g.n) :
    (g.iterate (some p, s)).1 = some (pinAltitude g.altitude g.altitudeStart p) ∧
    Joins (pinAltitude g.altitude g.altitudeStart p) (g.iterate (some p, s)).2 := by
  obtain ⟨h1, h2⟩ := initials_joins g p s
  exact ⟨h1, joins_trans hg.1 h2⟩

theorem iter_joins (g : Seg) (hg : g.Good) {m : Nat} (p : Traj m) (s : Traj g.n) (k : Nat) :
    (iter g.iterate (k + 1) (some p, s)).1 = some (pinAltitude g.altitude g.altitudeStart p) ∧
    Joins (pinAltitude g.altitude g.altitudeStart p) (iter g.iterate (k + 1) (some p, s)).2 := by
  induction k generalizing p s with
  | zero => exact iterate_joins g hg p s
  | succ k ih =>
    obtain ⟨h1, _⟩ := iterate_joins g hg p s
    show (iter g.iterate (k + 1) (g.iterate (some p, s))).1 = _ ∧ Joins _ (iter g.iterate (k + 1) (g.iterate (some p, s))).2
    have e : g.iterate (some p, s) = (some (pinAltitude g.altitude g.altitudeStart p), (g.iterate (some p, s)).2) := by
      rw [← h1]
    rw [e]
    have := ih (pinAltitude g.altitude g.altitudeStart p) (g.iterate (some p, s)).2
    rwa [pin_idem] at this

theorem evaluate_joins (g : Seg) (hg : g.Good) {m : Nat} (p : Traj m) :
    (g.evaluate (some p)).1 = some (pinAltitude g.altitude g.altitudeStart p) ∧
    Joins (pinAltitude g.altitude g.altitudeStart p) (g.evaluate (some p)).2 := by
  obtain ⟨h1, h2⟩ := iter_joins g hg p (g.setup (some ⟨m, p⟩)) g.extra
  exact ⟨h1, joins_trans hg.2 h2⟩

/-! ### C33 -/

/-- **C33, initial values only shift.** Setting the initial values leaves all differences
between control points of time, position, range and mass as they were. -/
theorem C33_shift (g : Seg) {m : Nat} (p : Option (Traj m)) (s : Traj g.n) (i j : Fin (g.n + 2)) :
    let s' := (g.initials p s).2
    s'.time i - s'.time j = s.time i - s.time j ∧ s'.x i - s'.x j = s.x i - s.x j ∧
    s'.y i - s'.y j = s.y i - s.y j ∧ s'.z i - s'.z j = s.z i - s.z j ∧
    s'.range i - s'.range j = s.range i - s.range j ∧ s'.mass i - s'.mass j = s.mass i - s.mass j := by
  intro s'
  cases p with
  | some p =>
    refine ⟨?_, ?_, ?_, ?_, ?_, ?_⟩ <;>
      simp [s', Seg.initials, initTime, initWeights, initPosition, initPlanet, initBattery, shift]
  | none =>
    refine ⟨?_, ?_, ?_, ?_, ?_, ?_⟩ <;>
      simp [s', Seg.initials, initTime, initWeights, initPosition, initPlanet, initBattery, shift]

/-- The first segment starts at the take-off mass. -/
theorem C33_first (g : Seg) (s : Traj g.n) : (g.initials (m := 0) none s).2.mass 0 = g.takeoff := by
  simp [Seg.initials, initTime, initWeights, initPosition, initPlanet, initBattery]

theorem joins_pin {k m : Nat} (a b : Option ℝ) (r : Traj k) (p : Traj m) (h : Joins r p) : Joins r (pinAltitude a b p) := by
  obtain ⟨h1, h2, h3, h4, h5, h6, h7, h8⟩ := pin_other a b p
  have hp : ∀ v, setFin p.z v 0 = p.z 0 := by
    intro v
    unfold setFin
    rw [Function.update_of_ne]
    exact Fin.ne_of_lt (Fin.last_pos)
  have hz : (pinAltitude a b p).z 0 = p.z 0 := by
    unfold pinAltitude
    cases a with
    | some v => exact hp (-v)
    | none => cases b with
      | some v => exact hp (-v)
      | none => rfl
  constructor
  · rw [h1]; exact h.time
  · rw [h6]; exact h.x
  · rw [h7]; exact h.y
  · rw [hz]; exact h.z
  · rw [h8]; exact h.range
  · rw [h2]; exact h.mass
  · rw [h3]; exact h.lon
  · rw [h4]; exact h.lat
  · rw [h5]; exact h.energy

theorem continue_joins {m : Nat} (p : Traj m) (gs : List Seg) (hg : ∀ g ∈ gs, g.Good) :
    ∃ q : Traj m, ∃ l, continueMission p gs = ⟨m, q⟩ :: l ∧
      (∀ {k : Nat} (r : Traj k), Joins r p → Joins r q) ∧ AllJoin (⟨m, q⟩ :: l) := by
  induction gs generalizing m p with
  | nil => exact ⟨p, [], rfl, fun r h => h, trivial⟩
  | cons g gs ih =>
    obtain ⟨h1, h2⟩ := evaluate_joins g (hg g (by simp)) p
    obtain ⟨q, l, hq, hjoin, hall⟩ := ih (g.evaluate (some p)).2 (fun g' h => hg g' (by simp [h]))
    refine ⟨pinAltitude g.altitude g.altitudeStart p, ⟨g.n, q⟩ :: l, ?_, fun r h => joins_pin _ _ r p h, ?_⟩
    · simp only [continueMission, h1, Option.getD_some, hq]
    · exact ⟨hjoin _ h2, hall⟩

/-- **C33.** In a mission of any number of segments, however often each is iterated, every
segment starts at the time, position, range, mass, longitude, latitude and battery energy at
which the one before it ends. -/
theorem C33_chain (gs : List Seg) (hg : ∀ g ∈ gs, g.Good) : AllJoin (runMission gs) := by
  cases gs with
  | nil => trivial
  | cons g gs =>
    obtain ⟨q, l, hq, -, hall⟩ := continue_joins (g.evaluate (m := 0) none).2 gs (fun g' h => hg g' (by simp [h]))
    simp only [runMission, hq]
    exact hall

/-- The mission has one recorded state per segment. -/
theorem C33_length (gs : List Seg) : (runMission gs).length = gs.length := by
  have h : ∀ (gs : List Seg) {m : Nat} (p : Traj m), (continueMission p gs).length = gs.length + 1 := by
    intro gs
    induction gs with
    | nil => intro m p; rfl
    | cons g gs ih => intro m p; simp [continueMission, ih]
  cases gs with
  | nil => rfl
  | cons g gs => simp [runMission, h]

/-! The modelled physics keeps the initial values. -/

theorem keeps_comp {n : Nat} {f g : Traj n → Traj n} (hf : KeepsStart f) (hg : KeepsStart g) : KeepsStart (g ∘ f) where
  time s := (hg.time _).trans (hf.time s)
  x s := (hg.x _).trans (hf.x s)
  y s := (hg.y _).trans (hf.y s)
  z s := (hg.z _).trans (hf.z s)
  range s := (hg.range _).trans (hf.range s)
  mass s := (hg.mass _).trans (hf.mass s)
  lon s := (hg.lon _).trans (hf.lon s)
  lat s := (hg.lat _).trans (hf.lat s)
  energy s := (hg.energy _).trans (hf.energy s)

/-- An integration operator that starts from zero; the operators of C26 do, also after scaling
with the duration. -/
def ZeroStart {n : Nat} (I : Matrix (Fin (n + 2)) (Fin (n + 2)) ℝ) : Prop := ∀ v, I.mulVec v 0 = 0

theorem zeroStart_spec {n : Nat} {x : Fin (n + 2) → ℝ} {I : Matrix (Fin (n + 2)) (Fin (n + 2)) ℝ}
    (h : specI n x = some I) (T : ℝ) : ZeroStart (T • I) := by
  intro v
  rw [Matrix.smul_mulVec, Pi.smul_apply, C26_first n x v I h, smul_zero]

/-- **C33, the segment functions keep the initial values**: the climb time law, the mass
update, the horizontal integration and the planet position, for all data. -/
theorem C33_functions {n : Nat} (t : Col n) (ht : t 0 = 0) (I : Matrix (Fin (n + 2)) (Fin (n + 2)) ℝ) (hI : ZeroStart I)
    (v w : Col n) (cb sb deg : ℝ) :
    KeepsStart (altitudeTime t I v) ∧ KeepsStart (updateMass I v) ∧ KeepsStart (horizontal cb sb I v) ∧
    KeepsStart (planet deg I v w) := by
  refine ⟨?_, ?_, ?_, ?_⟩
  · constructor <;> intro s <;> simp [altitudeTime, ht]
  · constructor <;> intro s <;> simp [updateMass]
  · constructor <;> intro s <;> simp [horizontal, hI v]
  · constructor <;> intro s <;> simp [planet, hI v, hI w]

/-- The constant-throttle climb keeps time and starts at the segment's start altitude. -/
theorem C33_throttle_climb {n : Nat} (t : Col n) (ht : t 0 = 0) (I : Matrix (Fin (n + 2)) (Fin (n + 2)) ℝ) (hI : ZeroStart I)
    (alt0 altf : ℝ) (vz : Col n) (s : Traj n) :
    (throttleClimb t I alt0 altf vz s).time 0 = s.time 0 ∧ (throttleClimb t I alt0 altf vz s).z 0 = -alt0 := by
  refine ⟨by simp [throttleClimb, ht], ?_⟩
  simp only [throttleClimb]
  rw [Matrix.smul_mulVec, Pi.smul_apply, hI vz]; simp

/-- The hypotheses are met by a mission of two different segments using these functions. -/
example : ∃ gs : List Seg, gs.length = 2 ∧ ∀ g ∈ gs, g.Good := by
  obtain ⟨I, hI⟩ := Option.isSome_iff_exists.1 (C26_chebyshev_exists 1)
  have hz : ZeroStart I := by have := zeroStart_spec hI 1; rwa [one_smul] at this
  have h0 : chebNode 1 0 = 0 := (C25_nodes 1).1.2.1
  obtain ⟨a, b, c, -⟩ := C33_functions (chebNode 1) h0 I hz (fun _ => 2) (fun _ => 0) 1 0 1
  refine ⟨[⟨1, none, some 0, 1000, none, fun _ => ⟨fun _ => 0, 0, 0, fun i => -(i : ℝ), 0, 0, 0, 0, 0⟩,
      altitudeTime (chebNode 1) I (fun _ => 2), horizontal 1 0 I (fun _ => 2), 3⟩,
    ⟨1, some 5, none, 1000, none, fun _ => ⟨fun _ => 0, 0, 0, fun _ => -5, 0, 0, 0, 0, 0⟩,
      updateMass I (fun _ => 2), horizontal 1 0 I (fun _ => 2), 0⟩], rfl, ?_⟩
  intro g hg
  simp only [List.mem_cons, List.not_mem_nil, or_false] at hg
  rcases hg with rfl | rfl
  · exact ⟨a, c⟩
  · exact ⟨b, c⟩

/-- **C33, ground track.** The straight-line distance from the start of the segment is the
distance flown. -/
theorem C33_ground_track {n : Nat} (cb sb : ℝ) (hcs : cb ^ 2 + sb ^ 2 = 1) (I : Matrix (Fin (n + 2)) (Fin (n + 2)) ℝ)
    (v : Col n) (s : Traj n) (i : Fin (n + 2)) :
    let r := horizontal cb sb I v s
    (r.x i - s.x 0) ^ 2 + (r.y i - s.y 0) ^ 2 = (r.range i - s.range 0) ^ 2 := by
  intro r
  simp only [r, horizontal, add_sub_cancel_left]
  have : (I.mulVec v i * cb) ^ 2 + (I.mulVec v i * sb) ^ 2 = (I.mulVec v i) ^ 2 * (cb ^ 2 + sb ^ 2) := by ring
  rw [this, hcs, mul_one]

/-! ### C63 -/

/-- **C63 (partial).** Evaluating a segment leaves the state of the one before it as it was,
except possibly the altitude at its last control point. -/
theorem C63_earlier_partial (g : Seg) (hg : g.Good) {m : Nat} (p : Traj m) :
    ∃ q, (g.evaluate (some p)).1 = some q ∧ q.time = p.time ∧ q.mass = p.mass ∧ q.x = p.x ∧ q.y = p.y ∧
      q.range = p.range ∧ q.lon = p.lon ∧ q.lat = p.lat ∧ q.energy = p.energy ∧
      (∀ i, i ≠ Fin.last (m + 1) → q.z i = p.z i) ∧
      (g.altitude = none → g.altitudeStart = none → q = p) := by
  obtain ⟨h1, h2, h3, h4, h5, h6, h7, h8⟩ := pin_other g.altitude g.altitudeStart p
  refine ⟨_, (evaluate_joins g hg p).1, h1, h2, h6, h7, h8, h3, h4, h5, ?_, ?_⟩
  · intro i hi
    unfold pinAltitude setFin
    cases g.altitude with
    | some v => exact Function.update_of_ne hi _ _
    | none => cases g.altitudeStart with
      | some v => exact Function.update_of_ne hi _ _
      | none => rfl
  · intro e1 e2; simp [pinAltitude, e1, e2]

/-- **C63 is false of the code**: a segment flown at 5 m after one that ended at 0 m changes the
recorded final altitude of the earlier segment to 5 m (and the gap disappears from the results). -/
theorem C63_counterexample :
    ∃ (g : Seg) (p : Traj 0), g.Good ∧ fin p.z = 0 ∧ ∃ q, (g.evaluate (some p)).1 = some q ∧ fin q.z = -5 := by
  have hk : KeepsStart (fun s : Traj 0 => s) := by constructor <;> intro s <;> rfl
  refine ⟨⟨0, some 5, none, 0, none, fun _ => ⟨0, 0, 0, 0, 0, 0, 0, 0, 0⟩, fun s => s, fun s => s, 0⟩,
    ⟨0, 0, 0, 0, 0, 0, 0, 0, 0⟩, ⟨hk, hk⟩, rfl, _, (evaluate_joins _ ⟨hk, hk⟩ _).1, ?_⟩
  simp [pinAltitude]

/-! ### C35 -/

/-- **C35, mass and weight.** For every mass-flow history: the first point keeps the initial
mass, at every point the mass is the initial mass minus the integrated flow, and the weight is
mass times gravity. -/
theorem C35_mass {n : Nat} (I : Matrix (Fin (n + 2)) (Fin (n + 2)) ℝ) (hI : ZeroStart I) (mdot g : Col n) (s : Traj n)
    (i : Fin (n + 2)) :
    (updateMass I mdot s).mass 0 = s.mass 0 ∧
    (updateMass I mdot s).mass i = s.mass 0 - I.mulVec mdot i ∧
    weightZ I mdot g s i = (updateMass I mdot s).mass i * g i := by
  have hneg : I.mulVec (fun j => -mdot j) = fun j => -I.mulVec mdot j := by
    have : (fun j => -mdot j) = -mdot := rfl
    rw [this, Matrix.mulVec_neg]; rfl
  have h2 : (updateMass I mdot s).mass i = s.mass 0 - I.mulVec mdot i := by
    simp only [updateMass, hneg]
    split
    · rename_i h; rw [h, hI mdot, sub_zero]
    · ring
  refine ⟨by simp [updateMass], h2, ?_⟩
  rw [h2]
  simp only [weightZ, hneg]
  ring

/-- **C35, fuel bookkeeping.** Two fuels: when the total flow is the sum of the two, the mass
lost is the sum of the fuel masses lost (Weights.py:123-149 integrates the three separately). -/
theorem C35_two_fuels {n : Nat} (I : Matrix (Fin (n + 2)) (Fin (n + 2)) ℝ) (hI : ZeroStart I) (f a : Col n) (s sf sa : Traj n)
    (i : Fin (n + 2)) :
    s.mass 0 - (updateMass I (f + a) s).mass i =
      (sf.mass 0 - (updateMass I f sf).mass i) + (sa.mass 0 - (updateMass I a sa).mass i) := by
  rw [(C35_mass I hI (f + a) 0 s i).2.1, (C35_mass I hI f 0 sf i).2.1, (C35_mass I hI a 0 sa i).2.1, Matrix.mulVec_add,
    Pi.add_apply]
  ring

/-- **C35, exact burn.** With the Chebyshev operator of a segment of duration `T`, and a flow
that is the derivative of a polynomial of degree below the number of points, the mass burnt up
to a control point is exactly the integral of the flow. -/
theorem C35_exact (n : Nat) (I : Matrix (Fin (n + 2)) (Fin (n + 2)) ℝ) (h : specI n (chebNode n) = some I) (T : ℝ)
    (P : ℝ[X]) (hP : P.degree < (n + 2 : ℕ)) (s : Traj n) (i : Fin (n + 2)) :
    (updateMass (T • I) (fun j => P.derivative.eval (chebNode n j)) s).mass i =
      s.mass 0 - T * (P.eval (chebNode n i) - P.eval 0) := by
  rw [(C35_mass (T • I) (zeroStart_spec h T) _ 0 s i).2.1, Matrix.smul_mulVec, Pi.smul_apply,
    C26_exact_integral n I h P hP i, smul_eq_mul]

/-- **C35, mass never increases** between control points for such a flow that is non-negative
during the segment. -/
theorem C35_decreasing (n : Nat) (I : Matrix (Fin (n + 2)) (Fin (n + 2)) ℝ) (h : specI n (chebNode n) = some I) (T : ℝ)
    (hT : 0 ≤ T) (P : ℝ[X]) (hP : P.degree < (n + 2 : ℕ)) (hpos : ∀ τ, 0 < τ → τ < 1 → 0 ≤ P.derivative.eval τ) (s : Traj n)
    (i j : Fin (n + 2)) (hij : i ≤ j) :
    let s' := updateMass (T • I) (fun j => P.derivative.eval (chebNode n j)) s
    s'.mass j ≤ s'.mass i := by
  intro s'
  simp only [s', C35_exact n I h T P hP s]
  have hmono : MonotoneOn (fun τ => P.eval τ) (Set.Icc 0 1) := by
    apply monotoneOn_of_deriv_nonneg (convex_Icc 0 1)
    · exact P.continuous.continuousOn
    · exact P.differentiable.differentiableOn
    · intro τ hτ
      rw [interior_Icc] at hτ
      rw [Polynomial.deriv]
      exact hpos τ hτ.1 hτ.2
  have hsm := (C25_nodes_increasing n).1
  have hin : ∀ k, chebNode n k ∈ Set.Icc (0 : ℝ) 1 := by
    intro k
    constructor
    · rw [← (C25_nodes n).1.2.1]; exact hsm.monotone (Fin.zero_le k)
    · rw [← (C25_nodes n).1.2.2]; exact hsm.monotone (Fin.le_last k)
  have := hmono (hin i) (hin j) (hsm.monotone hij)
  have := mul_le_mul_of_nonneg_left this hT
  simp only at this
  linarith

/-- Such a flow exists: constant unit flow with three points. -/
example : ((X : ℝ[X]).degree < (1 + 2 : ℕ)) ∧ ∀ τ : ℝ, 0 < τ → τ < 1 → 0 ≤ (X : ℝ[X]).derivative.eval τ := by
  refine ⟨?_, fun τ _ _ => by simp⟩
  rw [degree_X]
  norm_num

end Verif.Mission
