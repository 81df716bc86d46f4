import Verif.Rotor.Upstream
import Verif.Energy.BatteryProps
import Mathlib.Tactic.Linarith
import Mathlib.Tactic.LinearCombination
import Mathlib.Tactic.FieldSimp

/-! Rotors behind others: grid (C359), added velocities (C360); cell cycling (C361). -/

namespace Verif.Rotor.Upstream

open Real Verif.Noise.Mic Verif.Energy

/-! ### C359 -/

/-- Distance from a centre. -/
noncomputable def dist (c p : Point) : ℝ := √((p.y - c.y) ^ 2 + (p.z - c.z) ^ 2)

theorem linspace_between {a b : ℝ} (h : a ≤ b) {n i : ℕ} (hi : i < n) : a ≤ linspace a b n i ∧ linspace a b n i ≤ b := by
  unfold linspace
  split_ifs with h1
  · exact ⟨le_rfl, h⟩
  · have hn : (1 : ℝ) < n := by exact_mod_cast (show 1 < n by omega)
    have hi' : (i : ℝ) ≤ n - 1 := by
      have : i + 1 ≤ n := hi
      have : ((i + 1 : ℕ) : ℝ) ≤ n := by exact_mod_cast this
      push_cast at this
      linarith
    have hi0 : (0 : ℝ) ≤ i := Nat.cast_nonneg i
    have hd : 0 ≤ (b - a) / ((n : ℝ) - 1) := div_nonneg (by linarith) (by linarith)
    have hd2 : (b - a) / ((n : ℝ) - 1) * ((n : ℝ) - 1) = b - a := div_mul_cancel₀ _ (by linarith)
    constructor
    · nlinarith
    · nlinarith

/-- The grid of a rotor lies on its disc as seen from the other rotor: between hub and 99 percent of the radius, or within the
radius. -/
theorem C359_disc (g : Grid) (a b : Point) (rest : List Point) :
    ∃ ps, grid g (a :: b :: rest) = some ps ∧ ∀ p ∈ ps,
      match g with
      | .radial R hub _ _ => 0 ≤ hub → hub ≤ 0.99 * R →
          hub ≤ dist ⟨b.y - a.y, b.z - a.z⟩ p ∧ dist ⟨b.y - a.y, b.z - a.z⟩ p ≤ 0.99 * R
      | .cartesian R _ _ => dist ⟨b.y - a.y, b.z - a.z⟩ p < R := by
  refine ⟨_, rfl, ?_⟩
  intro p hp
  obtain ⟨q, hq, rfl⟩ := List.mem_map.1 hp
  have hd : dist ⟨b.y - a.y, b.z - a.z⟩ ⟨q.y + (b.y - a.y), q.z + (b.z - a.z)⟩ = √(q.y ^ 2 + q.z ^ 2) := by
    simp [dist]
  cases g with
  | radial R hub Na Nr =>
    intro h0 h1
    simp only [Grid.points, List.mem_flatMap, List.mem_map, List.mem_range] at hq
    obtain ⟨i, -, j, hj, rfl⟩ := hq
    have hb := linspace_between h1 hj
    simp only [hd]
    generalize linspace hub (0.99 * R) Nr j = r at *
    have e : (r * cos (psi Na i)) ^ 2 + (r * sin (psi Na i)) ^ 2 = r ^ 2 := by
      linear_combination r ^ 2 * sin_sq_add_cos_sq (psi Na i)
    rw [e, sqrt_sq (h0.trans hb.1)]
    exact hb
  | cartesian R Ny Nz =>
    simp only [Grid.points, List.mem_filter, decide_eq_true_eq] at hq
    simp only [hd]
    exact hq.2

example : ∃ ps, grid (.radial 1 0.1 4 3) [⟨0, 0⟩, ⟨2, 1⟩] = some ps ∧ ∀ p ∈ ps, dist ⟨2 - 0, 1 - 0⟩ p ≤ 0.99 * 1 := by
  obtain ⟨ps, h1, h2⟩ := C359_disc (.radial 1 0.1 4 3) ⟨0, 0⟩ ⟨2, 1⟩ []
  exact ⟨ps, h1, fun p hp => (h2 p hp (by norm_num) (by norm_num)).2⟩

/-- The radial grid has every station once for each azimuth; the square grid keeps all its points within the radius. -/
theorem C359_all (R hub : ℝ) (Na Nr Ny Nz : ℕ) :
    (Grid.radial R hub Na Nr).points.length = Na * Nr ∧
    ∀ i < Ny, ∀ j < Nz, √(linspace (-R) R Ny i ^ 2 + linspace (-R) R Nz j ^ 2) < R →
      (⟨linspace (-R) R Ny i, linspace (-R) R Nz j⟩ : Point) ∈ (Grid.cartesian R Ny Nz).points := by
  refine ⟨by simp [Grid.points, List.length_flatMap], ?_⟩
  intro i hi j hj h
  simp only [Grid.points, List.mem_filter, decide_eq_true_eq, List.mem_flatMap, List.mem_map, List.mem_range]
  exact ⟨⟨i, hi, j, hj, rfl⟩, h⟩

/-- Azimuths divide the turn evenly, beginning at zero, without the last. -/
theorem C359_azimuth (Na i : ℕ) (h : 0 < Na) : psi Na i = 2 * π * i / Na := by
  unfold psi linspace
  rw [if_neg (by omega)]
  push_cast
  have h0 : (Na : ℝ) ≠ 0 := by positivity
  rw [add_sub_cancel_right, sub_zero, zero_add]
  ring

example : psi 4 1 = 2 * π * ((1 : ℕ) : ℝ) / ((4 : ℕ) : ℝ) := C359_azimuth 4 1 (by norm_num)

/-- A rotor with one origin raises. -/
theorem C359_single (g : Grid) (a : Point) : grid g [a] = none := rfl

/-! ### C360 -/

/-- With one control point and a wake known on the disc: the wake is taken at the radius and azimuth of the station about the
origin; in the plane of the disc the speed is kept, and what is along the blade is all radial.  Missing: several control points
(`C360_points_counterexample`) and the sense of the tangential velocity (`C360_swirl_counterexample`). -/
theorem C360_station_partial (rot V : ℝ) (hrot : rot = 1 ∨ rot = -1) (Na : ℕ) (origin : Point) (look : Point → Option Wake) (r : ℝ) (hr : 0 ≤ r)
    (j : ℕ) (k : Wake) (hk : look (station origin r (psi Na j)) = some k) :
    dist origin (station origin r (psi Na j)) = r ∧
    ∃ a, nonuniform rot [V] Na origin look r j = some a ∧ a.ua = V * k.u ∧ a.ut ^ 2 + a.ur ^ 2 = V ^ 2 * (k.v ^ 2 + k.w ^ 2) ∧
      (k.v * sin (psi Na j) = k.w * cos (psi Na j) → a.ut = 0) := by
  constructor
  · unfold dist station
    have e : (origin.y + r * cos (psi Na j) - origin.y) ^ 2 + (origin.z + r * sin (psi Na j) - origin.z) ^ 2 = r ^ 2 := by
      linear_combination r ^ 2 * sin_sq_add_cos_sq (psi Na j)
    rw [e, sqrt_sq hr]
  · refine ⟨_, by simp [nonuniform, broadcast, hk]; rfl, rfl, ?_, ?_⟩
    · have h1 := sin_sq_add_cos_sq (psi Na j)
      simp only [added]
      rcases hrot with r | r <;> rw [r] <;> linear_combination V ^ 2 * (k.v ^ 2 + k.w ^ 2) * h1
    · intro h
      simp only [added]
      linear_combination rot * V * h

example : ∃ a, nonuniform 1 [50] 4 ⟨3, 0⟩ (fun _ => some ⟨0.1, 0.2, 0.3⟩) 1 1 = some a ∧ a.ua = 50 * 0.1 := by
  obtain ⟨a, h1, h2, -⟩ := (C360_station_partial 1 50 (Or.inl rfl) 4 ⟨3, 0⟩ (fun _ => some ⟨0.1, 0.2, 0.3⟩) 1 (by norm_num) 1 ⟨0.1, 0.2, 0.3⟩ rfl).2
  exact ⟨a, h1, h2⟩

/-- The tangential velocity has the opposite sign of that of the vortex wake for a blade at the same point: air turning with the
rotor is taken as turning against it. -/
theorem C360_swirl_counterexample (rot V ψ s : ℝ) (hrot : rot = 1 ∨ rot = -1) (k : Wake) :
    (added rot V ψ k).ut = -(V * Vortex.tangential rot (π / 2 - ψ) k.v k.w) ∧
    (added rot V ψ ⟨0, -rot * s * sin ψ, rot * s * cos ψ⟩).ut = -(V * s) := by
  have h1 := sin_sq_add_cos_sq ψ
  constructor
  · unfold added Vortex.tangential
    rw [cos_pi_div_two_sub, sin_pi_div_two_sub]
    ring
  · simp only [added]
    rcases hrot with r | r <;> rw [r] <;> linear_combination -(V * s) * h1

/-- With as many control points as azimuthal stations the speeds of the control points are taken for those of the stations; with
another number the function raises. -/
theorem C360_points_counterexample :
    nonuniform 1 [10, 20] 2 ⟨0, 0⟩ (fun _ => some ⟨1, 0, 0⟩) 1 1 = some ⟨20, 0, 0⟩ ∧
    ∀ (V : List ℝ) (Na j : ℕ) (rot r : ℝ) (o : Point) (look : Point → Option Wake), V.length ≠ 1 → V.length ≠ Na →
      nonuniform rot V Na o look r j = none := by
  constructor
  · simp [nonuniform, broadcast, added]
  · intro V Na j rot r o look h1 h2
    have : broadcast V Na j = none := by
      unfold broadcast
      split
      · simp at h1
      · simp [h2]
    simp [nonuniform, this]

/-! ### C361 -/

/-- A cycled cell gives neither thrust nor mass flow; the current reported is the one asked for, positive both ways. -/
theorem C361_current {n : ℕ} (c : Cycle) (I D : Mat n) (b : BatIn n) (volts : Col n) (i : Fin (n + 2)) :
    (c.evaluate I D b volts).1.current i = (if b.discharge then c.avionicsCurrent else c.chargeCurrent) ∧
    (c.evaluate I D b volts).2.1 i = 0 ∧ (c.evaluate I D b volts).2.2 i = 0 := by
  cases hb : b.discharge <;> simp [Cycle.evaluate, Cycle.inputs, energyCalc, hb]

/-- When discharging, the energy falls by what avionics and losses take. -/
theorem C361_discharge {n : ℕ} (c : Cycle) (I D : Mat n) (b : BatIn n) (volts : Col n) (hb : b.discharge = true)
    (hc : 0 ≤ c.avionicsCurrent) (hv : ∀ i, 0 ≤ volts i) (i : Fin (n + 2)) :
    let o := (c.evaluate I D b volts).1
    o.energy i = b.energy 0 - I.mulVec (fun j => c.avionicsCurrent * volts j + o.losses j) i := by
  intro o
  have hl : ∀ j, 0 ≤ o.losses j := fun j => ((C36_soc I D (c.inputs b volts) j).2.2.2.1)
  have hin : (c.inputs b volts).energy = b.energy ∧ (c.inputs b volts).power = fun j => -(1 * c.avionicsCurrent * volts j) := by
    simp [Cycle.inputs, hb]
  have e : o.energy i = addEnergy I D (fun j => (c.inputs b volts).power j - |o.losses j|)
      ((c.inputs b volts).emax * (c.inputs b volts).eGrowth - (c.inputs b volts).energy 0) i + (c.inputs b volts).energy 0 := rfl
  rw [e, hin.1, hin.2]
  have hneg : ∀ j, ¬ (-(1 * c.avionicsCurrent * volts j) - |o.losses j| > 0) := by
    intro j
    have := mul_nonneg hc (hv j)
    have := abs_nonneg (o.losses j)
    simp only [gt_iff_lt, not_lt]
    linarith
  simp only [addEnergy, hneg, if_false]
  have e2 : (fun j => -(1 * c.avionicsCurrent * volts j) - |o.losses j|) = -(fun j => c.avionicsCurrent * volts j + o.losses j) := by
    funext j
    simp only [Pi.neg_apply]
    rw [abs_of_nonneg (hl j)]
    ring
  rw [e2, Matrix.mulVec_neg]
  simp only [Pi.neg_apply]
  ring

/-- When charging with a voltage above the losses, the energy rises by what the charger gives less the losses, up to the
capacity. -/
theorem C361_charge {n : ℕ} (c : Cycle) {I : Mat n} (hI : Verif.Num.specI n (Verif.Num.chebNode n) = some I) (T : ℝ) (hT : T ≠ 0) (b : BatIn n)
    (volts : Col n) (hb : b.discharge = false) (h0 : b.energy 0 ≤ b.emax * b.eGrowth) :
    let o := (c.evaluate (T • I) (T⁻¹ • Verif.Num.specD n (Verif.Num.chebNode n)) b volts).1
    (∀ i : Fin (n + 1), |o.losses i.succ| < c.chargeCurrent * c.chargeVoltage) → ∀ i,
      o.energy i = min (b.energy 0 + (T • I).mulVec (fun j => c.chargeCurrent * c.chargeVoltage - |o.losses j|) i) (b.emax * b.eGrowth) := by
  intro o hl i
  have hin : c.inputs b volts = { b with
      current := fun _ => -c.chargeCurrent * 1, power := fun _ => -(-c.chargeCurrent * 1) * (c.chargeVoltage * 1) * 1 } := by
    simp [Cycle.inputs, hb]
  have hp : (c.inputs b volts).power = fun _ => c.chargeCurrent * c.chargeVoltage := by
    rw [hin]
    funext j
    simp
  have h := (C36_capacity_partial hI T hT (c.inputs b volts) (by rw [hin]; exact h0) (by
    intro i
    rw [hp]
    exact sub_pos.2 (hl i))).1 i
  rw [hp] at h
  have e0 : (c.inputs b volts).energy = b.energy := by rw [hin]
  have e1 : (c.inputs b volts).emax = b.emax := by rw [hin]
  have e2 : (c.inputs b volts).eGrowth = b.eGrowth := by rw [hin]
  rw [e0, e1, e2] at h
  exact h

example : ((⟨2, 3, 4⟩ : Cycle).evaluate (n := 1) 0 0 ⟨fun _ => 0, fun _ => 0, 4, 1, 1, fun _ => 300, 10, fun _ => 5, 0, 1, 1, true⟩
    (fun _ => 3.7)).1.current 0 = 2 := by
  rw [(C361_current _ _ _ _ _ _).1]
  rfl

end Verif.Rotor.Upstream
