import Verif.Physics.ConstTemp
import Verif.Physics.AtmosphereProps
/-
Property C325: the atmosphere of constant temperature.
-/

namespace Verif.Physics

open Real

/-- The loop keeps layer `i` from its lower break up to, not including, its upper break. -/
theorem select_lower (b : Breaks) (hb : b.Ok) (i : Nat) (hi : i + 1 < b.nb) (z : ℝ)
    (h : b.z i ≤ z ∧ z < b.z (i + 1)) : b.select z = b.layer i := by
  unfold Breaks.select
  have gen : ∀ m, i < m → m ≤ b.nb - 1 → (List.range m).foldl
      (fun acc k => if b.z k ≤ z ∧ z ≤ b.z (k + 1) then b.layer k else acc) (⟨0, 0, 0, 0⟩ : Layer) =
        b.layer i := by
    intro m
    induction m with
    | zero => omega
    | succ m ih =>
      intro h1 h2
      rw [List.range_succ, List.foldl_append, List.foldl_cons, List.foldl_nil]
      rcases Nat.lt_or_eq_of_le (Nat.lt_succ_iff.1 h1) with h3 | h3
      · have hle : b.z (i + 1) ≤ b.z m := by
          rcases Nat.lt_or_eq_of_le (show i + 1 ≤ m from h3) with h4 | h4
          · exact (hb.mono (i + 1) m h4 (by omega)).le
          · rw [h4]
        rw [if_neg (by rintro ⟨h4, _⟩; linarith [h.2])]
        exact ih h3 (by omega)
      · subst h3; rw [if_pos ⟨h.1, h.2.le⟩]
  exact gen _ (by omega) le_rfl

/-- **C325, the air.** At every altitude the temperature is the one asked for, the density that of an
ideal gas, and the square of the speed of sound `1.4 R T`. -/
theorem C325_air (b : Breaks) (g Rad R h T : ℝ) (hR : 0 < R) (hT : 0 < T) :
    let a := b.constTemp g Rad R h T
    a.T = T ∧ a.p = a.rho * R * T ∧ a.a ^ 2 = 1.4 * R * T := by
  intro a
  refine ⟨rfl, ?_, ?_⟩
  · show b.constPress g R T _ = b.constPress g R T _ / (R * T) * R * T
    field_simp
  · exact sq_sqrt (by positivity)

/-- **C325, hydrostatic balance.** From its lower break on, inside each layer the pressure starts at
the tabulated value and obeys the law of an isothermal atmosphere: its ratio between two altitudes is
the exponential of minus their difference over the scale height `R T / g`; it falls strictly. -/
theorem C325_layer_partial (b : Breaks) (hb : b.Ok) (g R T : ℝ) (hg : 0 < g) (hR : 0 < R) (hT : 0 < T) (i : Nat)
    (hi : i + 1 < b.nb) :
    b.constPress g R T (b.z i) = b.p i ∧
    ∀ y z, b.z i ≤ y → y < z → z < b.z (i + 1) →
      b.constPress g R T z = b.constPress g R T y * exp (-(z - y) / (R * T / g)) ∧
      b.constPress g R T z < b.constPress g R T y := by
  have hlt := hb.mono i (i + 1) (by omega) hi
  constructor
  · unfold Breaks.constPress
    rw [select_lower b hb i hi _ ⟨le_rfl, hlt⟩]
    simp [Breaks.layer]
  · intro y z hy hyz hz
    have key : b.constPress g R T z = b.constPress g R T y * exp (-(z - y) / (R * T / g)) := by
      unfold Breaks.constPress
      rw [select_lower b hb i hi z ⟨by linarith, hz⟩, select_lower b hb i hi y ⟨hy, by linarith⟩]
      rw [mul_assoc, ← exp_add]
      have e : -1 * (y - (b.layer i).z0) * g / (R * T) + -(z - y) / (R * T / g) =
          -1 * (z - (b.layer i).z0) * g / (R * T) := by field_simp; ring
      rw [e]
    refine ⟨key, ?_⟩
    have hp : 0 < b.constPress g R T y := by
      unfold Breaks.constPress
      rw [select_lower b hb i hi y ⟨hy, by linarith⟩]
      exact mul_pos (hb.ppos i (by omega)) (exp_pos _)
    rw [key]
    have : exp (-(z - y) / (R * T / g)) < 1 := by
      rw [exp_lt_one_iff]
      exact div_neg_of_neg_of_pos (by linarith) (by positivity)
    nlinarith

/-- **C325, weight of the air.** Inside each layer the pressure falls with geometric altitude by the weight of the air, under a gravity that falls with
the square of the distance from the centre of the planet. -/
theorem C325_gravity_partial (b : Breaks) (hb : b.Ok) (g Rad R h T : ℝ) (hRad : 0 < Rad) (hh : -Rad < h) (i : Nat)
    (hi : i + 1 < b.nb) (h1 : b.z i < h * Rad / (Rad + h)) (h2 : h * Rad / (Rad + h) < b.z (i + 1)) :
    HasDerivAt (fun x => (b.constTemp g Rad R x T).p) (-((b.constTemp g Rad R h T).rho * (g * (Rad / (Rad + h)) ^ 2))) h := by
  have hs : 0 < Rad + h := by linarith
  have hd : (1 : ℝ) + h / Rad ≠ 0 := by
    have : 1 + h / Rad = (Rad + h) / Rad := by field_simp
    rw [this]; positivity
  have hgeo : geopotential Rad h = h * Rad / (Rad + h) := by unfold geopotential; field_simp
  have hder : HasDerivAt (geopotential Rad) ((Rad / (Rad + h)) ^ 2) h := by
    unfold geopotential
    refine ((hasDerivAt_id h).div (((hasDerivAt_id h).div_const Rad).const_add 1) hd).congr_deriv ?_
    have : 1 + h / Rad = (Rad + h) / Rad := by field_simp
    simp only [id, this]
    field_simp
    ring
  have hev : ∀ᶠ x in nhds h, b.z i < geopotential Rad x ∧ geopotential Rad x < b.z (i + 1) :=
    (hder.continuousAt.eventually (lt_mem_nhds (hgeo ▸ h1))).and (hder.continuousAt.eventually (gt_mem_nhds (hgeo ▸ h2)))
  have hval : ∀ x, b.z i < geopotential Rad x ∧ geopotential Rad x < b.z (i + 1) →
      (b.constTemp g Rad R x T).p = b.p i * exp (-1 * (geopotential Rad x - b.z i) * g / (R * T)) := by
    rintro x ⟨hx1, hx2⟩
    have l0 : b.z 0 ≤ b.z i := by
      rcases Nat.eq_zero_or_pos i with h3 | h3
      · rw [h3]
      · exact (hb.mono 0 i h3 (by omega)).le
    have l1 : b.z (i + 1) ≤ b.z (b.nb - 1) := by
      rcases Nat.lt_or_ge (i + 1) (b.nb - 1) with h3 | h3
      · exact (hb.mono _ _ h3 (by omega)).le
      · have : i + 1 = b.nb - 1 := by omega
        rw [this]
    have hc : b.clamp (geopotential Rad x) = geopotential Rad x := by
      rw [clamp_eq b hb, max_eq_left (by linarith), min_eq_left (by linarith)]
    show b.constPress g R T (b.clamp (geopotential Rad x)) = _
    rw [hc]
    unfold Breaks.constPress
    rw [select_lower b hb i hi _ ⟨hx1.le, hx2⟩]
    rfl
  have hfun : (fun x => (b.constTemp g Rad R x T).p) =ᶠ[nhds h]
      fun x => b.p i * exp (-1 * (geopotential Rad x - b.z i) * g / (R * T)) := hev.mono hval
  refine HasDerivAt.congr_of_eventuallyEq ?_ hfun
  have hrho : (b.constTemp g Rad R h T).rho = (b.constTemp g Rad R h T).p / (R * T) := rfl
  rw [hrho, hval h ⟨hgeo ▸ h1, hgeo ▸ h2⟩]
  refine (((((((hder.sub_const (b.z i)).const_mul (-1)).mul_const g).div_const (R * T))).exp).const_mul (b.p i)).congr_deriv ?_
  ring

/-- One kilometre up is inside the lowest layer above sea level. -/
example : us76.z 1 < (1000 : ℝ) * 6371000 / (6371000 + 1000) ∧ (1000 : ℝ) * 6371000 / (6371000 + 1000) < us76.z 2 := by
  constructor <;> norm_num [us76]

/-- **C325, refuted across layers.** At 200 K the pressure at 11 km is larger than at 10 km: each layer
restarts from the pressure of the standard atmosphere. -/
theorem C325_jump_counterexample :
    us76.constPress 9.80665 287.0528742 200 10000 < us76.constPress 9.80665 287.0528742 200 11000 := by
  have h1 : us76.select 10000 = us76.layer 1 :=
    select_lower us76 us76_ok 1 (by norm_num [us76]) _ (by constructor <;> norm_num [us76])
  have h2 : us76.select 11000 = us76.layer 2 :=
    select_lower us76 us76_ok 2 (by norm_num [us76]) _ (by constructor <;> norm_num [us76])
  unfold Breaks.constPress
  rw [h1, h2]
  have e2 : (us76.layer 2).p0 * exp (-1 * (11000 - (us76.layer 2).z0) * 9.80665 / (287.0528742 * 200)) =
      22632.1 := by norm_num [Breaks.layer, us76]
  have e1 : (us76.layer 1).p0 * exp (-1 * (10000 - (us76.layer 1).z0) * 9.80665 / (287.0528742 * 200)) =
      101325 * exp (-1 * 10000 * 9.80665 / (287.0528742 * 200)) := by norm_num [Breaks.layer, us76]
  rw [e1, e2]
  have h3 : exp (-1 * 10000 * 9.80665 / (287.0528742 * 200)) ≤ exp (-(17 / 10)) := by
    rw [exp_le_exp]; norm_num
  have h4 : (5 : ℝ) < exp (17 / 10) := by
    have h5 : (1 / 10 + 1 : ℝ) ^ 17 ≤ exp (1 / 10) ^ 17 :=
      pow_le_pow_left₀ (by norm_num) (add_one_le_exp (1 / 10 : ℝ)) 17
    rw [← exp_nat_mul] at h5
    have e : ((17 : ℕ) : ℝ) * (1 / 10) = 17 / 10 := by norm_num
    rw [e] at h5
    exact lt_of_lt_of_le (by norm_num) h5
  have h6 : 101325 * exp (-(17 / 10)) < 22632.1 := by
    rw [exp_neg, ← div_eq_mul_inv, div_lt_iff₀ (exp_pos _)]
    linarith
  linarith

/-- **C325, refuted in missions.** A mission hands over its temperature deviation: the air is as warm as
the deviation, whatever the temperature of the atmosphere; without deviation, at absolute zero. -/
theorem C325_mission_counterexample (b : Breaks) (g Rad R h d : ℝ) :
    (b.missionConstTemp g Rad R h d).T = d ∧ (b.missionConstTemp g Rad R h 0).a = 0 := by
  refine ⟨rfl, ?_⟩
  show sqrt (1.4 * R * 0) = 0
  simp

/-- The table of the standard atmosphere at 288.15 K. -/
example : us76.Ok ∧ 1 + 1 < us76.nb ∧ (0 : ℝ) < 9.80665 ∧ (0 : ℝ) < 287.0528742 ∧ (0 : ℝ) < 288.15 :=
  ⟨us76_ok, by norm_num [us76], by norm_num, by norm_num, by norm_num⟩

end Verif.Physics
