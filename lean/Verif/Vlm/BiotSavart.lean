import Verif.Vlm.Horseshoe
import Mathlib.MeasureTheory.Integral.IntegralEqImproper
import Mathlib.MeasureTheory.Integral.IntervalIntegral.FundThmCalculus
import Mathlib.Analysis.SpecialFunctions.Sqrt

/-!
# The Biot-Savart law for a horseshoe vortex

Specification side of the vortex lattice: the velocity induced by a line vortex is the integral of
`dl × r / (4π |r|³)`.  The two integrals needed are evaluated here, independently of the code.
-/

namespace Verif.Vlm

open MeasureTheory Filter Topology

/-- `∫₀¹ dl / (a l² - 2 b l + c)^(3/2)`. -/
theorem segment_integral {a b c : ℝ} (ha : 0 < a) (hD : 0 < a * c - b ^ 2) :
    ∫ l in (0:ℝ)..1, 1 / Real.sqrt (a * l ^ 2 - 2 * b * l + c) ^ 3
      = ((a - b) / Real.sqrt (a - 2 * b + c) + b / Real.sqrt c) / (a * c - b ^ 2) := by
  have hQ : ∀ l : ℝ, 0 < a * l ^ 2 - 2 * b * l + c := by
    intro l
    have h : a * (a * l ^ 2 - 2 * b * l + c) = (a * l - b) ^ 2 + (a * c - b ^ 2) := by ring
    have h2 : 0 < a * (a * l ^ 2 - 2 * b * l + c) := by rw [h]; positivity
    exact (pos_iff_pos_of_mul_pos h2).1 ha
  have hd : ∀ l : ℝ, HasDerivAt
      (fun l : ℝ => (a * l - b) / Real.sqrt (a * l ^ 2 - 2 * b * l + c) / (a * c - b ^ 2))
      (1 / Real.sqrt (a * l ^ 2 - 2 * b * l + c) ^ 3) l := by
    intro l
    have hq := hQ l
    have hs : 0 < Real.sqrt (a * l ^ 2 - 2 * b * l + c) := Real.sqrt_pos.2 hq
    have h0 : HasDerivAt (fun l : ℝ => a * l ^ 2 - 2 * b * l + c) (2 * a * l - 2 * b) l := by
      have := (((hasDerivAt_pow 2 l).const_mul a).sub ((hasDerivAt_id l).const_mul (2 * b))).add_const c
      refine this.congr_deriv ?_
      simp; ring
    have h1 := h0.sqrt hq.ne'
    have h2 : HasDerivAt (fun l : ℝ => a * l - b) a l := by
      have := ((hasDerivAt_id l).const_mul a).sub_const b
      refine this.congr_deriv ?_
      simp
    refine ((h2.div h1 hs.ne').div_const (a * c - b ^ 2)).congr_deriv ?_
    have hsq : Real.sqrt (a * l ^ 2 - 2 * b * l + c) ^ 2 = a * l ^ 2 - 2 * b * l + c :=
      Real.sq_sqrt hq.le
    generalize Real.sqrt (a * l ^ 2 - 2 * b * l + c) = S at *
    have : a * S - (a * l - b) * ((2 * a * l - 2 * b) / (2 * S)) = (a * c - b ^ 2) / S := by
      field_simp
      rw [hsq]; ring
    rw [this]
    have hne := hD.ne'
    field_simp
  have hint : IntervalIntegrable (fun l : ℝ => 1 / Real.sqrt (a * l ^ 2 - 2 * b * l + c) ^ 3)
      volume 0 1 := by
    apply Continuous.intervalIntegrable
    apply Continuous.div continuous_const
    · fun_prop
    · intro l
      have := Real.sqrt_pos.2 (hQ l)
      positivity
  rw [intervalIntegral.integral_eq_sub_of_hasDerivAt (fun l _ => hd l) hint]
  have e1 : a * (1:ℝ) ^ 2 - 2 * b * 1 + c = a - 2 * b + c := by ring
  have e0 : a * (0:ℝ) ^ 2 - 2 * b * 0 + c = c := by ring
  rw [e1, e0]
  ring

/-- `∫₀^∞ dl / ((X - l)² + q)^(3/2)`. -/
theorem leg_integral {X q : ℝ} (hq : 0 < q) :
    ∫ l in Set.Ioi (0:ℝ), 1 / Real.sqrt ((X - l) ^ 2 + q) ^ 3
      = (1 + X / Real.sqrt (X ^ 2 + q)) / q := by
  have hQ : ∀ l : ℝ, 0 < (X - l) ^ 2 + q := fun l => by positivity
  have hd : ∀ l : ℝ, HasDerivAt
      (fun l : ℝ => (l - X) / Real.sqrt ((X - l) ^ 2 + q) / q)
      (1 / Real.sqrt ((X - l) ^ 2 + q) ^ 3) l := by
    intro l
    have hq' := hQ l
    have hs : 0 < Real.sqrt ((X - l) ^ 2 + q) := Real.sqrt_pos.2 hq'
    have h0 : HasDerivAt (fun l : ℝ => (X - l) ^ 2 + q) (2 * (l - X)) l := by
      have := (((hasDerivAt_id l).const_sub X).pow 2).add_const q
      refine this.congr_deriv ?_
      simp; ring
    have h1 := h0.sqrt hq'.ne'
    have h2 : HasDerivAt (fun l : ℝ => l - X) 1 l := (hasDerivAt_id l).sub_const X
    refine ((h2.div h1 hs.ne').div_const q).congr_deriv ?_
    have hsq : Real.sqrt ((X - l) ^ 2 + q) ^ 2 = (X - l) ^ 2 + q := Real.sq_sqrt hq'.le
    generalize Real.sqrt ((X - l) ^ 2 + q) = S at *
    have : 1 * S - (l - X) * (2 * (l - X) / (2 * S)) = q / S := by
      field_simp
      rw [hsq]; ring
    rw [this]
    have hne := hq.ne'
    field_simp
  have hlim : Tendsto (fun l : ℝ => (l - X) / Real.sqrt ((X - l) ^ 2 + q) / q) atTop (𝓝 (1 / q)) := by
    apply Tendsto.div_const
    have h1 : Tendsto (fun l : ℝ => 1 / Real.sqrt (1 + q * ((l - X)⁻¹) ^ 2)) atTop
        (𝓝 (1 / Real.sqrt (1 + q * (0:ℝ) ^ 2))) := by
      have hi : Tendsto (fun l : ℝ => (l - X)⁻¹) atTop (𝓝 0) :=
        tendsto_inv_atTop_zero.comp (tendsto_atTop_add_const_right _ (-X) tendsto_id)
      apply Tendsto.div tendsto_const_nhds
      · apply Tendsto.sqrt
        exact ((hi.pow 2).const_mul q).const_add 1
      · norm_num
    have h2 : (1:ℝ) / Real.sqrt (1 + q * (0:ℝ) ^ 2) = 1 := by norm_num
    rw [h2] at h1
    refine h1.congr' ?_
    filter_upwards [eventually_gt_atTop X] with l hl
    have hlX : 0 < l - X := by linarith
    have : (X - l) ^ 2 + q = (l - X) ^ 2 * (1 + q * ((l - X)⁻¹) ^ 2) := by
      field_simp
      ring
    rw [this, Real.sqrt_mul (by positivity), Real.sqrt_sq hlX.le]
    have hs : 0 < Real.sqrt (1 + q * ((l - X)⁻¹) ^ 2) := Real.sqrt_pos.2 (by positivity)
    field_simp
  rw [integral_Ioi_of_hasDerivAt_of_nonneg' (fun l _ => hd l)
    (fun l _ => by positivity) hlim]
  have e0 : (X - (0:ℝ)) ^ 2 + q = X ^ 2 + q := by ring
  rw [e0]
  ring

/-- Specification.  Velocity induced at `P` by the straight vortex running from `A` to `B` with unit
circulation: `1/(4π) ∫₀¹ d × (P - A - l d) / |P - A - l d|³ dl` with `d = B - A`. -/
noncomputable def boundVelocity (A B P : Vec3) : Vec3 :=
  let g : ℝ → Vec3 := fun l => P - A - Vec3.smul l (B - A)
  ⟨(∫ l in (0:ℝ)..1, (Vec3.cross (B - A) (g l)).x / (g l).norm ^ 3) / (4 * Real.pi),
   (∫ l in (0:ℝ)..1, (Vec3.cross (B - A) (g l)).y / (g l).norm ^ 3) / (4 * Real.pi),
   (∫ l in (0:ℝ)..1, (Vec3.cross (B - A) (g l)).z / (g l).norm ^ 3) / (4 * Real.pi)⟩

/-- The unit vector pointing aft. -/
def aft : Vec3 := ⟨1, 0, 0⟩

/-- Specification.  Velocity induced at `P` by the semi-infinite vortex leaving `B` straight aft with
unit circulation. -/
noncomputable def legVelocity (B P : Vec3) : Vec3 :=
  let g : ℝ → Vec3 := fun l => P - B - Vec3.smul l aft
  ⟨(∫ l in Set.Ioi (0:ℝ), (Vec3.cross aft (g l)).x / (g l).norm ^ 3) / (4 * Real.pi),
   (∫ l in Set.Ioi (0:ℝ), (Vec3.cross aft (g l)).y / (g l).norm ^ 3) / (4 * Real.pi),
   (∫ l in Set.Ioi (0:ℝ), (Vec3.cross aft (g l)).z / (g l).norm ^ 3) / (4 * Real.pi)⟩

/-- Specification.  The horseshoe: in along the trailing leg of `A`, across from `A` to `B`, out along
the trailing leg of `B`. -/
noncomputable def horseshoeVelocity (A B P : Vec3) : Vec3 :=
  boundVelocity A B P + legVelocity B P - legVelocity A P

/-- Closed form of the velocity of the bound vortex. -/
theorem boundVelocity_eq (A B P : Vec3)
    (ha : 0 < Vec3.dot (B - A) (B - A))
    (hD : 0 < Vec3.dot (B - A) (B - A) * Vec3.dot (P - A) (P - A) - Vec3.dot (B - A) (P - A) ^ 2) :
    boundVelocity A B P =
      Vec3.smul (((Vec3.dot (B - A) (B - A) - Vec3.dot (B - A) (P - A)) / (P - B).norm
        + Vec3.dot (B - A) (P - A) / (P - A).norm)
        / (Vec3.dot (B - A) (B - A) * Vec3.dot (P - A) (P - A) - Vec3.dot (B - A) (P - A) ^ 2)
        / (4 * Real.pi)) (Vec3.cross (B - A) (P - A)) := by
  obtain ⟨a, hadef⟩ : ∃ a, a = Vec3.dot (B - A) (B - A) := ⟨_, rfl⟩
  obtain ⟨b, hb⟩ : ∃ b, b = Vec3.dot (B - A) (P - A) := ⟨_, rfl⟩
  obtain ⟨c, hc⟩ : ∃ c, c = Vec3.dot (P - A) (P - A) := ⟨_, rfl⟩
  have hI := segment_integral (a := a) (b := b) (c := c) (hadef ▸ ha) (by rw [hadef, hb, hc]; exact hD)
  have hn : ∀ l : ℝ, (P - A - Vec3.smul l (B - A)).norm = Real.sqrt (a * l ^ 2 - 2 * b * l + c) := by
    intro l
    rw [hadef, hb, hc]
    simp only [Vec3.norm, Vec3.dot, Vec3.smul, Vec3.sub_x, Vec3.sub_y, Vec3.sub_z]
    congr 1; ring
  have hPA : (P - A).norm = Real.sqrt c := by
    rw [hc]; simp only [Vec3.norm, Vec3.dot]; congr 1; ring
  have hPB : (P - B).norm = Real.sqrt (a - 2 * b + c) := by
    rw [hadef, hb, hc]
    simp only [Vec3.norm, Vec3.dot, Vec3.sub_x, Vec3.sub_y, Vec3.sub_z]; congr 1; ring
  have hcr : ∀ l : ℝ, Vec3.cross (B - A) (P - A - Vec3.smul l (B - A)) = Vec3.cross (B - A) (P - A) := by
    intro l
    simp only [Vec3.cross, Vec3.smul, Vec3.sub_x, Vec3.sub_y, Vec3.sub_z]
    ext <;> simp only <;> ring
  unfold boundVelocity
  simp only [hn, hcr]
  rw [← hadef, ← hb, ← hc, hPA, hPB]
  have key : ∀ k : ℝ, ∫ l in (0:ℝ)..1, k / Real.sqrt (a * l ^ 2 - 2 * b * l + c) ^ 3
      = k * (((a - b) / Real.sqrt (a - 2 * b + c) + b / Real.sqrt c) / (a * c - b ^ 2)) := by
    intro k
    rw [← hI, ← intervalIntegral.integral_const_mul]
    congr 1; funext l; ring
  simp only [key, Vec3.smul]
  ext <;> simp only <;> ring

/-- Closed form of the velocity of a trailing leg. -/
theorem legVelocity_eq (B P : Vec3) (hq : 0 < (P.y - B.y) ^ 2 + (P.z - B.z) ^ 2) :
    legVelocity B P =
      Vec3.smul ((1 + (P.x - B.x) / (P - B).norm) / ((P.y - B.y) ^ 2 + (P.z - B.z) ^ 2)
        / (4 * Real.pi)) ⟨0, -(P.z - B.z), P.y - B.y⟩ := by
  obtain ⟨q, hqd⟩ : ∃ q, q = (P.y - B.y) ^ 2 + (P.z - B.z) ^ 2 := ⟨_, rfl⟩
  have hI := leg_integral (X := P.x - B.x) (hqd ▸ hq)
  have hn : ∀ l : ℝ, (P - B - Vec3.smul l aft).norm = Real.sqrt ((P.x - B.x - l) ^ 2 + q) := by
    intro l
    rw [hqd]
    simp only [Vec3.norm, Vec3.smul, aft, Vec3.sub_x, Vec3.sub_y, Vec3.sub_z]
    congr 1; ring
  have hPB : (P - B).norm = Real.sqrt ((P.x - B.x) ^ 2 + q) := by
    rw [hqd]; simp only [Vec3.norm, Vec3.sub_x, Vec3.sub_y, Vec3.sub_z]; congr 1; ring
  have hcr : ∀ l : ℝ, Vec3.cross aft (P - B - Vec3.smul l aft)
      = ⟨0, -(P.z - B.z), P.y - B.y⟩ := by
    intro l
    simp only [Vec3.cross, Vec3.smul, aft, Vec3.sub_x, Vec3.sub_y, Vec3.sub_z]
    ext <;> simp only <;> ring
  unfold legVelocity
  simp only [hn, hcr]
  rw [← hqd, hPB]
  have key : ∀ k : ℝ, ∫ l in Set.Ioi (0:ℝ), k / Real.sqrt ((P.x - B.x - l) ^ 2 + q) ^ 3
      = k * ((1 + (P.x - B.x) / Real.sqrt ((P.x - B.x) ^ 2 + q)) / q) := by
    intro k
    rw [← hI, ← integral_const_mul]
    congr 1; funext l; ring
  simp only [key, Vec3.smul]
  ext <;> simp only <;> ring

end Verif.Vlm
