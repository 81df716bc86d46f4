import Verif.Mission.Frames
import Mathlib.Tactic.Linarith
import Mathlib.Tactic.FieldSimp
import Mathlib.Tactic.Ring
import Mathlib.Tactic.NormNum
import Mathlib.Tactic.Positivity
import Mathlib.Tactic.FinCases
import Mathlib.Tactic.LinearCombination

/-!
# Properties of frames, orientations and forces (C40, C79, C80, C81)
-/

namespace Verif.Mission.Frames

open Matrix

theorem productM_eq (A B : M3) : productM A B = A * B := by
  ext i j; simp [productM, Matrix.mul_apply]

theorem productV_eq (A : M3) (b : V3) : productV A b = A *ᵥ b := by
  ext i; simp [productV, Matrix.mulVec, dotProduct]

theorem transp_eq (A : M3) : transp A = Aᵀ := rfl

theorem newTensor_eq : newTensor = 1 := by ext i j; simp [newTensor, Matrix.one_apply]

/-- A rotation: orthogonal with determinant one. -/
def IsRotation (A : M3) : Prop := Aᵀ * A = 1 ∧ A.det = 1

/-- Square of the length of a vector. -/
def len2 (v : V3) : ℝ := v 0 ^ 2 + v 1 ^ 2 + v 2 ^ 2

/-- Scalar product. -/
def dot (u v : V3) : ℝ := u 0 * v 0 + u 1 * v 1 + u 2 * v 2

theorem IsRotation.mul {A B : M3} (hA : IsRotation A) (hB : IsRotation B) : IsRotation (A * B) := by
  refine ⟨?_, by rw [Matrix.det_mul, hA.2, hB.2, one_mul]⟩
  rw [Matrix.transpose_mul, Matrix.mul_assoc, ← Matrix.mul_assoc Aᵀ, hA.1, Matrix.one_mul, hB.1]

theorem isRotation_one : IsRotation 1 := ⟨by simp, by simp⟩

theorem T_rotation (k : Fin 3) (a : ℝ) : IsRotation (T k a) := by
  have h := Real.sin_sq_add_cos_sq a
  fin_cases k
  · refine ⟨?_, ?_⟩
    · ext i j; fin_cases i <;> fin_cases j <;> simp [T, T0, Matrix.mul_apply, Fin.sum_univ_three] <;> nlinarith
    · simp [T, T0, Matrix.det_fin_three]; nlinarith
  · refine ⟨?_, ?_⟩
    · ext i j; fin_cases i <;> fin_cases j <;> simp [T, T1, Matrix.mul_apply, Fin.sum_univ_three] <;> nlinarith
    · simp [T, T1, Matrix.det_fin_three]; nlinarith
  · refine ⟨?_, ?_⟩
    · ext i j; fin_cases i <;> fin_cases j <;> simp [T, T2, Matrix.mul_apply, Fin.sum_univ_three] <;> nlinarith
    · simp [T, T2, Matrix.det_fin_three]; nlinarith

theorem dcm_cons (rot : V3) (k : Fin 3) (s : List (Fin 3)) : dcm rot (k :: s) = dcm rot s * T k (rot k) := by
  simp [dcm, List.foldl_append, productM_eq]

theorem dcm_nil (rot : V3) : dcm rot [] = 1 := by simp [dcm, newTensor_eq]

/-- **C40, rotation.** For every axis sequence and all angles the result is a rotation. -/
theorem C40_rotation (rot : V3) (seq : List (Fin 3)) : IsRotation (dcm rot seq) := by
  induction seq with
  | nil => rw [dcm_nil]; exact isRotation_one
  | cons k s ih => rw [dcm_cons]; exact ih.mul (T_rotation k _)

/-- **C40, transpose inverts**, on either side, for products with matrices and with vectors. -/
theorem C40_transpose (rot : V3) (seq : List (Fin 3)) (v : V3) :
    productM (transp (dcm rot seq)) (dcm rot seq) = newTensor ∧ productM (dcm rot seq) (transp (dcm rot seq)) = newTensor ∧
    productV (transp (dcm rot seq)) (productV (dcm rot seq) v) = v ∧ productV (dcm rot seq) (productV (transp (dcm rot seq)) v) = v := by
  have h := (C40_rotation rot seq).1
  have h' : dcm rot seq * (dcm rot seq)ᵀ = 1 := mul_eq_one_comm.1 h
  refine ⟨by rw [productM_eq, transp_eq, h, newTensor_eq], by rw [productM_eq, transp_eq, h', newTensor_eq], ?_, ?_⟩
  · rw [productV_eq, productV_eq, transp_eq, Matrix.mulVec_mulVec, h, Matrix.one_mulVec]
  · rw [productV_eq, productV_eq, transp_eq, Matrix.mulVec_mulVec, h', Matrix.one_mulVec]

/-- **C40, composition.** Multiplying two matrices and applying the result is applying one after
the other; the matrix of a concatenated sequence is the product. -/
theorem C40_compose (A B : M3) (v : V3) (rot : V3) (s t : List (Fin 3)) :
    productV (productM A B) v = productV A (productV B v) ∧ dcm rot (s ++ t) = productM (dcm rot t) (dcm rot s) := by
  refine ⟨by simp only [productV_eq, productM_eq, Matrix.mulVec_mulVec], ?_⟩
  induction s with
  | nil => simp [dcm_nil, productM_eq]
  | cons k s ih => rw [List.cons_append, dcm_cons, dcm_cons, ih]; simp only [productM_eq, Matrix.mul_assoc]

theorem dot_eq (u v : V3) : dot u v = u ⬝ᵥ v := by simp [dot, dotProduct, Fin.sum_univ_three]

theorem IsRotation.dot {A : M3} (hA : IsRotation A) (u v : V3) : Frames.dot (productV A u) (productV A v) = Frames.dot u v := by
  rw [dot_eq, dot_eq, productV_eq, productV_eq, Matrix.dotProduct_mulVec, ← Matrix.vecMul_transpose, Matrix.vecMul_vecMul, hA.1, Matrix.vecMul_one]

theorem IsRotation.transp {A : M3} (hA : IsRotation A) : IsRotation (Frames.transp A) := by
  refine ⟨?_, by rw [transp_eq, Matrix.det_transpose]; exact hA.2⟩
  rw [transp_eq, Matrix.transpose_transpose]; exact mul_eq_one_comm.1 hA.1

/-- **C40, lengths and angles.** Vector lengths and scalar products are preserved. -/
theorem C40_length (rot : V3) (seq : List (Fin 3)) (u v : V3) :
    len2 (productV (dcm rot seq) v) = len2 v ∧ dot (productV (dcm rot seq) u) (productV (dcm rot seq) v) = dot u v := by
  have h := (C40_rotation rot seq).dot
  refine ⟨?_, h u v⟩
  have := h v v
  simp only [dot, len2] at this ⊢; linarith

/-- **C40, the right rotations.** A single rotation about an axis leaves that axis alone, does
nothing for angle zero, and angles about the same axis add; the sense is that of a frame turned by
the angle from the first towards the second following axis. -/
theorem C40_single (k : Fin 3) (a b : ℝ) (v : V3) :
    productM (T k a) (T k b) = T k (a + b) ∧ T k 0 = newTensor ∧ productV (T k a) v k = v k ∧
    productV (T k a) (fun i => if i = k + 1 then 1 else 0) (k + 1) = Real.cos a ∧
    productV (T k a) (fun i => if i = k + 1 then 1 else 0) (k + 2) = -Real.sin a := by
  refine ⟨?_, ?_, ?_, ?_, ?_⟩
  · rw [productM_eq]
    fin_cases k <;> ext i j <;> fin_cases i <;> fin_cases j <;>
      simp [T, T0, T1, T2, Matrix.mul_apply, Fin.sum_univ_three, Real.cos_add, Real.sin_add] <;> ring
  · rw [newTensor_eq]
    fin_cases k <;> ext i j <;> fin_cases i <;> fin_cases j <;> simp [T, T0, T1, T2]
  · fin_cases k <;> simp [productV, T, T0, T1, T2, Fin.sum_univ_three]
  · fin_cases k <;> simp [productV, T, T0, T1, T2]
  · fin_cases k <;> simp [productV, T, T0, T1, T2]

/-! ### C79 -/

theorem arctan2_cos (y x : ℝ) : Real.cos (arctan2 y x) * Real.sqrt (x ^ 2 + y ^ 2) = x ∨ (x = 0 ∧ y = 0) := by
  by_cases h : (⟨x, y⟩ : ℂ) = 0
  · right; exact ⟨congrArg Complex.re h, congrArg Complex.im h⟩
  · left
    have hn : ‖(⟨x, y⟩ : ℂ)‖ = Real.sqrt (x ^ 2 + y ^ 2) := by
      rw [Complex.norm_def, Complex.normSq_mk]; congr 1; ring
    have h0 : ‖(⟨x, y⟩ : ℂ)‖ ≠ 0 := norm_ne_zero_iff.2 h
    rw [arctan2, Complex.cos_arg h, ← hn]; field_simp

theorem arctan2_sin (y x : ℝ) : Real.sin (arctan2 y x) * Real.sqrt (x ^ 2 + y ^ 2) = y := by
  have hn : ‖(⟨x, y⟩ : ℂ)‖ = Real.sqrt (x ^ 2 + y ^ 2) := by
    rw [Complex.norm_def, Complex.normSq_mk]; congr 1; ring
  rw [arctan2, Complex.sin_arg, ← hn]
  by_cases h : (⟨x, y⟩ : ℂ) = 0
  · have : y = 0 := congrArg Complex.im h
    simp [this]
  · have h0 : ‖(⟨x, y⟩ : ℂ)‖ ≠ 0 := norm_ne_zero_iff.2 h
    field_simp

theorem arctan2_zero_right {x : ℝ} (hx : 0 ≤ x) : arctan2 0 x = 0 := by
  rw [arctan2]; exact Complex.arg_ofReal_of_nonneg hx

/-- **C79, angles.** Angle of attack and side slip describe the velocity in body axes: the body
velocity is the speed times (cos α cos β, sin β, sin α cos β), the reported side slip being −β. -/
theorem C79_angles (V rot : V3) :
    let o := updateOrientations V rot
    let v := Real.sqrt (len2 V)
    productV (transp o.body2inertial) V = ![v * Real.cos o.alpha * Real.cos o.sideSlip, -(v * Real.sin o.sideSlip), v * Real.sin o.alpha * Real.cos o.sideSlip] := by
  intro o v
  set Vb := productV (dcm rot [2, 1, 0]) V with hVb
  have hlen : len2 Vb = len2 V := (C40_length rot [2, 1, 0] V V).1
  set mag := Real.sqrt (Vb 0 ^ 2 + Vb 2 ^ 2) with hmag
  have hmag0 : 0 ≤ mag := Real.sqrt_nonneg _
  have hmag2 : mag ^ 2 = Vb 0 ^ 2 + Vb 2 ^ 2 := Real.sq_sqrt (by positivity)
  have hsum : Real.sqrt (∑ i : Fin 3, (if i = 1 then 0 else Vb i) ^ 2) = mag := by
    rw [hmag]; congr 1; simp [Fin.sum_univ_three]
  have ha : o.alpha = arctan2 (Vb 2) (Vb 0) := by simp [o, updateOrientations, hVb]
  have hb : o.sideSlip = -arctan2 (Vb 1) mag := by simp only [o, updateOrientations, ← hVb, hsum]
  have hv : v = Real.sqrt (mag ^ 2 + Vb 1 ^ 2) := by
    simp only [v]; rw [← hlen, hmag2]; congr 1; simp only [len2]; ring
  have hlhs : productV (transp o.body2inertial) V = Vb := rfl
  have hs := arctan2_sin (Vb 1) mag
  have hc := arctan2_cos (Vb 1) mag
  have hs2 := arctan2_sin (Vb 2) (Vb 0)
  have hc2 := arctan2_cos (Vb 2) (Vb 0)
  rw [← hv] at hs hc
  rw [← hmag] at hs2 hc2
  have hvm : v * Real.cos (arctan2 (Vb 1) mag) = mag := by
    rcases hc with hc | ⟨h1, h2⟩
    · linarith
    · have : v = 0 := by rw [hv, h1, h2]; simp
      rw [this, h1, zero_mul]
  rw [hlhs, ha, hb, Real.cos_neg, Real.sin_neg]
  ext i
  fin_cases i
  · show Vb 0 = v * Real.cos (arctan2 (Vb 2) (Vb 0)) * Real.cos (arctan2 (Vb 1) mag)
    rcases hc2 with h | ⟨h1, h2⟩
    · calc Vb 0 = Real.cos (arctan2 (Vb 2) (Vb 0)) * mag := h.symm
        _ = Real.cos (arctan2 (Vb 2) (Vb 0)) * (v * Real.cos (arctan2 (Vb 1) mag)) := by rw [hvm]
        _ = _ := by ring
    · have : mag = 0 := by rw [hmag, h1, h2]; simp
      rw [h1]; rw [this] at hvm
      calc (0 : ℝ) = Real.cos (arctan2 (Vb 2) 0) * (v * Real.cos (arctan2 (Vb 1) mag)) := by rw [this, hvm, mul_zero]
        _ = _ := by ring
  · show Vb 1 = -(v * -Real.sin (arctan2 (Vb 1) mag))
    linarith
  · show Vb 2 = v * Real.sin (arctan2 (Vb 2) (Vb 0)) * Real.cos (arctan2 (Vb 1) mag)
    calc Vb 2 = Real.sin (arctan2 (Vb 2) (Vb 0)) * mag := hs2.symm
      _ = Real.sin (arctan2 (Vb 2) (Vb 0)) * (v * Real.cos (arctan2 (Vb 1) mag)) := by rw [hvm]
      _ = _ := by ring

/-- **C79, general.** Total force is the sum of its contributions, weight is passed through, thrust
is rotated by the body attitude, lift and drag contributions keep their lengths and stay
perpendicular to each other. -/
theorem C79_total (V rot lift drag thrust weight : V3) :
    let o := updateOrientations V rot
    let f := updateForces o lift drag thrust weight
    (∀ i, f.total i = f.lift i + f.drag i + f.thrust i + weight i) ∧
    productV (dcm rot [2, 1, 0]) f.thrust = thrust ∧
    len2 f.lift = len2 lift ∧ len2 f.drag = len2 drag ∧ dot f.lift f.drag = dot lift drag := by
  intro o f
  have hw : IsRotation o.wind2inertial := by
    show IsRotation (productM _ _)
    rw [productM_eq]
    exact (C40_rotation _ _).mul (C40_rotation rot [2, 1, 0]).transp
  have hl : ∀ u, len2 u = dot u u := fun u => by simp only [len2, dot]; ring
  refine ⟨fun _ => rfl, (C40_transpose rot [2, 1, 0] thrust).2.2.2, ?_, ?_, hw.dot _ _⟩
  · rw [hl, hl]; exact hw.dot _ _
  · rw [hl, hl]; exact hw.dot _ _

theorem dcm210 (rot : V3) : dcm rot [2, 1, 0] = T0 (rot 0) * T1 (rot 1) * T2 (rot 2) := by
  rw [dcm_cons, dcm_cons, dcm_cons, dcm_nil, Matrix.one_mul]; rfl

/-- **C79, flight in the vertical plane.** Without roll, heading and lateral velocity the drag
contribution is opposite to the velocity and the lift contribution perpendicular to it, in the
vertical plane.  Missing: attitudes with heading or roll, for which it is false
(`C79_counterexample`, `C79_roll_counterexample`). -/
theorem C79_plane_partial (V rot : V3) (hne : len2 V ≠ 0) (hV : V 1 = 0) (h0 : rot 0 = 0) (h2 : rot 2 = 0) (l d : ℝ) (thrust weight : V3) :
    let o := updateOrientations V rot
    let f := updateForces o ![0, 0, -l] ![-d, 0, 0] thrust weight
    let v := Real.sqrt (len2 V)
    (∀ i, v * f.drag i = -d * V i) ∧ v * f.lift 0 = l * V 2 ∧ f.lift 1 = 0 ∧ v * f.lift 2 = -(l * V 0) := by
  intro o f v
  have hv0 : v ≠ 0 := (Real.sqrt_pos.2 (lt_of_le_of_ne (by simp only [len2]; positivity) (Ne.symm hne))).ne'
  have hT0 : T0 0 = 1 := by
    have := (C40_single 0 0 0 0).2.1; rw [newTensor_eq] at this; exact this
  have hT2 : T2 0 = 1 := by
    have := (C40_single 2 0 0 0).2.1; rw [newTensor_eq] at this; exact this
  have hd : dcm rot [2, 1, 0] = T1 (rot 1) := by
    rw [dcm210, h0, h2, hT0, hT2, Matrix.one_mul, Matrix.mul_one]
  set Vb := productV (dcm rot [2, 1, 0]) V with hVb
  have hb0 : Vb 0 = Real.cos (rot 1) * V 0 - Real.sin (rot 1) * V 2 := by
    rw [hVb, hd]; simp [productV, T1, Fin.sum_univ_three]; ring
  have hb1 : Vb 1 = 0 := by rw [hVb, hd]; simp [productV, T1, Fin.sum_univ_three, hV]
  have hb2 : Vb 2 = Real.sin (rot 1) * V 0 + Real.cos (rot 1) * V 2 := by
    rw [hVb, hd]; simp [productV, T1, Fin.sum_univ_three]
  have hsum : 0 ≤ Real.sqrt (∑ i : Fin 3, (if i = 1 then 0 else Vb i) ^ 2) := Real.sqrt_nonneg _
  have hbeta : arctan2 (Vb 1) (Real.sqrt (∑ i : Fin 3, (if i = 1 then 0 else Vb i) ^ 2)) = 0 := by
    rw [hb1]; exact arctan2_zero_right hsum
  have ha : o.alpha = arctan2 (Vb 2) (Vb 0) := by simp [o, updateOrientations, hVb]
  have hw : o.wind2inertial = T1 (o.alpha) * (T1 (rot 1))ᵀ := by
    show productM (dcm ![0, o.alpha, arctan2 (Vb 1) (Real.sqrt (∑ i : Fin 3, (if i = 1 then 0 else Vb i) ^ 2))] [2, 1, 0]) (transp (dcm rot [2, 1, 0])) = _
    rw [hd, productM_eq, transp_eq, dcm210]
    have e2 : (![0, o.alpha, arctan2 (Vb 1) (Real.sqrt (∑ i : Fin 3, (if i = 1 then 0 else Vb i) ^ 2))] : V3) 2 = 0 := hbeta
    have e1 : (![0, o.alpha, arctan2 (Vb 1) (Real.sqrt (∑ i : Fin 3, (if i = 1 then 0 else Vb i) ^ 2))] : V3) 1 = o.alpha := rfl
    have e0 : (![0, o.alpha, arctan2 (Vb 1) (Real.sqrt (∑ i : Fin 3, (if i = 1 then 0 else Vb i) ^ 2))] : V3) 0 = 0 := rfl
    rw [e0, e1, e2, hT0, hT2, Matrix.one_mul, Matrix.mul_one]
  have hlen : Vb 0 ^ 2 + Vb 2 ^ 2 = len2 V := by
    have h := (C40_length rot [2, 1, 0] V V).1
    rw [← hVb] at h
    simp only [len2] at h ⊢
    rw [hb1] at h; linarith
  have hs := arctan2_sin (Vb 2) (Vb 0)
  have hc := arctan2_cos (Vb 2) (Vb 0)
  rw [hlen] at hs hc
  have hc' : Real.cos o.alpha * v = Vb 0 := by
    rcases hc with h | ⟨h1, h2⟩
    · rw [ha]; exact h
    · exfalso; apply hv0
      have : len2 V = 0 := by rw [← hlen, h1, h2]; ring
      simp only [v, this, Real.sqrt_zero]
  have hs' : Real.sin o.alpha * v = Vb 2 := by rw [ha]; exact hs
  rw [hb0] at hc'
  rw [hb2] at hs'
  have hsc := Real.sin_sq_add_cos_sq (rot 1)
  have hfd : f.drag = productV (T1 (o.alpha) * (T1 (rot 1))ᵀ) ![-d, 0, 0] := by rw [← hw]; rfl
  have hfl : f.lift = productV (T1 (o.alpha) * (T1 (rot 1))ᵀ) ![0, 0, -l] := by rw [← hw]; rfl
  have d0 : f.drag 0 = -d * (Real.cos o.alpha * Real.cos (rot 1) + Real.sin o.alpha * Real.sin (rot 1)) := by
    rw [hfd]; simp [productV, T1, Matrix.mul_apply, Fin.sum_univ_three]; ring
  have d1 : f.drag 1 = 0 := by
    rw [hfd]; simp [productV, T1, Matrix.mul_apply, Fin.sum_univ_three]
  have d2 : f.drag 2 = -d * (Real.sin o.alpha * Real.cos (rot 1) - Real.cos o.alpha * Real.sin (rot 1)) := by
    rw [hfd]; simp [productV, T1, Matrix.mul_apply, Fin.sum_univ_three]; ring
  have l0 : f.lift 0 = l * (Real.sin o.alpha * Real.cos (rot 1) - Real.cos o.alpha * Real.sin (rot 1)) := by
    rw [hfl]; simp [productV, T1, Matrix.mul_apply, Fin.sum_univ_three]; ring
  have l1 : f.lift 1 = 0 := by
    rw [hfl]; simp [productV, T1, Matrix.mul_apply, Fin.sum_univ_three]
  have l2 : f.lift 2 = -l * (Real.cos o.alpha * Real.cos (rot 1) + Real.sin o.alpha * Real.sin (rot 1)) := by
    rw [hfl]; simp [productV, T1, Matrix.mul_apply, Fin.sum_univ_three]; ring
  have k0 : v * (Real.cos o.alpha * Real.cos (rot 1) + Real.sin o.alpha * Real.sin (rot 1)) = V 0 := by
    linear_combination Real.cos (rot 1) * hc' + Real.sin (rot 1) * hs' + V 0 * hsc
  have k2 : v * (Real.sin o.alpha * Real.cos (rot 1) - Real.cos o.alpha * Real.sin (rot 1)) = V 2 := by
    linear_combination Real.cos (rot 1) * hs' - Real.sin (rot 1) * hc' + V 2 * hsc
  refine ⟨?_, by rw [l0]; linear_combination l * k2, l1, by rw [l2]; linear_combination -l * k0⟩
  intro i
  fin_cases i
  · show v * f.drag 0 = -d * V 0
    rw [d0]; linear_combination -d * k0
  · show v * f.drag 1 = -d * V 1
    rw [d1, hV]; ring
  · show v * f.drag 2 = -d * V 2
    rw [d2]; linear_combination -d * k2

/-- A climbing aircraft meets the hypotheses. -/
example : len2 ![100, 0, -10] ≠ 0 ∧ (![100, 0, -10] : V3) 1 = 0 ∧ (![0, 1 / 5, 0] : V3) 0 = 0 ∧ (![0, 1 / 5, 0] : V3) 2 = 0 := by
  refine ⟨?_, by simp, by simp, by simp⟩
  have h : (![100, 0, -10] : V3) 2 = -10 := rfl
  norm_num [len2, h]

/-- C79 is false with heading: in level flight along the inertial first axis with the nose turned
by a right angle, the drag contribution points forward. -/
theorem C79_counterexample :
    let o := updateOrientations ![1, 0, 0] ![0, 0, Real.pi / 2]
    (updateForces o 0 ![-1, 0, 0] 0 0).drag 0 = 1 := by
  intro o
  set rot : V3 := ![0, 0, Real.pi / 2] with hrot
  have hT0 : T0 0 = 1 := by
    have := (C40_single 0 0 0 0).2.1; rw [newTensor_eq] at this; exact this
  have hT1 : T1 0 = 1 := by
    have := (C40_single 1 0 0 0).2.1; rw [newTensor_eq] at this; exact this
  have hd : dcm rot [2, 1, 0] = T2 (Real.pi / 2) := by
    rw [dcm210, show rot 0 = 0 from rfl, show rot 1 = 0 from rfl, show rot 2 = Real.pi / 2 from rfl, hT0, hT1, Matrix.one_mul, Matrix.one_mul]
  have hVb : productV (dcm rot [2, 1, 0]) ![1, 0, 0] = ![0, -1, 0] := by
    rw [hd]; ext i; fin_cases i <;> simp [productV, T2, Fin.sum_univ_three]
  have ha : o.windRotations = ![0, 0, -(Real.pi / 2)] := by
    simp only [o, updateOrientations, ← hrot, hVb]
    have h1 : arctan2 (if (2 : Fin 3) = 1 then 0 else (![0, -1, 0] : V3) 2) (if (0 : Fin 3) = 1 then 0 else (![0, -1, 0] : V3) 0) = 0 := by
      simpa using arctan2_zero_right (le_refl 0)
    have h2 : Real.sqrt (∑ i : Fin 3, (if i = 1 then 0 else (![0, -1, 0] : V3) i) ^ 2) = 0 := by
      simp [Fin.sum_univ_three]
    have h3 : arctan2 ((![0, -1, 0] : V3) 1) 0 = -(Real.pi / 2) := by
      have : (⟨0, -1⟩ : ℂ) = -Complex.I := by apply Complex.ext <;> simp
      simp [arctan2, this]
    show ![0, arctan2 (if (2 : Fin 3) = 1 then 0 else (![0, -1, 0] : V3) 2) (if (0 : Fin 3) = 1 then 0 else (![0, -1, 0] : V3) 0),
      arctan2 ((![0, -1, 0] : V3) 1) (Real.sqrt (∑ i : Fin 3, (if i = 1 then 0 else (![0, -1, 0] : V3) i) ^ 2))] = _
    rw [h1, h2, h3]
  have hw : o.wind2inertial = T2 (-(Real.pi / 2)) * (T2 (Real.pi / 2))ᵀ := by
    show productM (dcm o.windRotations [2, 1, 0]) (transp (dcm rot [2, 1, 0])) = _
    rw [productM_eq, transp_eq, hd, ha, dcm210]
    rw [show (![0, 0, -(Real.pi / 2)] : V3) 0 = 0 from rfl, show (![0, 0, -(Real.pi / 2)] : V3) 1 = 0 from rfl,
      show (![0, 0, -(Real.pi / 2)] : V3) 2 = -(Real.pi / 2) from rfl, hT0, hT1, Matrix.one_mul, Matrix.one_mul]
  show productV o.wind2inertial ![-1, 0, 0] 0 = 1
  rw [hw]
  simp [productV, T2, Matrix.mul_apply, Fin.sum_univ_three]

/-- C79 is also false with roll alone: an aircraft rolled by a right angle, flying along its own
nose with angle of attack, gets a lift contribution along its velocity. -/
theorem C79_roll_counterexample :
    let V : V3 := ![1, -1, 0]
    let o := updateOrientations V ![Real.pi / 2, 0, 0]
    dot (updateForces o ![0, 0, -1] 0 0 0).lift V ≠ 0 := by
  intro V o
  set rot : V3 := ![Real.pi / 2, 0, 0] with hrot
  have hT0 : T0 0 = 1 := by
    have := (C40_single 0 0 0 0).2.1; rw [newTensor_eq] at this; exact this
  have hT1 : T1 0 = 1 := by
    have := (C40_single 1 0 0 0).2.1; rw [newTensor_eq] at this; exact this
  have hT2 : T2 0 = 1 := by
    have := (C40_single 2 0 0 0).2.1; rw [newTensor_eq] at this; exact this
  have hd : dcm rot [2, 1, 0] = T0 (Real.pi / 2) := by
    rw [dcm210, show rot 0 = Real.pi / 2 from rfl, show rot 1 = 0 from rfl, show rot 2 = 0 from rfl, hT1, hT2, Matrix.mul_one, Matrix.mul_one]
  have hVb : productV (dcm rot [2, 1, 0]) V = ![1, 0, 1] := by
    rw [hd]; ext i; fin_cases i <;> simp [productV, T0, Fin.sum_univ_three, V]
  have ha : o.windRotations = ![0, arctan2 1 1, 0] := by
    simp only [o, updateOrientations, ← hrot, hVb]
    have h3 : arctan2 ((![1, 0, 1] : V3) 1) (Real.sqrt (∑ i : Fin 3, (if i = 1 then 0 else (![1, 0, 1] : V3) i) ^ 2)) = 0 :=
      arctan2_zero_right (Real.sqrt_nonneg _)
    rw [h3]; rfl
  have hw : o.wind2inertial = T1 (arctan2 1 1) * (T0 (Real.pi / 2))ᵀ := by
    show productM (dcm o.windRotations [2, 1, 0]) (transp (dcm rot [2, 1, 0])) = _
    rw [productM_eq, transp_eq, hd, ha, dcm210]
    rw [show (![0, arctan2 1 1, 0] : V3) 0 = 0 from rfl, show (![0, arctan2 1 1, 0] : V3) 1 = arctan2 1 1 from rfl,
      show (![0, arctan2 1 1, 0] : V3) 2 = 0 from rfl, hT0, hT2, Matrix.one_mul, Matrix.mul_one]
  have hl : dot (productV o.wind2inertial ![0, 0, -1]) V = -1 := by
    rw [hw]
    simp [dot, productV, T1, T0, Matrix.mul_apply, Fin.sum_univ_three, V]
  show dot (productV o.wind2inertial ![0, 0, -1]) V ≠ 0
  rw [hl]; norm_num

/-! ### C80 -/

/-- **C80, forces.** For every result of the aerodynamics model: the lift coefficient used is
within the limit, equal to the model's whenever that is within the limit and there is dynamic
pressure; without dynamic pressure no force; lift only along the third and drag only along the
first wind axis, drag backwards for non-negative coefficient. -/
theorem C80_forces (q sref clmax cl cd : ℝ) (hm : 0 ≤ clmax) (hS : 0 ≤ sref) :
    let o := updateAerodynamics q sref clmax cl cd
    |o.cl| ≤ clmax ∧ (0 < q → |cl| ≤ clmax → o.cl = cl) ∧ (0 < q → o.cd = cd) ∧
    (0 < q → clmax < cl → o.cl = clmax) ∧ (0 < q → cl < -clmax → o.cl = -clmax) ∧
    (q ≤ 0 → o.lift = 0 ∧ o.drag = 0) ∧
    o.lift 0 = 0 ∧ o.lift 1 = 0 ∧ o.lift 2 = -(o.cl * q * sref) ∧
    o.drag 0 = -(o.cd * q * sref) ∧ o.drag 1 = 0 ∧ o.drag 2 = 0 ∧ (0 ≤ cd → o.drag 0 ≤ 0) := by
  intro o
  have hcl : o.cl = if (if (if q ≤ 0 then 0 else cl) > clmax then clmax else (if q ≤ 0 then 0 else cl)) < -clmax then -clmax else
    (if (if q ≤ 0 then 0 else cl) > clmax then clmax else (if q ≤ 0 then 0 else cl)) := rfl
  have hcd : o.cd = if q ≤ 0 then 0 else cd := rfl
  have hl : o.lift = ![0, 0, -o.cl * q * sref] := rfl
  have hd : o.drag = ![-o.cd * q * sref, 0, 0] := rfl
  have hz : q ≤ 0 → o.cl = 0 := by
    intro h; rw [hcl]; simp only [if_pos h]
    rw [if_neg (show ¬ (0 : ℝ) > clmax by linarith), if_neg (by linarith)]
  refine ⟨?_, ?_, ?_, ?_, ?_, ?_, by rw [hl]; rfl, by rw [hl]; rfl, ?_, ?_, by rw [hd]; rfl, by rw [hd]; rfl, ?_⟩
  · rw [hcl]; split_ifs <;> rw [abs_le] <;> constructor <;> linarith
  · intro h1 h2
    rw [abs_le] at h2
    rw [hcl]; simp only [if_neg (not_le.2 h1)]
    rw [if_neg (show ¬ cl > clmax by linarith), if_neg (by linarith)]
  · intro h; rw [hcd, if_neg (not_le.2 h)]
  · intro h1 h2
    rw [hcl]; simp only [if_neg (not_le.2 h1)]
    rw [if_pos (show cl > clmax by linarith), if_neg (by linarith)]
  · intro h1 h2
    rw [hcl]; simp only [if_neg (not_le.2 h1)]
    rw [if_neg (show ¬ cl > clmax by linarith), if_pos h2]
  · intro h
    rw [hl, hd, hz h, hcd, if_pos h]
    constructor <;> ext i <;> fin_cases i <;> simp
  · rw [hl]; show -o.cl * q * sref = _; ring
  · rw [hd]; show -o.cd * q * sref = _; ring
  · intro h
    rw [hd]; show -o.cd * q * sref ≤ 0
    rw [hcd]
    split_ifs with hq
    · simp
    · have : 0 ≤ cd * q * sref := by have := not_le.1 hq; positivity
      linarith

/-- **C80, freestream.** Speed, Mach and Reynolds number and dynamic pressure are those of the
velocity vector. -/
theorem C80_freestream (V : V3) (rho a mu : ℝ) (ha : 0 < a) (hmu : 0 < mu) :
    let o := updateFreestream V rho a mu
    0 ≤ o.velocity ∧ o.velocity ^ 2 = len2 V ∧ o.mach * a = o.velocity ∧ o.reynolds * mu = rho * o.velocity ∧
    o.q = 1 / 2 * rho * o.velocity ^ 2 ∧ (0 ≤ rho → 0 ≤ o.q) := by
  intro o
  have h2 : (∑ i, V i ^ 2) = len2 V := by simp [len2, Fin.sum_univ_three]
  have hn : 0 ≤ ∑ i, V i ^ 2 := Finset.sum_nonneg fun i _ => sq_nonneg _
  have hv : o.velocity = Real.sqrt (∑ i, V i ^ 2) := rfl
  have hv2 : o.velocity ^ 2 = ∑ i, V i ^ 2 := by rw [hv]; exact Real.sq_sqrt hn
  have hq : o.q = 1 / 2 * rho * ∑ i, V i ^ 2 := rfl
  refine ⟨Real.sqrt_nonneg _, by rw [hv2, h2], ?_, ?_, by rw [hv2, hq], ?_⟩
  · show Real.sqrt _ / a * a = _; rw [hv]; field_simp
  · show rho * Real.sqrt _ / mu * mu = _; rw [hv]; field_simp
  · intro h; rw [hq]; positivity

/-! ### C81 -/

/-- **C81, latitude.** The latitude (in degrees) is the start latitude plus the integrated
northward speed over the local radius; on a meridian the longitude does not change.
Missing: the longitude on other courses, see the counterexamples. -/
theorem C81_latitude_partial {n : ℕ} (I : Matrix (Fin n) (Fin n) ℝ) (V altitude theta alpha : Fin n → ℝ) (psi Re lat lon : ℝ) :
    let r := updatePlanet I V altitude theta alpha psi Re lat lon
    (∀ i, (r.1 i - lat) * (Real.pi / 180) = (I *ᵥ fun j => V j * Real.cos (theta j - alpha j) * Real.cos psi / (altitude j + Re)) i) ∧
    (Real.sin psi = 0 → ∀ i, r.2 i = lon) := by
  intro r
  constructor
  · intro i
    have : r.1 i = lat + (∑ j, I i j * (V j / (altitude j + Re) * Real.cos (theta j - alpha j) * Real.cos psi)) / (Real.pi / 180) := rfl
    rw [this]
    have hpi : Real.pi / 180 ≠ 0 := by positivity
    rw [add_sub_cancel_left, div_mul_cancel₀ _ hpi]
    simp only [Matrix.mulVec, dotProduct]
    exact Finset.sum_congr rfl fun j _ => by ring
  · intro h i
    simp [r, updatePlanet, h]

/-- C81 fails at every start latitude other than those with cosine one: due east, the longitude
changes by the eastward distance over the planet's radius instead of the radius of the parallel,
because the start latitude is left out. -/
theorem C81_east_counterexample (lat : ℝ) (hlat : Real.cos (lat * (Real.pi / 180)) ≠ 1) (lon : ℝ) :
    ∃ (I : Matrix (Fin 2) (Fin 2) ℝ) (V altitude theta alpha : Fin 2 → ℝ) (psi Re : ℝ),
      let r := updatePlanet I V altitude theta alpha psi Re lat lon
      let east := I *ᵥ fun j => V j * Real.cos (theta j - alpha j) * Real.sin psi
      (∀ j, altitude j = 0) ∧ r.1 1 = lat ∧ (r.2 1 - lon) * (Real.pi / 180) * (Re * Real.cos (lat * (Real.pi / 180))) ≠ east 1 := by
  refine ⟨!![0, 0; 1 / 2, 1 / 2], fun _ => 1, fun _ => 0, fun _ => 0, fun _ => 0, Real.pi / 2, 1, fun _ => rfl, ?_, ?_⟩
  · simp [updatePlanet]
  · have hpi : Real.pi / 180 ≠ 0 := by positivity
    have : (updatePlanet !![0, 0; 1 / 2, 1 / 2] (fun _ => 1) (fun _ => 0) (fun _ => 0) (fun _ => 0) (Real.pi / 2) 1 lat lon).2 1 = lon + 1 / (Real.pi / 180) := by
      simp [updatePlanet, deg, Fin.sum_univ_two]; norm_num
    rw [this, add_sub_cancel_left, one_div, inv_mul_cancel₀ hpi, one_mul, one_mul]
    have e : (!![0, 0; 1 / 2, 1 / 2] *ᵥ fun _ : Fin 2 => (1 : ℝ) * Real.cos (0 - 0) * Real.sin (Real.pi / 2)) 1 = 1 := by
      simp [Matrix.mulVec, dotProduct, Fin.sum_univ_two]; norm_num
    rw [e]
    exact hlat

/-- Besides, the cosine is taken of the latitude change in degrees: flying 180 degrees of latitude
change's worth, here shown for a change of `π` degrees, the parallel radius gets the sign −1. -/
theorem C81_degrees_counterexample :
    ∃ (I : Matrix (Fin 2) (Fin 2) ℝ) (V : Fin 2 → ℝ) (psi : ℝ),
      let r := updatePlanet I V (fun _ => 0) (fun _ => 0) (fun _ => 0) psi 1 0 0
      (∀ j, 0 < V j) ∧ 0 < Real.sin psi ∧ 0 < Real.cos (r.1 1 * (Real.pi / 180)) ∧ r.1 1 = Real.pi ∧ r.2 1 < 0 := by
  refine ⟨!![0, 0; 0, 1], fun _ => Real.sqrt 2 * (Real.pi * (Real.pi / 180)), Real.pi / 4, ?_⟩
  have hpi : (Real.pi / 180) ≠ 0 := by positivity
  have h2 : Real.sqrt 2 * Real.sqrt 2 = 2 := Real.mul_self_sqrt (by norm_num)
  have h1 : (updatePlanet !![0, 0; 0, 1] (fun _ => Real.sqrt 2 * (Real.pi * (Real.pi / 180))) (fun _ => 0) (fun _ => 0) (fun _ => 0) (Real.pi / 4) 1 0 0).1 1 = Real.pi := by
    simp [updatePlanet, deg, Fin.sum_univ_two]
    field_simp; nlinarith
  have h4 : Real.pi ≤ 4 := Real.pi_le_four
  have h0 := Real.pi_pos
  have hl : (∑ j, !![0, 0; 0, (1 : ℝ)] 1 j * (Real.sqrt 2 * (Real.pi * (Real.pi / 180)) / (0 + 1) * Real.cos (0 - 0) * Real.cos (Real.pi / 4))) / deg = Real.pi := by
    have : (updatePlanet !![0, 0; 0, 1] (fun _ => Real.sqrt 2 * (Real.pi * (Real.pi / 180))) (fun _ => 0) (fun _ => 0) (fun _ => 0) (Real.pi / 4) 1 0 0).1 1 =
      0 + (∑ j, !![0, 0; 0, (1 : ℝ)] 1 j * (Real.sqrt 2 * (Real.pi * (Real.pi / 180)) / (0 + 1) * Real.cos (0 - 0) * Real.cos (Real.pi / 4))) / deg := rfl
    rw [h1] at this; linarith
  refine ⟨fun _ => by positivity, by rw [Real.sin_pi_div_four]; positivity, ?_, h1, ?_⟩
  · rw [h1]
    apply Real.cos_pos_of_mem_Ioo
    constructor <;> nlinarith
  · have : (updatePlanet !![0, 0; 0, 1] (fun _ => Real.sqrt 2 * (Real.pi * (Real.pi / 180))) (fun _ => 0) (fun _ => 0) (fun _ => 0) (Real.pi / 4) 1 0 0).2 1 =
      0 + (∑ k, !![0, 0; 0, (1 : ℝ)] 1 k * (Real.sqrt 2 * (Real.pi * (Real.pi / 180)) / (0 + 1) * Real.cos (0 - 0) * Real.sin (Real.pi / 4) /
        Real.cos ((∑ j, !![0, 0; 0, (1 : ℝ)] k j * (Real.sqrt 2 * (Real.pi * (Real.pi / 180)) / (0 + 1) * Real.cos (0 - 0) * Real.cos (Real.pi / 4))) / deg))) / deg := rfl
    rw [this, Fin.sum_univ_two, hl]
    simp only [Real.cos_pi, sub_zero, Real.cos_zero, Real.sin_pi_div_four]
    have hpos : 0 < Real.sqrt 2 * (Real.pi * (Real.pi / 180)) / (0 + 1) * 1 * (Real.sqrt 2 / 2) := by positivity
    have hdeg : 0 < deg := by unfold deg; positivity
    simp only [Matrix.of_apply, Matrix.cons_val_one, Matrix.cons_val_zero, Matrix.cons_val_fin_one, zero_mul, zero_add, one_mul]
    apply div_neg_of_neg_of_pos _ hdeg
    rw [div_neg, div_one]
    simp only [zero_add] at hpos
    linarith

end Verif.Mission.Frames
