import Verif.Vlm.HorseshoeProps

/-!
# Symmetries of the horseshoe influence and the supersonic zone of silence (C193, C194)
-/

namespace Verif.Vlm

/-- The kernel of the reflected frame: the two ends change places. -/
theorem subsonic_reflect (f : Frame) (B2 : ℝ) :
    subsonic { s := f.s, t := -f.t, xo := f.xo, yo := -f.yo, zo := f.zo } B2
      = Vec3.mirror (subsonic f B2) := by
  obtain ⟨g, hg⟩ : ∃ g : Frame, g = { s := f.s, t := -f.t, xo := f.xo, yo := -f.yo, zo := f.zo } :=
    ⟨_, rfl⟩
  rw [← hg]
  have a1 : g.X1 = f.X2 := by rw [hg]; unfold Frame.X1 Frame.X2; simp only; ring
  have a2 : g.X2 = f.X1 := by rw [hg]; unfold Frame.X1 Frame.X2; simp only; ring
  have a3 : g.Y1 = -f.Y2 := by rw [hg]; unfold Frame.Y1 Frame.Y2; simp only; ring
  have a4 : g.Y2 = -f.Y1 := by rw [hg]; unfold Frame.Y1 Frame.Y2; simp only; ring
  have a5 : g.XTY = f.XTY := by rw [hg]; unfold Frame.XTY; simp only; ring
  have a6 : g.tolsq = f.tolsq := by rw [hg]; rfl
  have a7 : g.zsq = f.zsq := by rw [hg]; rfl
  have a8 : g.rtv1 = f.rtv2 := by unfold Frame.rtv1 Frame.rtv2; rw [a3, a7]; ring
  have a9 : g.rtv2 = f.rtv1 := by unfold Frame.rtv1 Frame.rtv2; rw [a4, a7]; ring
  have a10 : g.rad1 B2 = f.rad2 B2 := by unfold Frame.rad1 Frame.rad2; rw [a1, a8]
  have a11 : g.rad2 B2 = f.rad1 B2 := by unfold Frame.rad1 Frame.rad2; rw [a2, a9]
  have a12 : g.t = -f.t := by rw [hg]
  have a13 : g.zo = f.zo := by rw [hg]
  have a14 : g.denomSub B2 = f.denomSub B2 := by
    unfold Frame.denomSub; rw [a5, a6, a7, a12, neg_mul_neg]
  have a15 : g.fb1 B2 = -f.fb2 B2 := by
    unfold Frame.fb1 Frame.fb2; rw [a1, a3, a10, a12]; ring
  have a16 : g.fb2 B2 = -f.fb1 B2 := by
    unfold Frame.fb1 Frame.fb2; rw [a2, a4, a11, a12]; ring
  have a17 : g.ft1 B2 = f.ft2 B2 := by
    unfold Frame.ft1 Frame.ft2; rw [a1, a6, a8, a10]
  have a18 : g.ft2 B2 = f.ft1 B2 := by
    unfold Frame.ft1 Frame.ft2; rw [a2, a6, a9, a11]
  have a19 : g.qb B2 = f.qb B2 := by
    unfold Frame.qb; rw [a14, a15, a16]; ring
  unfold subsonic Vec3.mirror
  rw [a3, a4, a5, a6, a7, a12, a13, a17, a18, a19]
  ext
  · rfl
  · simp only
    split
    · simp
    · ring
  · simp only; ring

/-- **C193.** Reflecting the wing and the point in the symmetry plane of the vehicle reflects the
induced velocity, at every subsonic Mach number and every point, safeguards included: a symmetric
wing with symmetric circulation has a symmetric flow. -/
theorem C193_mirror (A B P : Vec3) (M : ℝ) (hAB : A.y ≠ B.y) :
    inducedSub A.mirror B.mirror P.mirror M = (inducedSub A B P M).mirror := by
  have main : ∀ A B : Vec3, A.y < B.y →
      inducedSub A.mirror B.mirror P.mirror M = (inducedSub A B P M).mirror := by
    intro A B h
    unfold inducedSub
    rw [if_pos (by simpa [Vec3.mirror] using h), if_neg (not_lt.2 h.le)]
    have hw : 0 < (B.y - A.y) ^ 2 + (B.z - A.z) ^ 2 := by
      have : 0 < B.y - A.y := by linarith
      positivity
    have hw' : 0 < (A.mirror.y - B.mirror.y) ^ 2 + (A.mirror.z - B.mirror.z) ^ 2 := by
      simp only [Vec3.mirror]
      have e : (-A.y - -B.y) ^ 2 + (A.z - B.z) ^ 2 = (B.y - A.y) ^ 2 + (B.z - A.z) ^ 2 := by ring
      rw [e]; exact hw
    obtain ⟨c1, s1⟩ := cos_sin_theta A B hw
    obtain ⟨c2, s2⟩ := cos_sin_theta B.mirror A.mirror hw'
    have e : (A.mirror.y - B.mirror.y) ^ 2 + (A.mirror.z - B.mirror.z) ^ 2
        = (B.y - A.y) ^ 2 + (B.z - A.z) ^ 2 := by simp only [Vec3.mirror]; ring
    have hc : Real.cos (theta B.mirror A.mirror) = Real.cos (theta A B) := by
      rw [c1, c2, e]; simp only [Vec3.mirror]; ring
    have hn : Real.sin (theta B.mirror A.mirror) = -Real.sin (theta A B) := by
      rw [s1, s2, e]; simp only [Vec3.mirror]; ring
    have hfr : frame B.mirror A.mirror P.mirror =
        { s := (frame A B P).s, t := -(frame A B P).t, xo := (frame A B P).xo,
          yo := -(frame A B P).yo, zo := (frame A B P).zo } := by
      simp only [frame]
      rw [hc, hn]
      simp only [Vec3.mirror]
      generalize Real.cos (theta A B) = c
      generalize Real.sin (theta A B) = n
      have hy : (-A.y - (-B.y + -A.y) / 2) * c + (A.z - (B.z + A.z) / 2) * -n
          = (B.y - (A.y + B.y) / 2) * c + (B.z - (A.z + B.z) / 2) * n := by ring
      rw [hy]
      congr 1 <;> ring
    rw [hfr, subsonic_reflect]
    generalize subsonic (frame A B P) (M ^ 2 - 1) = v
    unfold unrotate
    rw [hc, hn]
    simp only [Vec3.mirror]
    ext <;> simp only <;> ring
  rcases lt_or_gt_of_ne hAB with h | h
  · exact main A B h
  · rw [C191_end_order A B P M hAB, C191_end_order A.mirror B.mirror P.mirror M
      (by simpa [Vec3.mirror] using hAB)]
    exact main B A h

/-- The kernel of a uniformly enlarged frame. -/
theorem subsonic_scale (f : Frame) (B2 k : ℝ) (hk : 0 < k) :
    subsonic { s := k * f.s, t := f.t, xo := k * f.xo, yo := k * f.yo, zo := k * f.zo } B2
      = Vec3.smul (1 / k) (subsonic f B2) := by
  obtain ⟨g, hg⟩ : ∃ g : Frame,
      g = { s := k * f.s, t := f.t, xo := k * f.xo, yo := k * f.yo, zo := k * f.zo } := ⟨_, rfl⟩
  rw [← hg]
  have hk2 : 0 < k ^ 2 := by positivity
  have hk' := hk.ne'
  have a1 : g.X1 = k * f.X1 := by rw [hg]; unfold Frame.X1; simp only; ring
  have a2 : g.X2 = k * f.X2 := by rw [hg]; unfold Frame.X2; simp only; ring
  have a3 : g.Y1 = k * f.Y1 := by rw [hg]; unfold Frame.Y1; simp only; ring
  have a4 : g.Y2 = k * f.Y2 := by rw [hg]; unfold Frame.Y2; simp only; ring
  have a5 : g.XTY = k * f.XTY := by rw [hg]; unfold Frame.XTY; simp only; ring
  have a6 : g.tolsq = k ^ 2 * f.tolsq := by
    rw [hg]; unfold Frame.tolsq Frame.tol; simp only; ring
  have a7 : g.zsq = k ^ 2 * f.zsq := by rw [hg]; unfold Frame.zsq; simp only; ring
  have a8 : g.rtv1 = k ^ 2 * f.rtv1 := by unfold Frame.rtv1; rw [a3, a7]; ring
  have a9 : g.rtv2 = k ^ 2 * f.rtv2 := by unfold Frame.rtv2; rw [a4, a7]; ring
  have a10 : g.rad1 B2 = k * f.rad1 B2 := by
    unfold Frame.rad1
    have e : g.X1 * g.X1 - B2 * g.rtv1 = k ^ 2 * (f.X1 * f.X1 - B2 * f.rtv1) := by
      rw [a1, a8]; ring
    rw [e, Real.sqrt_mul hk2.le, Real.sqrt_sq hk.le]
  have a11 : g.rad2 B2 = k * f.rad2 B2 := by
    unfold Frame.rad2
    have e : g.X2 * g.X2 - B2 * g.rtv2 = k ^ 2 * (f.X2 * f.X2 - B2 * f.rtv2) := by
      rw [a2, a9]; ring
    rw [e, Real.sqrt_mul hk2.le, Real.sqrt_sq hk.le]
  have a12 : g.t = f.t := by rw [hg]
  have a13 : g.zo = k * f.zo := by rw [hg]
  have hlt : ∀ p q : ℝ, k ^ 2 * p < k ^ 2 * q ↔ p < q := fun p q => mul_lt_mul_iff_right₀ hk2
  have a14 : g.denomSub B2 = k ^ 2 * f.denomSub B2 := by
    unfold Frame.denomSub
    have e : g.XTY * g.XTY + (g.t * g.t - B2) * g.zsq
        = k ^ 2 * (f.XTY * f.XTY + (f.t * f.t - B2) * f.zsq) := by rw [a5, a7, a12]; ring
    rw [e, a6]
    by_cases h : f.XTY * f.XTY + (f.t * f.t - B2) * f.zsq < f.tolsq
    · rw [if_pos ((hlt _ _).2 h), if_pos h]
    · rw [if_neg (fun h' => h ((hlt _ _).1 h')), if_neg h]
  have a15 : g.fb1 B2 = f.fb1 B2 := by
    unfold Frame.fb1; rw [a1, a3, a10, a12]
    rw [show f.t * (k * f.X1) - B2 * (k * f.Y1) = k * (f.t * f.X1 - B2 * f.Y1) by ring]
    exact mul_div_mul_left _ _ hk'
  have a16 : g.fb2 B2 = f.fb2 B2 := by
    unfold Frame.fb2; rw [a2, a4, a11, a12]
    rw [show f.t * (k * f.X2) - B2 * (k * f.Y2) = k * (f.t * f.X2 - B2 * f.Y2) by ring]
    exact mul_div_mul_left _ _ hk'
  have a17 : g.ft1 B2 = f.ft1 B2 / k ^ 2 := by
    unfold Frame.ft1; rw [a1, a6, a8, a10]
    by_cases h : f.rtv1 < f.tolsq
    · rw [if_pos ((hlt _ _).2 h), if_pos h, zero_div]
    · rw [if_neg (fun h' => h ((hlt _ _).1 h')), if_neg h]
      rw [show k * f.X1 + k * f.rad1 B2 = k * (f.X1 + f.rad1 B2) by ring,
        show k * f.rad1 B2 * (k ^ 2 * f.rtv1) = k * (f.rad1 B2 * f.rtv1 * k ^ 2) by ring,
        mul_div_mul_left _ _ hk', div_div]
  have a18 : g.ft2 B2 = f.ft2 B2 / k ^ 2 := by
    unfold Frame.ft2; rw [a2, a6, a9, a11]
    by_cases h : f.rtv2 < f.tolsq
    · rw [if_pos ((hlt _ _).2 h), if_pos h, zero_div]
    · rw [if_neg (fun h' => h ((hlt _ _).1 h')), if_neg h]
      rw [show k * f.X2 + k * f.rad2 B2 = k * (f.X2 + f.rad2 B2) by ring,
        show k * f.rad2 B2 * (k ^ 2 * f.rtv2) = k * (f.rad2 B2 * f.rtv2 * k ^ 2) by ring,
        mul_div_mul_left _ _ hk', div_div]
  have a19 : g.qb B2 = f.qb B2 / k ^ 2 := by
    unfold Frame.qb; rw [a14, a15, a16]
    rw [div_div, mul_comm (k ^ 2)]
  unfold subsonic Vec3.smul
  rw [a3, a4, a5, a6, a7, a12, a13, a17, a18, a19]
  have hif : ∀ v : ℝ, (if k ^ 2 * f.zsq < k ^ 2 * f.tolsq then (0:ℝ) else v)
      = (if f.zsq < f.tolsq then 0 else v) := by
    intro v
    by_cases h : f.zsq < f.tolsq
    · rw [if_pos ((hlt _ _).2 h), if_pos h]
    · rw [if_neg (fun h' => h ((hlt _ _).1 h')), if_neg h]
  rw [hif, hif]
  have hp := Real.pi_pos.ne'
  ext
  · simp only
    split
    · simp
    · field_simp
  · simp only
    split
    · simp
    · field_simp
  · simp only
    field_simp

/-- **C193.** Enlarging the wing and the distance of the point by the same factor divides the
induced velocity by that factor: the influence depends on shape only. -/
theorem C193_scale (A B P : Vec3) (M k : ℝ) (hk : 0 < k) :
    inducedSub (Vec3.smul k A) (Vec3.smul k B) (Vec3.smul k P) M
      = Vec3.smul (1 / k) (inducedSub A B P M) := by
  have hth : ∀ A B : Vec3, theta (Vec3.smul k A) (Vec3.smul k B) = theta A B := by
    intro A B
    unfold theta
    have e : (⟨(Vec3.smul k B).y - (Vec3.smul k A).y, (Vec3.smul k B).z - (Vec3.smul k A).z⟩ : ℂ)
        = (k : ℂ) * ⟨B.y - A.y, B.z - A.z⟩ := by
      apply Complex.ext <;> simp [Vec3.smul] <;> ring
    rw [e, Complex.arg_real_mul _ hk]
  have hfr : ∀ A B : Vec3, frame (Vec3.smul k A) (Vec3.smul k B) (Vec3.smul k P) =
      { s := k * (frame A B P).s, t := (frame A B P).t, xo := k * (frame A B P).xo,
        yo := k * (frame A B P).yo, zo := k * (frame A B P).zo } := by
    intro A B
    simp only [frame]
    rw [hth]
    simp only [Vec3.smul]
    generalize Real.cos (theta A B) = c
    generalize Real.sin (theta A B) = n
    have hy : (k * B.y - (k * A.y + k * B.y) / 2) * c + (k * B.z - (k * A.z + k * B.z) / 2) * n
        = k * ((B.y - (A.y + B.y) / 2) * c + (B.z - (A.z + B.z) / 2) * n) := by ring
    rw [hy, abs_mul, abs_of_pos hk,
      show k * B.x - (k * A.x + k * B.x) / 2 = k * (B.x - (A.x + B.x) / 2) by ring,
      mul_div_mul_left _ _ hk.ne']
    congr 1 <;> ring
  have hun : ∀ (th : ℝ) (v : Vec3), unrotate th (Vec3.smul (1 / k) v)
      = Vec3.smul (1 / k) (unrotate th v) := by
    intro th v
    unfold unrotate Vec3.smul
    ext <;> simp only <;> ring
  unfold inducedSub
  have hiff : (Vec3.smul k A).y > (Vec3.smul k B).y ↔ A.y > B.y := by
    simp only [Vec3.smul]
    exact mul_lt_mul_iff_right₀ hk
  by_cases h : A.y > B.y
  · rw [if_pos (hiff.2 h), if_pos h, hfr, hth, subsonic_scale _ _ _ hk, hun]
  · rw [if_neg (fun h' => h (hiff.1 h')), if_neg h, hfr, hth, subsonic_scale _ _ _ hk, hun]

example : (⟨0, 1, 0⟩ : Vec3).y ≠ (⟨1, 2, 0⟩ : Vec3).y := by norm_num

/-- The supersonic kernel outside both Mach cones. -/
theorem supersonic_silent (f : Frame) (B2 : ℝ) (hs : 0 < f.s)
    (h1 : f.X1 ≤ 0 ∨ f.X1 ^ 2 ≤ B2 * f.rtv1) (h2 : f.X2 ≤ 0 ∨ f.X2 ^ 2 ≤ B2 * f.rtv2) :
    supersonic f B2 = ⟨0, 0, 0⟩ := by
  have htol : 0 < f.tol := by unfold Frame.tol; positivity
  have r1 : f.srad1 B2 = 0 := by
    unfold Frame.srad1
    by_cases h : f.X1 < f.tol
    · rw [if_pos h]
    · rw [if_neg h]
      rcases h1 with h1 | h1
      · exact absurd (lt_of_le_of_lt h1 htol) h
      · apply Real.sqrt_eq_zero_of_nonpos
        linarith [sq f.X1]
  have r2 : f.srad2 B2 = 0 := by
    unfold Frame.srad2
    by_cases h : f.X2 < f.tol
    · rw [if_pos h]
    · rw [if_neg h]
      rcases h2 with h2 | h2
      · exact absurd (lt_of_le_of_lt h2 htol) h
      · apply Real.sqrt_eq_zero_of_nonpos
        linarith [sq f.X2]
  have i1 : f.in1 B2 = false := by unfold Frame.in1; simp [r1]
  have i2 : f.in2 B2 = false := by unfold Frame.in2; simp [r2]
  have q : f.sqb B2 = 0 := by unfold Frame.sqb Frame.sfb1 Frame.sfb2; rw [i1, i2]; simp
  unfold supersonic Frame.wInPlane Frame.wGeneral Frame.sft1 Frame.sft2
  rw [q, i1, i2, r1, r2]
  split <;> simp

/-- Specification.  At Mach number `M` the point `P` is outside the Mach cone which opens downstream
of `E`: it is not downstream, or too far off the axis. -/
def OutsideCone (E P : Vec3) (M : ℝ) : Prop :=
  P.x ≤ E.x ∨ (P.x - E.x) ^ 2 ≤ (M ^ 2 - 1) * ((P.y - E.y) ^ 2 + (P.z - E.z) ^ 2)

/-- **C194.** At supersonic speed a vortex induces nothing at a point which is outside the downstream
Mach cones of both its ends. -/
theorem C194_zone_of_silence (A B P : Vec3) (M : ℝ)
    (h : 0 < (B.y - A.y) ^ 2 + (B.z - A.z) ^ 2)
    (hA : OutsideCone A P M) (hB : OutsideCone B P M) :
    inducedSup A B P M = ⟨0, 0, 0⟩ := by
  have main : ∀ A B : Vec3, 0 < (B.y - A.y) ^ 2 + (B.z - A.z) ^ 2 → OutsideCone A P M →
      OutsideCone B P M → supersonic (frame A B P) (M ^ 2 - 1) = ⟨0, 0, 0⟩ := by
    intro A B h hA hB
    obtain ⟨D, c, n, hD, hcn, hc, hn, hyc, hzn, hs, ht, hX1, hX2, hPy, hPz, hY2, hXTY⟩ :=
      frame_data A B P h
    apply supersonic_silent
    · rw [hs]; positivity
    · have e : (frame A B P).rtv1 = (P.y - A.y) ^ 2 + (P.z - A.z) ^ 2 := by
        rw [hPy, hPz]; unfold Frame.rtv1 Frame.zsq
        linear_combination -((frame A B P).Y1 ^ 2 + (frame A B P).zo ^ 2) * hcn
      rw [hX1, e]
      rcases hA with h | h
      · left; linarith
      · right; exact h
    · have e : (frame A B P).rtv2 = (P.y - B.y) ^ 2 + (P.z - B.z) ^ 2 := by
        have ey : P.y - B.y = (P.y - A.y) - (B.y - A.y) := by ring
        have ez : P.z - B.z = (P.z - A.z) - (B.z - A.z) := by ring
        rw [ey, ez, hPy, hPz, hyc, hzn]; unfold Frame.rtv2 Frame.zsq
        rw [hY2]
        linear_combination -(((frame A B P).Y1 - D) ^ 2 + (frame A B P).zo ^ 2) * hcn
      rw [hX2, e]
      rcases hB with h | h
      · left; linarith
      · right; exact h
  have hun : ∀ th : ℝ, unrotate th ⟨0, 0, 0⟩ = ⟨0, 0, 0⟩ := by intro th; unfold unrotate; simp
  unfold inducedSup
  by_cases hy : A.y > B.y
  · have h' : 0 < (A.y - B.y) ^ 2 + (A.z - B.z) ^ 2 := by
      have e : (A.y - B.y) ^ 2 + (A.z - B.z) ^ 2 = (B.y - A.y) ^ 2 + (B.z - A.z) ^ 2 := by ring
      rw [e]; exact h
    rw [if_pos hy, main B A h' hB hA, hun]
  · rw [if_neg hy, main A B h hA hB, hun]

/-- A point abreast of the wing tip at Mach 2 is outside both cones. -/
example : OutsideCone ⟨0, 0, 0⟩ ⟨1, 5, 0⟩ 2 ∧ OutsideCone ⟨1, 2, 0⟩ ⟨1, 5, 0⟩ 2 := by
  unfold OutsideCone; norm_num

/-- **C194.** Conversely the field is not trivially zero: an unswept vortex is felt directly
downstream. -/
theorem C194_felt_downstream :
    supersonic { s := 1, t := 0, xo := 10, yo := 0, zo := 0 } 1 ≠ ⟨0, 0, 0⟩ := by
  intro h
  have hz := congrArg Vec3.z h
  have hs1 : Frame.srad1 { s := 1, t := 0, xo := 10, yo := 0, zo := 0 } 1 = Real.sqrt 99 := by
    unfold Frame.srad1 Frame.X1 Frame.tol Frame.rtv1 Frame.Y1 Frame.zsq
    norm_num
  have hs2 : Frame.srad2 { s := 1, t := 0, xo := 10, yo := 0, zo := 0 } 1 = Real.sqrt 99 := by
    unfold Frame.srad2 Frame.X2 Frame.tol Frame.rtv2 Frame.Y2 Frame.zsq
    norm_num
  unfold supersonic at hz
  rw [if_pos (by unfold Frame.zsq Frame.tolsq2 Frame.tolsq Frame.tol; norm_num)] at hz
  unfold Frame.wInPlane at hz
  rw [hs1, hs2] at hz
  unfold Frame.Y1 Frame.Y2 Frame.XTY Frame.tol at hz
  have h99 : 0 < Real.sqrt 99 := Real.sqrt_pos.2 (by norm_num)
  have hp := Real.pi_pos
  norm_num at hz
  rw [div_neg, div_one] at hz
  linarith

/-- **C194.** The special formula used near the plane of the vortex agrees in the plane with the
general one: no jump is introduced at points well inside both Mach cones and clear of the vortex
lines. -/
theorem C194_in_plane_consistent (f : Frame) (B2 : ℝ) (hs : 0 < f.s) (hz : f.zo = 0)
    (h1 : f.in1 B2 = true) (h2 : f.in2 B2 = true)
    (y1 : f.tol < |f.Y1|) (y2 : f.tol < |f.Y2|) (hx : f.tol < |f.XTY|) :
    f.wInPlane B2 = f.wGeneral B2 := by
  have htol : 0 < f.tol := by unfold Frame.tol; positivity
  have hY1 : f.Y1 ≠ 0 := abs_pos.1 (htol.trans y1)
  have hY2 : f.Y2 ≠ 0 := abs_pos.1 (htol.trans y2)
  have hX : f.XTY ≠ 0 := abs_pos.1 (htol.trans hx)
  have hzsq : f.zsq = 0 := by unfold Frame.zsq; rw [hz]; ring
  have sqlt : ∀ v : ℝ, f.tol < |v| → ¬ v * v < f.tolsq := by
    intro v hv
    unfold Frame.tolsq
    rw [← abs_mul_abs_self v]
    exact not_lt.2 (mul_le_mul hv.le hv.le htol.le (abs_nonneg v))
  have e1 : f.rtv1 = f.Y1 * f.Y1 := by unfold Frame.rtv1; rw [hzsq, add_zero]
  have e2 : f.rtv2 = f.Y2 * f.Y2 := by unfold Frame.rtv2; rw [hzsq, add_zero]
  have hraw : f.denomRaw B2 = f.XTY * f.XTY := by unfold Frame.denomRaw; rw [hzsq]; ring
  have hden : f.denomSup B2 = f.XTY * f.XTY := by
    unfold Frame.denomSup
    rw [hraw, if_neg]
    rw [abs_mul_self]
    exact sqlt _ hx
  have in1' := h1
  have in2' := h2
  unfold Frame.in1 at in1'
  unfold Frame.in2 at in2'
  simp only [decide_eq_true_eq] at in1' in2'
  obtain ⟨p1, r1, -⟩ := in1'
  obtain ⟨p2, r2, -⟩ := in2'
  have sq1 : f.srad1 B2 ^ 2 = f.X1 ^ 2 - B2 * f.Y1 ^ 2 := by
    unfold Frame.srad1 at r1 ⊢
    rw [if_neg p1] at r1 ⊢
    have hpos : 0 < f.X1 * f.X1 - B2 * f.rtv1 := by
      by_contra hc
      exact r1 (Real.sqrt_eq_zero_of_nonpos (not_lt.1 hc))
    rw [Real.sq_sqrt hpos.le, e1]; ring
  have sq2 : f.srad2 B2 ^ 2 = f.X2 ^ 2 - B2 * f.Y2 ^ 2 := by
    unfold Frame.srad2 at r2 ⊢
    rw [if_neg p2] at r2 ⊢
    have hpos : 0 < f.X2 * f.X2 - B2 * f.rtv2 := by
      by_contra hc
      exact r2 (Real.sqrt_eq_zero_of_nonpos (not_lt.1 hc))
    rw [Real.sq_sqrt hpos.le, e2]; ring
  have hXTY1 : f.XTY = f.X1 - f.t * f.Y1 := by unfold Frame.XTY Frame.X1 Frame.Y1; ring
  have hXTY2 : f.XTY = f.X2 - f.t * f.Y2 := by unfold Frame.XTY Frame.X2 Frame.Y2; ring
  unfold Frame.wInPlane Frame.wGeneral Frame.sqb Frame.sfb1 Frame.sfb2 Frame.sft1 Frame.sft2
  simp only [h1, h2, if_true]
  rw [hden, e1, e2, if_neg (sqlt _ y1), if_neg (sqlt _ y2), if_pos y1, if_pos y2, if_pos hx]
  have hp := Real.pi_pos.ne'
  have k1 : (f.t * f.X1 - B2 * f.Y1) / f.srad1 B2 / (f.XTY * f.XTY) * f.XTY
      + f.X1 / (f.srad1 B2 * (f.Y1 * f.Y1)) * f.Y1 = f.srad1 B2 / f.Y1 / f.XTY := by
    field_simp
    rw [sq1, hXTY1]; ring
  have k2 : (f.t * f.X2 - B2 * f.Y2) / f.srad2 B2 / (f.XTY * f.XTY) * f.XTY
      + f.X2 / (f.srad2 B2 * (f.Y2 * f.Y2)) * f.Y2 = f.srad2 B2 / f.Y2 / f.XTY := by
    field_simp
    rw [sq2, hXTY2]; ring
  have k3 : -(((f.t * f.X1 - B2 * f.Y1) / f.srad1 B2 - (f.t * f.X2 - B2 * f.Y2) / f.srad2 B2)
        / (f.XTY * f.XTY) * f.XTY
      + f.X1 / (f.srad1 B2 * (f.Y1 * f.Y1)) * f.Y1 - f.X2 / (f.srad2 B2 * (f.Y2 * f.Y2)) * f.Y2)
      = -(f.srad1 B2 / f.Y1 / f.XTY) + f.srad2 B2 / f.Y2 / f.XTY := by
    rw [← k1, ← k2]; ring
  rw [k3]
  field_simp

/-- The hypotheses hold directly downstream of an unswept vortex at Mach √2. -/
example : Frame.in1 { s := 1, t := 0, xo := 10, yo := 0, zo := 0 } 1 = true ∧
    Frame.in2 { s := 1, t := 0, xo := 10, yo := 0, zo := 0 } 1 = true ∧
    Frame.tol { s := 1, t := 0, xo := 10, yo := 0, zo := 0 }
      < |Frame.Y1 { s := 1, t := 0, xo := 10, yo := 0, zo := 0 }| := by
  refine ⟨?_, ?_, ?_⟩
  · unfold Frame.in1 Frame.srad1 Frame.X1 Frame.tol Frame.rtv1 Frame.Y1 Frame.zsq
    norm_num
  · unfold Frame.in2 Frame.srad2 Frame.X2 Frame.tol Frame.rtv2 Frame.Y2 Frame.zsq
    norm_num
  · unfold Frame.tol Frame.Y1
    norm_num

/-- C194: an end of the vortex counts exactly when the point is a five-hundredth of the half width or
more behind it and within four fifths of its Mach cone (in squares), so that the radius is positive. -/
theorem C194_margin (f : Frame) (B2 : ℝ) (hs : 0 < f.s) :
    (f.in1 B2 = true ↔ f.s / 500 ≤ f.xo + f.t * f.s ∧
      B2 * ((f.yo + f.s) ^ 2 + f.zo ^ 2) ≤ 4 / 5 * (f.xo + f.t * f.s) ^ 2) ∧
    (f.in2 B2 = true ↔ f.s / 500 ≤ f.xo - f.t * f.s ∧
      B2 * ((f.yo - f.s) ^ 2 + f.zo ^ 2) ≤ 4 / 5 * (f.xo - f.t * f.s) ^ 2) := by
  have key : ∀ X R : ℝ, (¬ X < f.s / 500 ∧ (if X < f.s / 500 then 0 else Real.sqrt (X * X - B2 * R)) ≠ 0 ∧
      ¬ B2 * R > 8 / 10 * (X * X)) ↔ f.s / 500 ≤ X ∧ B2 * R ≤ 4 / 5 * X ^ 2 := by
    intro X R
    constructor
    · rintro ⟨h1, -, h3⟩
      exact ⟨not_lt.1 h1, by nlinarith [not_lt.1 h3]⟩
    · rintro ⟨h1, h2⟩
      refine ⟨not_lt.2 h1, ?_, by intro h; nlinarith⟩
      rw [if_neg (not_lt.2 h1)]
      have hX : 0 < X := by linarith
      have : 0 < X * X - B2 * R := by nlinarith [mul_pos hX hX]
      exact (Real.sqrt_pos.2 this).ne'
  constructor
  · unfold Frame.in1 Frame.srad1
    rw [decide_eq_true_eq]
    have := key f.X1 f.rtv1
    unfold Frame.rtv1 Frame.zsq Frame.X1 Frame.Y1 at this
    rw [show (f.yo + f.s) ^ 2 + f.zo ^ 2 = (f.yo + f.s) * (f.yo + f.s) + f.zo * f.zo by ring]
    exact this
  · unfold Frame.in2 Frame.srad2
    rw [decide_eq_true_eq]
    have := key f.X2 f.rtv2
    unfold Frame.rtv2 Frame.zsq Frame.X2 Frame.Y2 at this
    rw [show (f.yo - f.s) ^ 2 + f.zo ^ 2 = (f.yo - f.s) * (f.yo - f.s) + f.zo * f.zo by ring]
    exact this

/-- C194: the divisor of the induced velocity is never zero, differs from the exact one by at most the
square of the tolerance where that is small, and keeps its sign. -/
theorem C194_denominator (f : Frame) (B2 : ℝ) (hs : 0 < f.s) :
    f.denomSup B2 ≠ 0 ∧ (f.tolsq ≤ |f.denomRaw B2| → f.denomSup B2 = f.denomRaw B2) ∧
    |f.denomSup B2 - f.denomRaw B2| ≤ f.tolsq ∧ (f.denomRaw B2 < 0 ↔ f.denomSup B2 < 0) := by
  have ht : 0 < f.tolsq := by unfold Frame.tolsq Frame.tol; positivity
  unfold Frame.denomSup
  generalize f.denomRaw B2 = d
  generalize f.tolsq = t at *
  split_ifs with h h1
  · rw [abs_lt] at h
    refine ⟨by linarith, fun h' => absurd h' (not_le.2 (abs_lt.2 h)), ?_, ?_⟩
    · rw [abs_le]; constructor <;> linarith
    · constructor <;> intro <;> linarith
  · rw [abs_lt] at h
    refine ⟨by linarith, fun h' => absurd h' (not_le.2 (abs_lt.2 h)), ?_, ?_⟩
    · rw [abs_le]; constructor <;> linarith
    · constructor <;> intro <;> linarith
  · refine ⟨?_, fun _ => rfl, by simp [ht.le], Iff.rfl⟩
    rintro rfl
    simp at h; linarith

/-- C194: the extra velocity of a supersonic panel on itself is a downwash that vanishes exactly when the
vortex lies behind its Mach cone; for an unswept vortex it is half the Prandtl-Glauert factor over the panel
chord, the downwash of the two-dimensional (Ackeret) vortex sheet. -/
theorem C194_self_wave (t B2 cox : ℝ) (hc : 0 < cox) :
    selfWave t B2 cox ≤ 0 ∧ (selfWave t B2 cox = 0 ↔ B2 ≤ t ^ 2) ∧
    ∀ M : ℝ, 1 < M → 2 * cox * selfWave 0 (M ^ 2 - 1) cox = -Real.sqrt (M ^ 2 - 1) := by
  unfold selfWave
  refine ⟨?_, ?_, fun M hM => ?_⟩
  · split_ifs with h
    · have := Real.sqrt_nonneg (B2 - t * t)
      exact div_nonpos_of_nonpos_of_nonneg (by linarith) hc.le
    · exact le_rfl
  · split_ifs with h
    · have hp : 0 < Real.sqrt (B2 - t * t) := Real.sqrt_pos.2 (by linarith)
      have : -(1 / 2) * Real.sqrt (B2 - t * t) / cox < 0 := div_neg_of_neg_of_pos (by linarith) hc
      exact ⟨fun h' => absurd h' this.ne, fun h' => absurd h' (by rw [pow_two]; linarith)⟩
    · exact ⟨fun _ => by rw [pow_two]; exact not_lt.1 h, fun _ => rfl⟩
  · rw [if_pos (by nlinarith)]
    simp only [mul_zero, sub_zero]
    field_simp

end Verif.Vlm
