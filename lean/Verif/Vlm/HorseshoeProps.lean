import Verif.Vlm.BiotSavart

/-!
# Properties of the horseshoe influence (C191-C194)
-/

namespace Verif.Vlm

/-- The rotation angle of a vortex whose ends differ in the cross plane. -/
theorem cos_sin_theta (A B : Vec3) (h : 0 < (B.y - A.y) ^ 2 + (B.z - A.z) ^ 2) :
    Real.cos (theta A B) = (B.y - A.y) / Real.sqrt ((B.y - A.y) ^ 2 + (B.z - A.z) ^ 2) ∧
    Real.sin (theta A B) = (B.z - A.z) / Real.sqrt ((B.y - A.y) ^ 2 + (B.z - A.z) ^ 2) := by
  have hn : ‖(⟨B.y - A.y, B.z - A.z⟩ : ℂ)‖ = Real.sqrt ((B.y - A.y) ^ 2 + (B.z - A.z) ^ 2) := by
    rw [Complex.norm_def, Complex.normSq_mk]
    congr 1; ring
  have h0 : (⟨B.y - A.y, B.z - A.z⟩ : ℂ) ≠ 0 := by
    intro hc
    have h1 : B.y - A.y = 0 := congrArg Complex.re hc
    have h2 : B.z - A.z = 0 := congrArg Complex.im hc
    rw [h1, h2] at h; norm_num at h
  unfold theta
  rw [Complex.cos_arg h0, Complex.sin_arg, hn]
  exact ⟨rfl, rfl⟩

/-- Everything about the local frame in terms of `D = 2 s`, the cosine and sine of the rotation and
the coordinates of the point relative to the first end. -/
theorem frame_data (A B P : Vec3) (h : 0 < (B.y - A.y) ^ 2 + (B.z - A.z) ^ 2) :
    ∃ D c n : ℝ, 0 < D ∧ c ^ 2 + n ^ 2 = 1 ∧
      Real.cos (theta A B) = c ∧ Real.sin (theta A B) = n ∧
      B.y - A.y = D * c ∧ B.z - A.z = D * n ∧
      (frame A B P).s = D / 2 ∧ (frame A B P).t = (B.x - A.x) / D ∧
      (frame A B P).X1 = P.x - A.x ∧ (frame A B P).X2 = P.x - B.x ∧
      P.y - A.y = (frame A B P).Y1 * c - (frame A B P).zo * n ∧
      P.z - A.z = (frame A B P).Y1 * n + (frame A B P).zo * c ∧
      (frame A B P).Y2 = (frame A B P).Y1 - D ∧
      (frame A B P).XTY = (frame A B P).X1 - (frame A B P).t * (frame A B P).Y1 := by
  obtain ⟨hcos, hsin⟩ := cos_sin_theta A B h
  obtain ⟨D, hD⟩ : ∃ D, D = Real.sqrt ((B.y - A.y) ^ 2 + (B.z - A.z) ^ 2) := ⟨_, rfl⟩
  rw [← hD] at hcos hsin
  have hDpos : 0 < D := by rw [hD]; exact Real.sqrt_pos.2 h
  have hDsq : D ^ 2 = (B.y - A.y) ^ 2 + (B.z - A.z) ^ 2 := by rw [hD]; exact Real.sq_sqrt h.le
  obtain ⟨c, hc⟩ : ∃ c, c = Real.cos (theta A B) := ⟨_, rfl⟩
  obtain ⟨n, hn⟩ : ∃ n, n = Real.sin (theta A B) := ⟨_, rfl⟩
  have hcn : c ^ 2 + n ^ 2 = 1 := by rw [hc, hn]; exact Real.cos_sq_add_sin_sq _
  have hyc : B.y - A.y = D * c := by rw [hc, hcos]; field_simp
  have hzn : B.z - A.z = D * n := by rw [hn, hsin]; field_simp
  have hy1 : (B.y - (A.y + B.y) / 2) * c + (B.z - (A.z + B.z) / 2) * n = D / 2 := by
    have e1 : B.y - (A.y + B.y) / 2 = D * c / 2 := by rw [← hyc]; ring
    have e2 : B.z - (A.z + B.z) / 2 = D * n / 2 := by rw [← hzn]; ring
    rw [e1, e2]
    linear_combination (D / 2) * hcn
  have hs : (frame A B P).s = D / 2 := by
    simp only [frame]
    rw [← hc, ← hn, hy1, abs_of_pos (by positivity)]
  have ht : (frame A B P).t = (B.x - A.x) / D := by
    simp only [frame]
    rw [← hc, ← hn, hy1]; field_simp; ring
  have hts : (frame A B P).t * (frame A B P).s = (B.x - A.x) / 2 := by
    rw [hs, ht]; field_simp
  have hY1 : (frame A B P).Y1 = (P.y - A.y) * c + (P.z - A.z) * n := by
    unfold Frame.Y1
    rw [hs]
    simp only [frame]
    rw [← hc, ← hn]
    linear_combination -hy1
  have hZ : (frame A B P).zo = -(P.y - A.y) * n + (P.z - A.z) * c := by
    simp only [frame]
    rw [← hc, ← hn]
    have e : (B.y - A.y) * n = (B.z - A.z) * c := by rw [hyc, hzn]; ring
    linear_combination (1 / 2) * e
  refine ⟨D, c, n, hDpos, hcn, hc.symm, hn.symm, hyc, hzn, hs, ht, ?_, ?_, ?_, ?_, ?_, ?_⟩
  · unfold Frame.X1; rw [hts]; simp only [frame]; ring
  · unfold Frame.X2; rw [hts]; simp only [frame]; ring
  · rw [hY1, hZ]; linear_combination -(P.y - A.y) * hcn
  · rw [hY1, hZ]; linear_combination -(P.z - A.z) * hcn
  · unfold Frame.Y1 Frame.Y2; rw [hs]; ring
  · unfold Frame.XTY Frame.X1 Frame.Y1; ring

/-- The incompressible kernel without its safeguards. -/
noncomputable def rawKernel (f : Frame) : Vec3 :=
  let R1 := Real.sqrt (f.X1 ^ 2 + f.rtv1)
  let R2 := Real.sqrt (f.X2 ^ 2 + f.rtv2)
  let qb := ((f.t * f.X1 + f.Y1) / R1 - (f.t * f.X2 + f.Y2) / R2)
    / (f.XTY ^ 2 + (f.t ^ 2 + 1) * f.zsq)
  let ft1 := (f.X1 + R1) / (R1 * f.rtv1)
  let ft2 := (f.X2 + R2) / (R2 * f.rtv2)
  ⟨f.zo / (4 * Real.pi) * qb, f.zo / (4 * Real.pi) * (ft1 - ft2 - qb * f.t),
   -(qb * f.XTY + ft1 * f.Y1 - ft2 * f.Y2) / (4 * Real.pi)⟩

set_option maxHeartbeats 2000000 in
/-- Without safeguards the incompressible kernel is the Biot-Savart integral. -/
theorem rawKernel_eq_horseshoe (A B P : Vec3) (h : 0 < (B.y - A.y) ^ 2 + (B.z - A.z) ^ 2)
    (h1 : 0 < (frame A B P).rtv1) (h2 : 0 < (frame A B P).rtv2)
    (h3 : 0 < (frame A B P).XTY ^ 2 + ((frame A B P).t ^ 2 + 1) * (frame A B P).zsq) :
    unrotate (theta A B) (rawKernel (frame A B P)) = horseshoeVelocity A B P := by
  obtain ⟨D, c, n, hD, hcn, hc, hn, hyc, hzn, hs, ht, hX1, hX2, hPy, hPz, hY2, hXTY⟩ :=
    frame_data A B P h
  generalize hf : frame A B P = f at *
  obtain ⟨X1, hX1d⟩ : ∃ v, v = f.X1 := ⟨_, rfl⟩
  obtain ⟨Y1, hY1d⟩ : ∃ v, v = f.Y1 := ⟨_, rfl⟩
  obtain ⟨Z, hZd⟩ : ∃ v, v = f.zo := ⟨_, rfl⟩
  obtain ⟨t, htd⟩ : ∃ v, v = f.t := ⟨_, rfl⟩
  have hzz : f.zsq = Z ^ 2 := by rw [hZd]; unfold Frame.zsq; ring
  have hX2' : f.X2 = X1 - D * t := by
    rw [hX2, hX1d, hX1, htd, ht]; field_simp; ring
  have hrtv1 : f.rtv1 = Y1 ^ 2 + Z ^ 2 := by unfold Frame.rtv1; rw [hzz, ← hY1d]; ring
  have hrtv2 : f.rtv2 = (Y1 - D) ^ 2 + Z ^ 2 := by
    unfold Frame.rtv2; rw [hzz, hY2, ← hY1d]; ring
  have hXTY' : f.XTY = X1 - t * Y1 := by rw [hXTY, ← htd, ← hX1d, ← hY1d]
  rw [hrtv1] at h1
  rw [hrtv2] at h2
  rw [hXTY', ← htd, hzz] at h3
  obtain ⟨R1, hR1⟩ : ∃ v, v = Real.sqrt (f.X1 ^ 2 + f.rtv1) := ⟨_, rfl⟩
  obtain ⟨R2, hR2⟩ : ∃ v, v = Real.sqrt (f.X2 ^ 2 + f.rtv2) := ⟨_, rfl⟩
  have hxA : P.x - A.x = X1 := by rw [hX1d, hX1]
  have hxB : P.x - B.x = X1 - D * t := by rw [← hX2, hX2']
  have hdx : B.x - A.x = D * t := by linarith
  have hPy' : P.y - A.y = Y1 * c - Z * n := by rw [hPy, ← hY1d, ← hZd]
  have hPz' : P.z - A.z = Y1 * n + Z * c := by rw [hPz, ← hY1d, ← hZd]
  have hR1n : (P - A).norm = R1 := by
    rw [hR1]; unfold Vec3.norm
    rw [hrtv1, ← hX1d]
    simp only [Vec3.sub_x, Vec3.sub_y, Vec3.sub_z]
    rw [hPy', hPz', hxA]
    congr 1
    linear_combination (Y1 ^ 2 + Z ^ 2) * hcn
  have hPBy : P.y - B.y = (Y1 - D) * c - Z * n := by
    have : P.y - B.y = (P.y - A.y) - (B.y - A.y) := by ring
    rw [this, hPy', hyc]; ring
  have hPBz : P.z - B.z = (Y1 - D) * n + Z * c := by
    have : P.z - B.z = (P.z - A.z) - (B.z - A.z) := by ring
    rw [this, hPz', hzn]; ring
  have hR2n : (P - B).norm = R2 := by
    rw [hR2]; unfold Vec3.norm
    rw [hrtv2, hX2']
    simp only [Vec3.sub_x, Vec3.sub_y, Vec3.sub_z]
    rw [hPBy, hPBz, hxB]
    congr 1
    linear_combination ((Y1 - D) ^ 2 + Z ^ 2) * hcn
  have hR1pos : 0 < R1 := by
    rw [hR1, hrtv1]; apply Real.sqrt_pos.2; linarith [sq_nonneg f.X1]
  have hR2pos : 0 < R2 := by
    rw [hR2, hrtv2]; apply Real.sqrt_pos.2; linarith [sq_nonneg f.X2]
  have hdd : Vec3.dot (B - A) (B - A) = D ^ 2 * (t ^ 2 + 1) := by
    simp only [Vec3.dot, Vec3.sub_x, Vec3.sub_y, Vec3.sub_z]
    rw [hdx, hyc, hzn]; linear_combination D ^ 2 * hcn
  have hdr : Vec3.dot (B - A) (P - A) = D * (t * X1 + Y1) := by
    simp only [Vec3.dot, Vec3.sub_x, Vec3.sub_y, Vec3.sub_z]
    rw [hdx, hyc, hzn, hxA, hPy', hPz']; linear_combination D * Y1 * hcn
  have hrr : Vec3.dot (P - A) (P - A) = X1 ^ 2 + Y1 ^ 2 + Z ^ 2 := by
    simp only [Vec3.dot, Vec3.sub_x, Vec3.sub_y, Vec3.sub_z]
    rw [hxA, hPy', hPz']; linear_combination (Y1 ^ 2 + Z ^ 2) * hcn
  have hGram : Vec3.dot (B - A) (B - A) * Vec3.dot (P - A) (P - A) - Vec3.dot (B - A) (P - A) ^ 2
      = D ^ 2 * ((X1 - t * Y1) ^ 2 + (t ^ 2 + 1) * Z ^ 2) := by
    rw [hdd, hdr, hrr]; ring
  have hcross : Vec3.cross (B - A) (P - A) =
      ⟨D * Z, D * (n * (X1 - t * Y1) - t * Z * c), -D * (c * (X1 - t * Y1) + t * Z * n)⟩ := by
    simp only [Vec3.cross, Vec3.sub_x, Vec3.sub_y, Vec3.sub_z]
    rw [hdx, hyc, hzn, hxA, hPy', hPz']
    ext <;> simp only
    · linear_combination D * Z * hcn
    · ring
    · ring
  have qA : (P.y - A.y) ^ 2 + (P.z - A.z) ^ 2 = Y1 ^ 2 + Z ^ 2 := by
    rw [hPy', hPz']; linear_combination (Y1 ^ 2 + Z ^ 2) * hcn
  have qB : (P.y - B.y) ^ 2 + (P.z - B.z) ^ 2 = (Y1 - D) ^ 2 + Z ^ 2 := by
    rw [hPBy, hPBz]; linear_combination ((Y1 - D) ^ 2 + Z ^ 2) * hcn
  unfold horseshoeVelocity
  rw [boundVelocity_eq A B P (by rw [hdd]; positivity) (by rw [hGram]; positivity),
    legVelocity_eq B P (by rw [qB]; exact h2), legVelocity_eq A P (by rw [qA]; exact h1),
    hGram, hdd, hdr, hcross, qA, qB, hR1n, hR2n, hxA, hxB, hPy', hPz', hPBy, hPBz]
  unfold unrotate rawKernel
  simp only
  rw [hc, hn, ← hR1, ← hR2, hrtv1, hrtv2, hXTY', hY2, hX2', hzz, ← hX1d, ← hY1d, ← hZd, ← htd]
  have hp' := Real.pi_pos.ne'
  generalize Real.pi = p at *
  generalize hQd : (X1 - t * Y1) ^ 2 + (t ^ 2 + 1) * Z ^ 2 = Q at *
  generalize hq1d : Y1 ^ 2 + Z ^ 2 = q1 at *
  generalize hq2d : (Y1 - D) ^ 2 + Z ^ 2 = q2 at *
  have hR1' := hR1pos.ne'
  have hR2' := hR2pos.ne'
  have hQ' := h3.ne'
  have hq1' := h1.ne'
  have hq2' := h2.ne'
  have hD' := hD.ne'
  clear hGram hdd hdr hrr hcross
  ext
  · simp only [Vec3.sub_x, Vec3.add_x, Vec3.smul]
    field_simp
    ring
  · simp only [Vec3.sub_y, Vec3.add_y, Vec3.smul]
    field_simp
    ring
  · simp only [Vec3.sub_z, Vec3.add_z, Vec3.smul]
    field_simp
    ring

/-- Specification.  The affine stretching of the Prandtl-Glauert rule: lengths along the flow are
divided by `b = √(1 - M²)`. -/
noncomputable def stretch (b : ℝ) (v : Vec3) : Vec3 := ⟨v.x / b, v.y, v.z⟩

/-- Specification.  Width of the horseshoe, seen along the flow. -/
noncomputable def width (A B : Vec3) : ℝ := Real.sqrt ((B.y - A.y) ^ 2 + (B.z - A.z) ^ 2)

/-- Specification.  The point `P` is clear of the horseshoe from `A` to `B`: it is at least a
thousandth of the width away from the lines of the trailing legs and (in stretched coordinates)
of the bound vortex, and either that far out of the plane of the horseshoe or exactly in it. -/
structure Clear (A B P : Vec3) (b : ℝ) : Prop where
  wide : 0 < (B.y - A.y) ^ 2 + (B.z - A.z) ^ 2
  legA : (width A B / 1000) ^ 2 ≤ (P.y - A.y) ^ 2 + (P.z - A.z) ^ 2
  legB : (width A B / 1000) ^ 2 ≤ (P.y - B.y) ^ 2 + (P.z - B.z) ^ 2
  bound : (width A B / 1000) ^ 2 * width A B ^ 2
    ≤ b ^ 2 * (Vec3.cross (stretch b (B - A)) (stretch b (P - A))).norm ^ 2
  plane : (B.y - A.y) * (P.z - A.z) - (B.z - A.z) * (P.y - A.y) = 0 ∨
    (width A B / 1000) ^ 2 * width A B ^ 2
      ≤ ((B.y - A.y) * (P.z - A.z) - (B.z - A.z) * (P.y - A.y)) ^ 2

/-- The local frame of the stretched horseshoe. -/
theorem frame_stretch (A B P : Vec3) (b : ℝ) :
    frame (stretch b A) (stretch b B) (stretch b P) =
      { s := (frame A B P).s, t := (frame A B P).t / b, xo := (frame A B P).xo / b,
        yo := (frame A B P).yo, zo := (frame A B P).zo } := by
  have hth : theta (stretch b A) (stretch b B) = theta A B := rfl
  simp only [frame]
  simp only [hth]
  simp only [stretch]
  congr 1 <;> ring

set_option maxHeartbeats 1000000 in
/-- The safeguarded kernel at a subsonic Mach number, at a point clear of the horseshoe. -/
theorem subsonic_eq_stretched (A B P : Vec3) (b : ℝ) (hb : 0 < b) (hcl : Clear A B P b) :
    unrotate (theta A B) (subsonic (frame A B P) (-b ^ 2)) =
      ⟨(horseshoeVelocity (stretch b A) (stretch b B) (stretch b P)).x / b,
       (horseshoeVelocity (stretch b A) (stretch b B) (stretch b P)).y,
       (horseshoeVelocity (stretch b A) (stretch b B) (stretch b P)).z⟩ := by
  obtain ⟨D, c, n, hD, hcn, hc, hn, hyc, hzn, hs, ht, hX1, hX2, hPy, hPz, hY2, hXTY⟩ :=
    frame_data A B P hcl.wide
  have hw : width A B = D := by
    unfold width
    rw [hyc, hzn]
    have : (D * c) ^ 2 + (D * n) ^ 2 = D ^ 2 := by linear_combination D ^ 2 * hcn
    rw [this, Real.sqrt_sq hD.le]
  have hfs := frame_stretch A B P b
  have hlegA := hcl.legA
  have hlegB := hcl.legB
  have hbound := hcl.bound
  have hplane := hcl.plane
  rw [hw] at hlegA hlegB hbound hplane
  generalize hf : frame A B P = f at *
  have htol : f.tolsq = (D / 1000) ^ 2 := by unfold Frame.tolsq Frame.tol; rw [hs]; ring
  have htolpos : 0 < (D / 1000) ^ 2 := by positivity
  have hzz : f.zsq = f.zo ^ 2 := by unfold Frame.zsq; ring
  have qA : (P.y - A.y) ^ 2 + (P.z - A.z) ^ 2 = f.rtv1 := by
    unfold Frame.rtv1
    rw [hzz, hPy, hPz]; linear_combination (f.Y1 ^ 2 + f.zo ^ 2) * hcn
  have hPBy : P.y - B.y = f.Y2 * c - f.zo * n := by
    have : P.y - B.y = (P.y - A.y) - (B.y - A.y) := by ring
    rw [this, hPy, hyc, hY2]; ring
  have hPBz : P.z - B.z = f.Y2 * n + f.zo * c := by
    have : P.z - B.z = (P.z - A.z) - (B.z - A.z) := by ring
    rw [this, hPz, hzn, hY2]; ring
  have qB : (P.y - B.y) ^ 2 + (P.z - B.z) ^ 2 = f.rtv2 := by
    unfold Frame.rtv2
    rw [hzz, hPBy, hPBz]; linear_combination (f.Y2 ^ 2 + f.zo ^ 2) * hcn
  rw [qA] at hlegA
  rw [qB] at hlegB
  have hdx : B.x - A.x = D * f.t := by rw [ht]; field_simp
  have hoff : (B.y - A.y) * (P.z - A.z) - (B.z - A.z) * (P.y - A.y) = D * f.zo := by
    rw [hyc, hzn, hPy, hPz]; linear_combination D * f.zo * hcn
  have hcrn : b ^ 2 * (Vec3.cross (stretch b (B - A)) (stretch b (P - A))).norm ^ 2
      = D ^ 2 * (f.XTY ^ 2 + (f.t ^ 2 + b ^ 2) * f.zo ^ 2) := by
    unfold Vec3.norm
    rw [Real.sq_sqrt (by positivity)]
    simp only [Vec3.cross, stretch, Vec3.sub_x, Vec3.sub_y, Vec3.sub_z]
    rw [hoff, hdx, hyc, hzn, ← hX1, hPy, hPz, hXTY]
    field_simp
    linear_combination ((f.X1 - f.t * f.Y1) ^ 2 + f.t ^ 2 * f.zo ^ 2) * hcn
  rw [hcrn] at hbound
  have hden : (D / 1000) ^ 2 ≤ f.XTY ^ 2 + (f.t ^ 2 + b ^ 2) * f.zo ^ 2 := by
    have hD2 : 0 < D ^ 2 := by positivity
    rw [mul_comm ((D / 1000) ^ 2)] at hbound
    exact le_of_mul_le_mul_left hbound hD2
  rw [hoff] at hplane
  have hz : f.zo = 0 ∨ (D / 1000) ^ 2 ≤ f.zo ^ 2 := by
    rcases hplane with h | h
    · left; exact (mul_eq_zero.1 h).resolve_left hD.ne'
    · right
      have hD2 : 0 < D ^ 2 := by positivity
      have h' : D ^ 2 * (D / 1000) ^ 2 ≤ D ^ 2 * f.zo ^ 2 := by nlinarith
      exact le_of_mul_le_mul_left h' hD2
  -- the stretched frame
  obtain ⟨g, hg⟩ : ∃ g, g = frame (stretch b A) (stretch b B) (stretch b P) := ⟨_, rfl⟩
  rw [← hg] at hfs
  have g1 : g.X1 = f.X1 / b := by rw [hfs]; unfold Frame.X1; simp only; ring
  have g2 : g.X2 = f.X2 / b := by rw [hfs]; unfold Frame.X2; simp only; ring
  have g3 : g.Y1 = f.Y1 := by rw [hfs]; rfl
  have g4 : g.Y2 = f.Y2 := by rw [hfs]; rfl
  have g5 : g.XTY = f.XTY / b := by rw [hfs]; unfold Frame.XTY; simp only; ring
  have g6 : g.rtv1 = f.rtv1 := by rw [hfs]; rfl
  have g7 : g.rtv2 = f.rtv2 := by rw [hfs]; rfl
  have g8 : g.zsq = f.zsq := by rw [hfs]; rfl
  have g9 : g.t = f.t / b := by rw [hfs]
  have g10 : g.zo = f.zo := by rw [hfs]
  have hr1 : 0 < f.rtv1 := lt_of_lt_of_le htolpos hlegA
  have hr2 : 0 < f.rtv2 := lt_of_lt_of_le htolpos hlegB
  have hQ0 : 0 < f.XTY ^ 2 + (f.t ^ 2 + b ^ 2) * f.zo ^ 2 := lt_of_lt_of_le htolpos hden
  have hQg : g.XTY ^ 2 + (g.t ^ 2 + 1) * g.zsq
      = (f.XTY ^ 2 + (f.t ^ 2 + b ^ 2) * f.zo ^ 2) / b ^ 2 := by
    rw [g5, g9, g8, hzz]; field_simp
  have hraw := rawKernel_eq_horseshoe (stretch b A) (stretch b B) (stretch b P) hcl.wide
    (by rw [← hg, g6]; exact hr1) (by rw [← hg, g7]; exact hr2)
    (by rw [← hg, hQg]; positivity)
  rw [← hraw, ← hg]
  have hth : theta (stretch b A) (stretch b B) = theta A B := rfl
  rw [hth]
  have hR1 : Real.sqrt (g.X1 ^ 2 + g.rtv1) = f.rad1 (-b ^ 2) / b := by
    unfold Frame.rad1
    rw [g1, g6]
    have : f.X1 * f.X1 - -b ^ 2 * f.rtv1 = b ^ 2 * ((f.X1 / b) ^ 2 + f.rtv1) := by
      field_simp; ring
    rw [this, Real.sqrt_mul (by positivity), Real.sqrt_sq hb.le]
    field_simp
  have hR2 : Real.sqrt (g.X2 ^ 2 + g.rtv2) = f.rad2 (-b ^ 2) / b := by
    unfold Frame.rad2
    rw [g2, g7]
    have : f.X2 * f.X2 - -b ^ 2 * f.rtv2 = b ^ 2 * ((f.X2 / b) ^ 2 + f.rtv2) := by
      field_simp; ring
    rw [this, Real.sqrt_mul (by positivity), Real.sqrt_sq hb.le]
    field_simp
  have hr1pos : 0 < f.rad1 (-b ^ 2) := by
    unfold Frame.rad1
    apply Real.sqrt_pos.2
    have := mul_pos (pow_pos hb 2) hr1
    linarith [mul_self_nonneg f.X1]
  have hr2pos : 0 < f.rad2 (-b ^ 2) := by
    unfold Frame.rad2
    apply Real.sqrt_pos.2
    have := mul_pos (pow_pos hb 2) hr2
    linarith [mul_self_nonneg f.X2]
  have hft1 : f.ft1 (-b ^ 2) = (f.X1 + f.rad1 (-b ^ 2)) / (f.rad1 (-b ^ 2) * f.rtv1) := by
    unfold Frame.ft1; rw [if_neg (by rw [htol]; exact not_lt.2 hlegA)]
  have hft2 : f.ft2 (-b ^ 2) = (f.X2 + f.rad2 (-b ^ 2)) / (f.rad2 (-b ^ 2) * f.rtv2) := by
    unfold Frame.ft2; rw [if_neg (by rw [htol]; exact not_lt.2 hlegB)]
  have hdn : f.denomSub (-b ^ 2) = f.XTY ^ 2 + (f.t ^ 2 + b ^ 2) * f.zo ^ 2 := by
    have e : f.XTY * f.XTY + (f.t * f.t - -b ^ 2) * f.zsq
        = f.XTY ^ 2 + (f.t ^ 2 + b ^ 2) * f.zo ^ 2 := by rw [hzz]; ring
    unfold Frame.denomSub
    rw [e, if_neg (by rw [htol]; exact not_lt.2 hden)]
  have hU : ∀ w : ℝ, (if f.zsq < f.tolsq then 0 else f.zo / (4 * Real.pi) * w)
      = f.zo / (4 * Real.pi) * w := by
    intro w
    rcases hz with h | h
    · rw [h]; simp
    · rw [if_neg (by rw [htol, hzz]; exact not_lt.2 h)]
  unfold subsonic rawKernel
  simp only
  rw [hU, hU, hQg, hR1, hR2, g1, g2, g3, g4, g5, g6, g7, g9, g10, hft1, hft2]
  unfold Frame.qb Frame.fb1 Frame.fb2
  rw [hdn]
  generalize hQd : f.XTY ^ 2 + (f.t ^ 2 + b ^ 2) * f.zo ^ 2 = Q at *
  generalize f.rad1 (-b ^ 2) = R1 at *
  generalize f.rad2 (-b ^ 2) = R2 at *
  generalize f.rtv1 = q1 at *
  generalize f.rtv2 = q2 at *
  have hR1' := hr1pos.ne'
  have hR2' := hr2pos.ne'
  have hQ' := hQ0.ne'
  have hq1' := hr1.ne'
  have hq2' := hr2.ne'
  have hp' := Real.pi_pos.ne'
  generalize Real.pi = p at *
  have eqb : ((f.t / b * (f.X1 / b) + f.Y1) / (R1 / b) - (f.t / b * (f.X2 / b) + f.Y2) / (R2 / b))
      / (Q / b ^ 2) = b * (((f.t * f.X1 - -b ^ 2 * f.Y1) / R1 - (f.t * f.X2 - -b ^ 2 * f.Y2) / R2) / Q) := by
    field_simp
    ring
  have e1 : (f.X1 / b + R1 / b) / (R1 / b * q1) = (f.X1 + R1) / (R1 * q1) := by
    field_simp
  have e2 : (f.X2 / b + R2 / b) / (R2 / b * q2) = (f.X2 + R2) / (R2 * q2) := by
    field_simp
  rw [eqb, e1, e2]
  generalize ((f.t * f.X1 - -b ^ 2 * f.Y1) / R1 - (f.t * f.X2 - -b ^ 2 * f.Y2) / R2) / Q = qb
  generalize (f.X1 + R1) / (R1 * q1) = ft1
  generalize (f.X2 + R2) / (R2 * q2) = ft2
  have e3 : b * qb * (f.t / b) = qb * f.t := by field_simp
  have e4 : b * qb * (f.XTY / b) = qb * f.XTY := by field_simp
  have e5 : f.zo / (4 * p) * (b * qb) / b = f.zo / (4 * p) * qb := by field_simp
  unfold unrotate
  simp only
  rw [e3, e4, e5]

/-- **C191.** In incompressible flow the velocity induced by a unit horseshoe vortex is the
Biot-Savart integral over its three pieces, for every position of the vortex and every point clear
of it.  The circulation always runs from the end with smaller `y` to the one with larger `y`. -/
theorem C191_biot_savart (A B P : Vec3) (hAB : A.y ≤ B.y) (hcl : Clear A B P 1) :
    inducedSub A B P 0 = horseshoeVelocity A B P := by
  unfold inducedSub
  rw [if_neg (not_lt.2 hAB)]
  have h := subsonic_eq_stretched A B P 1 one_pos hcl
  have e : ∀ v : Vec3, stretch 1 v = v := by intro v; unfold stretch; simp
  rw [e, e, e, div_one] at h
  have e2 : ((0:ℝ) ^ 2 - 1) = -1 ^ 2 := by norm_num
  rw [e2, h]

/-- **C191.** With the ends listed the other way round the same vortex is evaluated: the circulation
does not depend on which end of the panel is called `A`. -/
theorem C191_end_order (A B P : Vec3) (M : ℝ) (hAB : A.y ≠ B.y) :
    inducedSub A B P M = inducedSub B A P M := by
  unfold inducedSub
  rcases lt_or_gt_of_ne hAB with h | h
  · rw [if_neg (not_lt.2 h.le), if_pos h]
  · rw [if_pos h, if_neg (not_lt.2 h.le)]

/-- **C192.** Compressibility enters exactly by the Prandtl-Glauert rule: at Mach number `M < 1` the
velocity is the incompressible Biot-Savart velocity of the horseshoe stretched by
`1/√(1 - M²)` along the flow, with the streamwise component divided by `√(1 - M²)`. -/
theorem C192_prandtl_glauert (A B P : Vec3) (M : ℝ) (hM : M ^ 2 < 1) (hAB : A.y ≤ B.y)
    (hcl : Clear A B P (Real.sqrt (1 - M ^ 2))) :
    (inducedSub A B P M).x =
        (horseshoeVelocity (stretch (Real.sqrt (1 - M ^ 2)) A) (stretch (Real.sqrt (1 - M ^ 2)) B)
          (stretch (Real.sqrt (1 - M ^ 2)) P)).x / Real.sqrt (1 - M ^ 2) ∧
    (inducedSub A B P M).y =
        (horseshoeVelocity (stretch (Real.sqrt (1 - M ^ 2)) A) (stretch (Real.sqrt (1 - M ^ 2)) B)
          (stretch (Real.sqrt (1 - M ^ 2)) P)).y ∧
    (inducedSub A B P M).z =
        (horseshoeVelocity (stretch (Real.sqrt (1 - M ^ 2)) A) (stretch (Real.sqrt (1 - M ^ 2)) B)
          (stretch (Real.sqrt (1 - M ^ 2)) P)).z := by
  have hpos : 0 < 1 - M ^ 2 := by linarith
  have h := subsonic_eq_stretched A B P _ (Real.sqrt_pos.2 hpos) hcl
  rw [Real.sq_sqrt hpos.le] at h
  have e : M ^ 2 - 1 = -(1 - M ^ 2) := by ring
  unfold inducedSub
  rw [if_neg (not_lt.2 hAB), e, h]
  exact ⟨rfl, rfl, rfl⟩

/-- The hypotheses hold for a point one unit above an unswept vortex of width two. -/
example : Clear ⟨0, -1, 0⟩ ⟨0, 1, 0⟩ ⟨0, 0, 1⟩ 1 := by
  have hw : width ⟨0, -1, 0⟩ ⟨0, 1, 0⟩ = 2 := by
    unfold width
    rw [show ((1:ℝ) - -1) ^ 2 + (0 - 0) ^ 2 = 2 ^ 2 by norm_num]
    exact Real.sqrt_sq (by norm_num)
  constructor
  · norm_num
  · rw [hw]; norm_num
  · rw [hw]; norm_num
  · rw [hw]; unfold Vec3.norm; rw [Real.sq_sqrt (by positivity)]
    simp only [Vec3.cross, stretch, Vec3.sub_x, Vec3.sub_y, Vec3.sub_z]; norm_num
  · right; rw [hw]; norm_num

/-- They hold for a swept, inclined vortex and a control point in its plane at Mach 0.6 too. -/
example : Clear ⟨0, 0, 0⟩ ⟨1, 3, 4⟩ ⟨2, 3 / 2, 2⟩ (8 / 10) := by
  have hw : width ⟨0, 0, 0⟩ ⟨1, 3, 4⟩ = 5 := by
    unfold width
    rw [show ((3:ℝ) - 0) ^ 2 + (4 - 0) ^ 2 = 5 ^ 2 by norm_num]
    exact Real.sqrt_sq (by norm_num)
  constructor
  · norm_num
  · rw [hw]; norm_num
  · rw [hw]; norm_num
  · rw [hw]; unfold Vec3.norm; rw [Real.sq_sqrt (by positivity)]
    simp only [Vec3.cross, stretch, Vec3.sub_x, Vec3.sub_y, Vec3.sub_z]; norm_num
  · left; norm_num

end Verif.Vlm
