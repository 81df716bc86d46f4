import Verif.Airfoil.PanelField
import Mathlib.Analysis.SpecialFunctions.Complex.Arg
import Mathlib.Analysis.Real.Pi.Bounds

/-!
What the panel method computes: no flow through the panels, the reported tangential velocity and the Kutta condition.
-/

namespace Verif.Airfoil
open Complex Filter Topology

/-- The middle of panel `i`. -/
noncomputable def Outline.mid (o : Outline) (i : ℕ) : ℂ := (o.node i + o.node (i + 1)) / 2
/-- The unit vector along panel `i`. -/
noncomputable def Outline.dir (o : Outline) (i : ℕ) : ℂ := (o.node (i + 1) - o.node i) / (‖o.node (i + 1) - o.node i‖ : ℂ)

theorem norm_pt (x y : ℝ) : ‖pt x y‖ = Real.sqrt (x ^ 2 + y ^ 2) := by
  rw [pt, Complex.norm_def, Complex.normSq_mk]; congr 1; ring

theorem pt_sub (a b c d : ℝ) : pt a b - pt c d = pt (a - c) (b - d) := by
  apply Complex.ext <;> simp [pt]

theorem len_eq (o : Outline) (j : ℕ) : ‖o.node (j + 1) - o.node j‖ = o.len j := by
  rw [Outline.node, Outline.node, pt_sub, norm_pt, Outline.len]

theorem dir_eq (o : Outline) (j : ℕ) : o.dir j = o.ct j + o.st j * I := by
  rw [Outline.dir, len_eq, Outline.node, Outline.node, pt_sub, Outline.ct, Outline.st]
  apply Complex.ext <;> simp [pt]

theorem mid_eq (o : Outline) (i : ℕ) : o.mid i = pt (o.xbar i) (o.ybar i) := by
  rw [Outline.mid, Outline.node, Outline.node, Outline.xbar, Outline.ybar]
  apply Complex.ext <;> simp [pt] <;> ring

theorem r_eq (o : Outline) (i j : ℕ) : o.r i j = ‖o.mid i - o.node j‖ := by
  rw [mid_eq, Outline.node, pt_sub, norm_pt, Outline.r]

/-- The argument of a complex number off the negative axis by sign and arc cosine. -/
theorem arg_sign {u : ℂ} (h : u ∈ slitPlane) : arg u = (SignType.sign u.im : ℝ) * Real.arccos (u.re / ‖u‖) := by
  have h0 := slitPlane_ne_zero h
  rcases lt_trichotomy u.im 0 with hi | hi | hi
  · rw [arg_of_im_neg hi, sign_neg hi]; simp
  · have hre : 0 < u.re := by
      rcases (mem_slitPlane_iff.mp h) with h1 | h1
      · exact h1
      · exact absurd hi h1
    rw [hi, sign_zero]
    have : arg u = 0 := by rw [arg_eq_zero_iff]; exact ⟨hre.le, hi⟩
    rw [this]; simp
  · rw [arg_of_im_nonneg_of_ne_zero hi.le h0, sign_pos hi]; simp

theorem beta_eq (o : Outline) {i j : ℕ} (hij : i ≠ j) (ha : o.mid i ≠ o.node j)
    (h : (o.mid i - o.node (j + 1)) / (o.mid i - o.node j) ∈ slitPlane) :
    o.beta i j = arg ((o.mid i - o.node (j + 1)) / (o.mid i - o.node j)) := by
  rw [arg_sign h, Outline.beta, if_neg hij]
  have h0 := slitPlane_ne_zero h
  have ha' : o.mid i - o.node j ≠ 0 := sub_ne_zero.mpr ha
  have hb' : o.mid i - o.node (j + 1) ≠ 0 := fun hb => h0 (by rw [hb, zero_div])
  have hra : 0 < ‖o.mid i - o.node j‖ := norm_pos_iff.mpr ha'
  have hrb : 0 < ‖o.mid i - o.node (j + 1)‖ := norm_pos_iff.mpr hb'
  have hsq : normSq (o.mid i - o.node j) = ‖o.mid i - o.node j‖ ^ 2 := normSq_eq_norm_sq _
  have hre : ((o.mid i - o.node (j + 1)) / (o.mid i - o.node j)).re = o.dot i j / ‖o.mid i - o.node j‖ ^ 2 := by
    rw [Complex.div_re, hsq, ← add_div]
    congr 1
    rw [mid_eq, Outline.node, Outline.node, pt_sub, pt_sub, Outline.dot]; simp only [pt]; ring
  have him : ((o.mid i - o.node (j + 1)) / (o.mid i - o.node j)).im = o.turn i j / ‖o.mid i - o.node j‖ ^ 2 := by
    rw [Complex.div_im, hsq, ← sub_div]
    congr 1
    rw [mid_eq, Outline.node, Outline.node, pt_sub, pt_sub, Outline.turn]; simp only [pt]; ring
  have hsign : SignType.sign ((o.mid i - o.node (j + 1)) / (o.mid i - o.node j)).im = SignType.sign (o.turn i j) := by
    rw [him]
    rcases lt_trichotomy (o.turn i j) 0 with ht | ht | ht
    · rw [sign_neg ht, sign_neg (div_neg_of_neg_of_pos ht (by positivity))]
    · rw [ht]; simp
    · rw [sign_pos ht, sign_pos (by positivity)]
  have hq : o.dot i j / o.r i j / o.r i (j + 1) =
      ((o.mid i - o.node (j + 1)) / (o.mid i - o.node j)).re / ‖(o.mid i - o.node (j + 1)) / (o.mid i - o.node j)‖ := by
    rw [hre, norm_div, r_eq, r_eq]
    field_simp
  have hle : o.dot i j / o.r i j / o.r i (j + 1) ≤ 1 := by
    rw [hq, div_le_one (norm_pos_iff.mpr h0)]
    exact Complex.re_le_norm _
  have hratio : o.ratio i j = o.dot i j / o.r i j / o.r i (j + 1) := by
    simp only [Outline.ratio, gt_iff_lt]; rw [if_neg (not_lt.mpr hle)]
  rw [hsign, hratio, hq]

theorem log_eq (o : Outline) {i j : ℕ} (hij : i ≠ j) (ha : o.mid i ≠ o.node j)
    (h : (o.mid i - o.node (j + 1)) / (o.mid i - o.node j) ∈ slitPlane) :
    log ((o.mid i - o.node (j + 1)) / (o.mid i - o.node j)) = o.lg i j + o.beta i j * I := by
  rw [Complex.log, beta_eq o hij ha h, Outline.lg, norm_div, r_eq, r_eq]

/-- Approaching the middle of panel `i` from its left side, the logarithm of the panel `j` tends to the numbers of the code. -/
theorem log_tendsto (o : Outline) {i j : ℕ} (hlen : o.node i ≠ o.node (i + 1))
    (hoff : i ≠ j → OffSegment (o.node j) (o.node (j + 1)) (o.mid i)) :
    Tendsto (fun ε : ℝ => log ((o.mid i + ε * (I * o.dir i) - o.node (j + 1)) / (o.mid i + ε * (I * o.dir i) - o.node j)))
      (𝓝[>] 0) (𝓝 (o.lg i j + o.beta i j * I)) := by
  have hcont : Tendsto (fun ε : ℝ => o.mid i + ε * (I * o.dir i)) (𝓝[>] 0) (𝓝 (o.mid i)) := by
    have : Continuous (fun ε : ℝ => o.mid i + ε * (I * o.dir i)) := by fun_prop
    have h1 := (this.tendsto 0).mono_left (nhdsWithin_le_nhds (s := Set.Ioi 0))
    simpa using h1
  by_cases hij : i = j
  · subst hij
    have hba : o.node (i + 1) - o.node i ≠ 0 := sub_ne_zero.mpr (Ne.symm hlen)
    obtain ⟨L, hL⟩ : ∃ L : ℝ, L = ‖o.node (i + 1) - o.node i‖ := ⟨_, rfl⟩
    have hLp : 0 < L := by rw [hL]; exact norm_pos_iff.mpr hba
    have hLc : (L : ℂ) ≠ 0 := by exact_mod_cast hLp.ne'
    have hd : o.dir i * L = o.node (i + 1) - o.node i := by rw [Outline.dir, ← hL]; field_simp
    have hd0 : o.dir i ≠ 0 := by intro h0; rw [h0, zero_mul] at hd; exact hba hd.symm
    have ha : ∀ ε : ℝ, o.mid i + ε * (I * o.dir i) - o.node i = o.dir i * (L / 2 + ε * I) := by
      intro ε; rw [Outline.mid]; linear_combination -hd / 2
    have hb : ∀ ε : ℝ, o.mid i + ε * (I * o.dir i) - o.node (i + 1) = o.dir i * (-(L / 2) + ε * I) := by
      intro ε; rw [Outline.mid]; linear_combination hd / 2
    have hu : ∀ ε : ℝ, (o.mid i + ε * (I * o.dir i) - o.node (i + 1)) / (o.mid i + ε * (I * o.dir i) - o.node i) =
        (-(L / 2) + ε * I) / (L / 2 + ε * I) := by
      intro ε; rw [ha, hb, mul_div_mul_left _ _ hd0]
    simp only [hu]
    have hlg : o.lg i i = 0 := by
      rw [Outline.lg, r_eq, r_eq]
      have e1 := ha 0
      have e2 := hb 0
      simp only [ofReal_zero, zero_mul, add_zero] at e1 e2
      rw [e1, e2, norm_mul, norm_mul, norm_neg, div_self, Real.log_one]
      apply mul_ne_zero (norm_ne_zero_iff.mpr hd0)
      rw [norm_ne_zero_iff]; exact div_ne_zero hLc two_ne_zero
    rw [hlg, Outline.beta, if_pos rfl]
    have hlim : Tendsto (fun ε : ℝ => (-((L : ℂ) / 2) + ε * I) / (L / 2 + ε * I)) (𝓝[>] 0) (𝓝 (-1)) := by
      have hc : ContinuousAt (fun ε : ℝ => (-((L : ℂ) / 2) + ε * I) / (L / 2 + ε * I)) 0 := by
        apply ContinuousAt.div
        · fun_prop
        · fun_prop
        · simp [hLc]
      have h1 := hc.tendsto.mono_left (nhdsWithin_le_nhds (s := Set.Ioi 0))
      have e : (-((L : ℂ) / 2) + ((0 : ℝ) : ℂ) * I) / (L / 2 + ((0 : ℝ) : ℂ) * I) = -1 := by
        simp only [ofReal_zero, zero_mul, add_zero]; field_simp
      rwa [e] at h1
    have hwithin : Tendsto (fun ε : ℝ => (-((L : ℂ) / 2) + ε * I) / (L / 2 + ε * I)) (𝓝[>] 0) (𝓝[{z : ℂ | 0 ≤ z.im}] (-1)) := by
      rw [tendsto_nhdsWithin_iff]
      refine ⟨hlim, ?_⟩
      filter_upwards [self_mem_nhdsWithin] with ε hε
      simp only [Set.mem_Ioi] at hε
      show 0 ≤ Complex.im _
      have n1 : (-((L : ℂ) / 2) + ε * I) = pt (-(L / 2)) ε := by apply Complex.ext <;> simp [pt]
      have n2 : (((L : ℂ) / 2) + ε * I) = pt (L / 2) ε := by apply Complex.ext <;> simp [pt]
      rw [n1, n2, Complex.div_im, ← sub_div]
      apply div_nonneg _ (normSq_nonneg _)
      simp only [pt]
      nlinarith [mul_pos hε hLp]
    have h2 := tendsto_log_nhdsWithin_im_nonneg_of_re_neg_of_im_zero (z := -1) (by simp) (by simp)
    have h3 := h2.comp hwithin
    have e : ((Real.log ‖(-1 : ℂ)‖ : ℝ) : ℂ) + Real.pi * I = ((0 : ℝ) : ℂ) + (Real.pi : ℂ) * I := by simp
    rw [e] at h3
    exact h3
  · have hs := offSegment_slit (hoff hij)
    have hza : o.mid i ≠ o.node j := by
      have := hoff hij 0 le_rfl zero_le_one
      simpa using this
    rw [← log_eq o hij hza hs]
    have hza' : o.mid i - o.node j ≠ 0 := sub_ne_zero.mpr hza
    exact ((hcont.sub_const _).div (hcont.sub_const _) hza').clog hs

/-- The integral over panel `j`, approaching panel `i` from the left. -/
theorem line_tendsto (o : Outline) {i j : ℕ} (hi : o.node i ≠ o.node (i + 1)) (hj : o.node j ≠ o.node (j + 1))
    (hoff : i ≠ j → OffSegment (o.node j) (o.node (j + 1)) (o.mid i)) :
    Tendsto (fun ε : ℝ => lineIntegral (o.node j) (o.node (j + 1)) (o.mid i + ε * (I * o.dir i)))
      (𝓝[>] 0) (𝓝 (-(o.dir j)⁻¹ * (o.lg i j + o.beta i j * I))) := by
  have h1 := (log_tendsto o hi hoff).const_mul (-(o.dir j)⁻¹)
  apply h1.congr'
  have hcont : Tendsto (fun ε : ℝ => o.mid i + ε * (I * o.dir i)) (𝓝[>] 0) (𝓝 (o.mid i)) := by
    have : Continuous (fun ε : ℝ => o.mid i + ε * (I * o.dir i)) := by fun_prop
    have h1 := (this.tendsto 0).mono_left (nhdsWithin_le_nhds (s := Set.Ioi 0))
    simpa using h1
  have hinv : ((‖o.node (j + 1) - o.node j‖ : ℝ) : ℂ) / (o.node (j + 1) - o.node j) = (o.dir j)⁻¹ := by
    rw [Outline.dir, inv_div]
  by_cases hij : i = j
  · subst hij
    have hba : o.node (i + 1) - o.node i ≠ 0 := sub_ne_zero.mpr (Ne.symm hi)
    obtain ⟨L, hL⟩ : ∃ L : ℝ, L = ‖o.node (i + 1) - o.node i‖ := ⟨_, rfl⟩
    have hLp : 0 < L := by rw [hL]; exact norm_pos_iff.mpr hba
    have hLc : (L : ℂ) ≠ 0 := by exact_mod_cast hLp.ne'
    have hd : o.dir i * L = o.node (i + 1) - o.node i := by rw [Outline.dir, ← hL]; field_simp
    have hd0 : o.dir i ≠ 0 := by intro h0; rw [h0, zero_mul] at hd; exact hba hd.symm
    filter_upwards [self_mem_nhdsWithin] with ε hε
    simp only [Set.mem_Ioi] at hε
    have ha : o.mid i + ε * (I * o.dir i) - o.node i = o.dir i * (L / 2 + ε * I) := by
      rw [Outline.mid]; linear_combination -hd / 2
    have hb : o.mid i + ε * (I * o.dir i) - o.node (i + 1) = o.dir i * (-(L / 2) + ε * I) := by
      rw [Outline.mid]; linear_combination hd / 2
    have n1 : (-((L : ℂ) / 2) + ε * I) = pt (-(L / 2)) ε := by apply Complex.ext <;> simp [pt]
    have n2 : (((L : ℂ) / 2) + ε * I) = pt (L / 2) ε := by apply Complex.ext <;> simp [pt]
    have n20 : pt (L / 2) ε ≠ 0 := by
      intro h0; have := congrArg Complex.im h0; simp [pt] at this; exact hε.ne' this
    rw [lineIntegral_closed hi, hinv]
    · intro h0
      rw [← sub_eq_zero, ha] at h0
      rcases mul_eq_zero.mp h0 with h0 | h0
      · exact hd0 h0
      · rw [n2] at h0; exact n20 h0
    · rw [ha, hb, mul_div_mul_left _ _ hd0, n1, n2, mem_slitPlane_iff]
      right
      rw [Complex.div_im, ← sub_div]
      apply div_ne_zero
      · simp only [pt]; nlinarith [mul_pos hε hLp]
      · exact fun h0 => n20 (normSq_eq_zero.mp h0)
  · have hs := offSegment_slit (hoff hij)
    have hza : o.mid i ≠ o.node j := by
      have := hoff hij 0 le_rfl zero_le_one
      simpa using this
    have hza' : o.mid i - o.node j ≠ 0 := sub_ne_zero.mpr hza
    have hq := (hcont.sub_const (o.node (j + 1))).div (hcont.sub_const (o.node j)) hza'
    filter_upwards [hq.eventually (isOpen_slitPlane.mem_nhds hs), hcont.eventually_ne hza] with ε h1 h2
    rw [lineIntegral_closed hj h2 h1, hinv]

theorem len_pos (o : Outline) {j : ℕ} (hj : o.node j ≠ o.node (j + 1)) : 0 < o.len j := by
  rw [← len_eq]; exact norm_pos_iff.mpr (sub_ne_zero.mpr (Ne.symm hj))

/-- **C210.** Along every panel of positive length the reported direction is a unit vector, the normal is that direction turned
a quarter left, and the control point is the middle of the panel. -/
theorem C210_panel_frame (o : Outline) (j : ℕ) (hj : o.node j ≠ o.node (j + 1)) :
    o.ct j ^ 2 + o.st j ^ 2 = 1 ∧ o.len j * o.ct j = o.x (j + 1) - o.x j ∧ o.len j * o.st j = o.y (j + 1) - o.y j ∧
      (o.norm j).1 * o.ct j + (o.norm j).2 * o.st j = 0 ∧ o.ct j * (o.norm j).2 - o.st j * (o.norm j).1 = 1 ∧
      pt (o.xbar j) (o.ybar j) = o.mid j := by
  have hp := len_pos o hj
  have h1 : o.len j * o.ct j = o.x (j + 1) - o.x j := by rw [Outline.ct]; field_simp
  have h2 : o.len j * o.st j = o.y (j + 1) - o.y j := by rw [Outline.st]; field_simp
  have hsq : o.len j ^ 2 = (o.x (j + 1) - o.x j) ^ 2 + (o.y (j + 1) - o.y j) ^ 2 := by
    rw [Outline.len, Real.sq_sqrt (by positivity)]
  have h3 : o.ct j ^ 2 + o.st j ^ 2 = 1 := by
    have : o.len j ^ 2 * (o.ct j ^ 2 + o.st j ^ 2) = o.len j ^ 2 * 1 := by
      rw [mul_one]
      calc o.len j ^ 2 * (o.ct j ^ 2 + o.st j ^ 2) = (o.len j * o.ct j) ^ 2 + (o.len j * o.st j) ^ 2 := by ring
        _ = o.len j ^ 2 := by rw [h1, h2, hsq]
    exact mul_left_cancel₀ (by positivity) this
  refine ⟨h3, h1, h2, ?_, ?_, (mid_eq o j).symm⟩
  · simp only [Outline.norm]; ring
  · simp only [Outline.norm]; linarith [h3]

/-- **C211.** For every solution of the linear system the flow written with integrals of point sources and vortices over the
panels has, just outside the middle of every panel, no component through the panel, and the component along the panel is the
velocity reported.  (The product with the direction of the panel has the tangential component as real part and minus the normal
component as imaginary part.) -/
theorem C211_flow_tangency (o : Outline) (n : ℕ) (α : ℝ) (q : ℕ → ℝ) (γ : ℝ) (hlen : ∀ j < n, o.node j ≠ o.node (j + 1))
    (hoff : ∀ i < n, ∀ j < n, i ≠ j → OffSegment (o.node j) (o.node (j + 1)) (o.mid i)) (hs : Solves o n α q γ) (i : ℕ)
    (hi : i < n) :
    Tendsto (fun ε : ℝ => complexVelocity o n α q γ (o.mid i + ε * (I * o.dir i)) * o.dir i) (𝓝[>] 0)
      (𝓝 (o.vt n α q γ i : ℂ)) := by
  have hsum : Tendsto (fun ε : ℝ => complexVelocity o n α q γ (o.mid i + ε * (I * o.dir i)) * o.dir i) (𝓝[>] 0)
      (𝓝 ((exp (-I * α) + ∑ j ∈ Finset.range n, (q j + I * γ) / (2 * Real.pi) *
        (-(o.dir j)⁻¹ * (o.lg i j + o.beta i j * I))) * o.dir i)) := by
    apply Tendsto.mul_const
    unfold complexVelocity
    apply Tendsto.const_add
    apply tendsto_finsetSum
    intro j hj
    apply Tendsto.const_mul
    exact line_tendsto o (hlen i hi) (hlen j (Finset.mem_range.mp hj)) (hoff i hi j (Finset.mem_range.mp hj))
  convert hsum using 2
  have hterm : ∀ j ∈ Finset.range n, (q j + I * γ) / (2 * Real.pi) * (-(o.dir j)⁻¹ * (o.lg i j + o.beta i j * I)) * o.dir i =
      ((q j / 2 / Real.pi * (o.sinD i j * o.beta i j - o.cosD i j * o.lg i j) +
        γ / 2 / Real.pi * (o.sinD i j * o.lg i j + o.cosD i j * o.beta i j) : ℝ) : ℂ) -
      ((o.mat3 i j * q j + 1 / (2 * Real.pi) * (o.cosD i j * o.lg i j - o.sinD i j * o.beta i j) * γ : ℝ) : ℂ) * I := by
    intro j hj
    have hu := (C210_panel_frame o j (hlen j (Finset.mem_range.mp hj))).1
    have hinv : (o.dir j)⁻¹ = o.ct j - o.st j * I := by
      rw [dir_eq]
      have hne : (o.ct j : ℂ) + o.st j * I ≠ 0 := by
        intro h0
        have h1 := congrArg Complex.re h0; have h2 := congrArg Complex.im h0
        simp at h1 h2
        rw [h1, h2] at hu; norm_num at hu
      rw [inv_eq_iff_eq_inv, eq_comm, inv_eq_iff_eq_inv, eq_comm]
      apply inv_eq_of_mul_eq_one_right
      have huc : (o.ct j : ℂ) ^ 2 + (o.st j : ℂ) ^ 2 = 1 := by exact_mod_cast hu
      have : ((o.ct j : ℂ) + o.st j * I) * (o.ct j - o.st j * I) = (o.ct j : ℂ) ^ 2 + (o.st j : ℂ) ^ 2 := by
        linear_combination -(o.st j : ℂ) ^ 2 * I_sq
      rw [this, huc]
    rw [hinv, dir_eq]
    simp only [Outline.mat3, Outline.sinD, Outline.cosD]
    generalize o.lg i j = lg
    generalize o.beta i j = be
    have hpi : (Real.pi : ℂ) ≠ 0 := by exact_mod_cast Real.pi_ne_zero
    push_cast
    field_simp
    ring_nf
    simp only [show I ^ 3 = -I by rw [pow_succ, I_sq]; ring, show I ^ 4 = 1 by exact I_pow_four, I_sq]
    ring
  rw [add_mul, Finset.sum_mul, Finset.sum_congr rfl hterm, Finset.sum_sub_distrib, ← Finset.sum_mul]
  have hexp : exp (-I * α) * o.dir i = ((o.ct i * Real.cos α + o.st i * Real.sin α : ℝ) : ℂ) + ((o.rhs α i : ℝ) : ℂ) * I := by
    have : exp (-I * α) = Real.cos α - Real.sin α * I := by
      rw [show -I * (α : ℂ) = ((-α : ℝ) : ℂ) * I by push_cast; ring, exp_mul_I, ← ofReal_cos, ← ofReal_sin, Real.cos_neg,
        Real.sin_neg]
      push_cast; ring
    rw [this, dir_eq, Outline.rhs]
    push_cast
    linear_combination -(sin (α : ℂ)) * (o.st i : ℂ) * I_sq
  have hrow := hs.rows i hi
  rw [Outline.mat1, Finset.sum_mul, ← Finset.sum_add_distrib] at hrow
  rw [hexp, ← ofReal_sum, ← ofReal_sum, hrow, Outline.vt, ← Finset.sum_add_distrib]
  push_cast
  ring

/-- **C212.** The tangential velocities reported on the two panels at the trailing edge, both counted along the outline, add up
to zero (the Kutta condition). -/
theorem C212_kutta (o : Outline) (n : ℕ) (α : ℝ) (q : ℕ → ℝ) (γ : ℝ) (hs : Solves o n α q γ) :
    o.vt n α q γ 0 + o.vt n α q γ (n - 1) = 0 := by
  have h := hs.last
  rw [Outline.rhsKutta] at h
  have e1 : ∀ i, ∑ j ∈ Finset.range n, q j / 2 / Real.pi * (o.sinD i j * o.beta i j - o.cosD i j * o.lg i j) =
      ∑ j ∈ Finset.range n, o.mat2 i j * q j := by
    intro i; apply Finset.sum_congr rfl; intro j _; rw [Outline.mat2]; field_simp
  have e2 : ∀ i, ∑ j ∈ Finset.range n, γ / 2 / Real.pi * (o.sinD i j * o.lg i j + o.cosD i j * o.beta i j) =
      (∑ j ∈ Finset.range n, o.mat3 i j) * γ := by
    intro i; rw [Finset.sum_mul]; apply Finset.sum_congr rfl; intro j _; rw [Outline.mat3]; field_simp
  rw [Outline.vt, Outline.vt, e1, e1, e2, e2]
  simp only [add_mul, Finset.sum_add_distrib] at h
  linarith

/-! ### A case: two panels of length one along the stream -/

/-- The nodes `(0,0)`, `(1,0)`, `(2,0)`. -/
noncomputable def flat : Outline := ⟨fun j => j, fun _ => 0⟩

theorem flat_len (j : ℕ) : flat.len j = 1 := by simp [flat, Outline.len]
theorem flat_ct (j : ℕ) : flat.ct j = 1 := by rw [Outline.ct, flat_len]; simp [flat]
theorem flat_st (j : ℕ) : flat.st j = 0 := by rw [Outline.st, flat_len]; simp [flat]
theorem flat_r (i j : ℕ) : flat.r i j = |(i : ℝ) + 1 / 2 - j| := by
  rw [Outline.r, ← Real.sqrt_sq_eq_abs]; congr 1; simp [flat, Outline.xbar, Outline.ybar]; ring
theorem flat_turn (i j : ℕ) : flat.turn i j = 0 := by simp [flat, Outline.turn, Outline.ybar]
theorem flat_beta (i j : ℕ) : flat.beta i j = if i = j then Real.pi else 0 := by
  rw [Outline.beta, flat_turn]; simp

/-- A solution for the flat outline at zero incidence. -/
theorem flat_solves (h : Real.log 3 ≠ Real.pi) (h' : Real.log 3 ≠ -Real.pi) :
    Solves flat 2 0 (fun j => if j = 0 then 2 / (1 - (Real.log 3 / Real.pi) ^ 2) * (Real.log 3 / Real.pi)
      else -(2 / (1 - (Real.log 3 / Real.pi) ^ 2)) * (Real.log 3 / Real.pi)) (-2 / (1 - (Real.log 3 / Real.pi) ^ 2)) := by
  have hpi := Real.pi_pos
  have lg00 : flat.lg 0 0 = 0 := by rw [Outline.lg, flat_r, flat_r]; norm_num [abs_of_pos, abs_of_neg]
  have lg11 : flat.lg 1 1 = 0 := by rw [Outline.lg, flat_r, flat_r]; norm_num [abs_of_pos, abs_of_neg]
  have lg01 : flat.lg 0 1 = Real.log 3 := by rw [Outline.lg, flat_r, flat_r]; norm_num [abs_of_pos, abs_of_neg]
  have lg10 : flat.lg 1 0 = -Real.log 3 := by
    rw [Outline.lg, flat_r, flat_r, ← Real.log_inv]; norm_num [abs_of_pos, abs_of_neg]
  have hden : (1 : ℝ) - (Real.log 3 / Real.pi) ^ 2 ≠ 0 := by
    intro h0
    have h1 : (Real.log 3 / Real.pi) ^ 2 = 1 ^ 2 := by linarith
    rcases sq_eq_sq_iff_eq_or_eq_neg.mp h1 with h2 | h2
    · rw [div_eq_one_iff_eq hpi.ne'] at h2; exact h h2
    · rw [div_eq_iff hpi.ne'] at h2; apply h'; linarith
  constructor
  · intro i hi
    have : i = 0 ∨ i = 1 := by omega
    rcases this with rfl | rfl
    · simp only [Finset.sum_range_succ, Finset.sum_range_zero, Outline.mat3, Outline.mat1, Outline.rhs, Outline.sinD,
        Outline.cosD, flat_ct, flat_st, flat_beta, lg00, lg01]
      simp
      field_simp
      ring
    · simp only [Finset.sum_range_succ, Finset.sum_range_zero, Outline.mat3, Outline.mat1, Outline.rhs, Outline.sinD,
        Outline.cosD, flat_ct, flat_st, flat_beta, lg11, lg10]
      simp
      field_simp
      ring
  · simp only [Finset.sum_range_succ, Finset.sum_range_zero, Outline.mat2, Outline.mat3, Outline.rhsKutta, Outline.sinD,
        Outline.cosD, flat_ct, flat_st, flat_beta, lg11, lg10, lg00, lg01]
    simp
    generalize hk : Real.log 3 = k at *
    have hden2 : Real.pi ^ 2 - k ^ 2 ≠ 0 := by
      intro h0; apply hden; field_simp; linarith
    field_simp
    ring

theorem flat_node (j : ℕ) : flat.node j = (j : ℂ) := by
  apply Complex.ext <;> simp [flat, Outline.node, pt]

/-- The hypotheses of C211 and C212 hold for the flat outline. -/
example : ∃ q γ, (∀ j < 2, flat.node j ≠ flat.node (j + 1)) ∧
    (∀ i < 2, ∀ j < 2, i ≠ j → OffSegment (flat.node j) (flat.node (j + 1)) (flat.mid i)) ∧ Solves flat 2 0 q γ ∧ γ ≠ 0 := by
  have h3 : Real.log 3 ≤ 3 - 1 := Real.log_le_sub_one_of_pos (by norm_num)
  have h30 : 0 < Real.log 3 := Real.log_pos (by norm_num)
  have hpi := Real.pi_gt_three
  refine ⟨_, _, ?_, ?_, flat_solves (by linarith) (by linarith), ?_⟩
  · intro j _
    rw [flat_node, flat_node]
    push_cast
    intro h
    have := congrArg Complex.re h
    simp at this
  · intro i hi j hj hij t h0 h1 h
    rw [Outline.mid, flat_node, flat_node, flat_node, flat_node] at h
    have hr := congrArg Complex.re h
    push_cast at hr
    simp at hr
    have hc : (i = 0 ∧ j = 1) ∨ (i = 1 ∧ j = 0) := by omega
    rcases hc with ⟨rfl, rfl⟩ | ⟨rfl, rfl⟩ <;> norm_num at hr <;> linarith
  · apply div_ne_zero (by norm_num)
    have : Real.log 3 / Real.pi < 1 := by rw [div_lt_one (by linarith)]; linarith
    have h0 : 0 < Real.log 3 / Real.pi := by positivity
    nlinarith

end Verif.Airfoil
