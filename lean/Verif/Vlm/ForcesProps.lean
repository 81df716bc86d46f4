import Verif.Vlm.Forces
import Mathlib.Analysis.SpecialFunctions.Trigonometric.Bounds
import Mathlib.Analysis.SpecialFunctions.Trigonometric.Arctan
import Mathlib.Tactic
import Mathlib.Analysis.Real.Pi.Bounds

/-!
# Properties of the force resolution (C199-C202)
-/

namespace Verif.Vlm

/-- Specification.  Wind axes in body components: drag, side and lift direction. -/
noncomputable def dragDir (a p : ℝ) : Vec3 :=
  ⟨Real.cos a * Real.cos p, Real.cos a * Real.sin p, Real.sin a⟩
/-- Side direction. -/
noncomputable def sideDir (p : ℝ) : Vec3 := ⟨-Real.sin p, Real.cos p, 0⟩
/-- Lift direction. -/
noncomputable def liftDir (a p : ℝ) : Vec3 :=
  ⟨-(Real.sin a * Real.cos p), -(Real.sin a * Real.sin p), Real.cos a⟩

/-- Specification.  Sum of vectors. -/
def vsum : List Vec3 → Vec3
  | [] => ⟨0, 0, 0⟩
  | v :: vs => v + vsum vs

/-- The wind axes are orthonormal and right-handed. -/
theorem wind_axes (a p : ℝ) :
    Vec3.dot (dragDir a p) (dragDir a p) = 1 ∧ Vec3.dot (sideDir p) (sideDir p) = 1 ∧
    Vec3.dot (liftDir a p) (liftDir a p) = 1 ∧ Vec3.dot (dragDir a p) (sideDir p) = 0 ∧
    Vec3.dot (dragDir a p) (liftDir a p) = 0 ∧ Vec3.dot (sideDir p) (liftDir a p) = 0 ∧
    Vec3.cross (dragDir a p) (sideDir p) = liftDir a p := by
  have h1 := Real.sin_sq_add_cos_sq a
  have h2 := Real.sin_sq_add_cos_sq p
  unfold Vec3.dot Vec3.cross dragDir sideDir liftDir
  refine ⟨?_, ?_, ?_, ?_, ?_, ?_, ?_⟩
  · simp only; linear_combination (Real.cos a ^ 2) * h2 + h1
  · simp only; linear_combination h2
  · simp only; linear_combination (Real.sin a ^ 2) * h2 + h1
  · simp only; ring
  · simp only; linear_combination (-(Real.cos a * Real.sin a)) * h2
  · simp only; ring
  · ext
    · simp only; ring
    · simp only; ring
    · simp only; linear_combination (Real.cos a) * h2

/-- Specification.  The load of a strip: force coefficient times strip area. -/
noncomputable def load (s : Strip) : Vec3 := Vec3.smul (s.es * s.chord) (bodyForce s)

/-- Specification.  The moment of a strip about `(xb, 0, zb)`: lever arm cross force, plus the couple of
the chordwise load about the span axis and the sideslip couple about the roll axis. -/
noncomputable def moment (xb zb : ℝ) (s : Strip) : Vec3 :=
  Vec3.cross (s.pos - ⟨xb, 0, zb⟩) (load s) +
    Vec3.smul (s.es * s.chord) ⟨s.sicple, s.bmle * s.chord * Real.cos s.dl, s.bmle * s.chord * Real.sin s.dl⟩

theorem total_dot (q : Strip → ℝ) (v : Strip → Vec3) (d : Vec3) (h : ∀ s, q s = Vec3.dot (v s) d)
    (l : List Strip) : total q l = Vec3.dot (vsum (l.map v)) d := by
  induction l with
  | nil => simp [total, vsum, Vec3.dot]
  | cons s t ih =>
    have : total q (s :: t) = q s + total q t := by simp [total]
    rw [this, ih, h s]
    simp only [List.map_cons, vsum, Vec3.dot, Vec3.add_x, Vec3.add_y, Vec3.add_z]
    ring

/-- **C199.** Lift, induced drag and side force are the components of the one summed panel force along
the three wind axes, referred to the reference area. -/
theorem C199_force_components (sref cbar span xb zb a p : ℝ) (l : List Strip) :
    (coefs sref cbar span xb zb a p l).CL = Vec3.dot (vsum (l.map load)) (liftDir a p) / sref ∧
    (coefs sref cbar span xb zb a p l).CDi = Vec3.dot (vsum (l.map load)) (dragDir a p) / sref ∧
    (coefs sref cbar span xb zb a p l).CY = Vec3.dot (vsum (l.map load)) (sideDir p) / sref := by
  unfold coefs
  refine ⟨?_, ?_, ?_⟩
  · simp only
    rw [total_dot (liftOf a p) load (liftDir a p)]
    intro s; unfold liftOf load liftDir Vec3.dot Vec3.smul; simp only; ring
  · simp only
    rw [total_dot (dragOf a p) load (dragDir a p)]
    intro s; unfold dragOf load dragDir Vec3.dot Vec3.smul; simp only; ring
  · simp only
    rw [total_dot (sideOf a p) load (sideDir p)]
    intro s; unfold sideOf load sideDir Vec3.dot Vec3.smul; simp only; ring

/-- **C199.** No force is lost in the resolution: the squares add up to the squared total force, at every
incidence and sideslip. -/
theorem C199_pythagoras (sref cbar span xb zb a p : ℝ) (l : List Strip) :
    (coefs sref cbar span xb zb a p l).CL ^ 2 + (coefs sref cbar span xb zb a p l).CDi ^ 2
      + (coefs sref cbar span xb zb a p l).CY ^ 2 = ((vsum (l.map load)).norm / sref) ^ 2 := by
  obtain ⟨h1, h2, h3⟩ := C199_force_components sref cbar span xb zb a p l
  rw [h1, h2, h3]
  obtain ⟨F, hF⟩ : ∃ F, F = vsum (l.map load) := ⟨_, rfl⟩
  rw [← hF]
  have hn : F.norm ^ 2 = F.x ^ 2 + F.y ^ 2 + F.z ^ 2 := by
    unfold Vec3.norm; exact Real.sq_sqrt (by positivity)
  have hd : Vec3.dot F (liftDir a p) ^ 2 + Vec3.dot F (dragDir a p) ^ 2 + Vec3.dot F (sideDir p) ^ 2
      = F.norm ^ 2 := by
    rw [hn]
    unfold Vec3.dot liftDir dragDir sideDir
    have h1 := Real.sin_sq_add_cos_sq a
    have h2 := Real.sin_sq_add_cos_sq p
    have e1 : Real.sin a ^ 2 = 1 - Real.cos a ^ 2 := by linarith
    have e2 : Real.sin p ^ 2 = 1 - Real.cos p ^ 2 := by linarith
    simp only
    ring_nf
    simp only [e1, e2]
    ring
  rw [div_pow, div_pow, div_pow, div_pow, ← hd]
  ring

/-- **C199.** The three moment coefficients are the components of the one summed moment about the
reference point: pitch about the side axis, roll about the drag axis, yaw about the lift axis. -/
theorem C199_moment_components (sref cbar span xb zb a p : ℝ) (l : List Strip) :
    (coefs sref cbar span xb zb a p l).CM
      = Vec3.dot (vsum (l.map (moment xb zb))) (sideDir p) / sref / cbar ∧
    (coefs sref cbar span xb zb a p l).CRM
      = -(Vec3.dot (vsum (l.map (moment xb zb))) (dragDir a p) / sref / span) ∧
    (coefs sref cbar span xb zb a p l).CYM
      = -(Vec3.dot (vsum (l.map (moment xb zb))) (liftDir a p) / sref / span) := by
  unfold coefs
  refine ⟨?_, ?_, ?_⟩
  · simp only
    rw [total_dot (pitchOf xb zb a p) (moment xb zb) (sideDir p)]
    intro s; unfold pitchOf moment load bodyMoment sideDir Vec3.dot Vec3.cross Vec3.smul
    simp only [Vec3.add_x, Vec3.add_y, Vec3.add_z, Vec3.sub_x, Vec3.sub_y, Vec3.sub_z]; ring
  · simp only
    rw [total_dot (rollOf xb zb a p) (moment xb zb) (dragDir a p)]
    · ring
    intro s; unfold rollOf moment load bodyMoment dragDir Vec3.dot Vec3.cross Vec3.smul
    simp only [Vec3.add_x, Vec3.add_y, Vec3.add_z, Vec3.sub_x, Vec3.sub_y, Vec3.sub_z]; ring
  · simp only
    rw [total_dot (yawOf xb zb a p) (moment xb zb) (liftDir a p)]
    · ring
    intro s; unfold yawOf moment load bodyMoment liftDir Vec3.dot Vec3.cross Vec3.smul
    simp only [Vec3.add_x, Vec3.add_y, Vec3.add_z, Vec3.sub_x, Vec3.sub_y, Vec3.sub_z]; ring

theorem vsum_moment_shift (xb zb xb' zb' : ℝ) (l : List Strip) :
    vsum (l.map (moment xb' zb')) =
      vsum (l.map (moment xb zb)) + Vec3.cross ⟨xb - xb', 0, zb - zb'⟩ (vsum (l.map load)) := by
  induction l with
  | nil => ext <;> simp [vsum, Vec3.cross]
  | cons s t ih =>
    simp only [List.map_cons, vsum, ih]
    unfold moment Vec3.cross
    ext
    · simp only [Vec3.add_x, Vec3.add_y, Vec3.add_z, Vec3.sub_x, Vec3.sub_y, Vec3.sub_z]; ring
    · simp only [Vec3.add_x, Vec3.add_y, Vec3.add_z, Vec3.sub_x, Vec3.sub_y, Vec3.sub_z]; ring
    · simp only [Vec3.add_x, Vec3.add_y, Vec3.add_z, Vec3.sub_x, Vec3.sub_y, Vec3.sub_z]; ring

/-- **C199.** Moving the reference point (the centre of gravity) aft or up changes the pitching moment by
the transfer formula, in terms of the reported coefficients only: at zero sideslip, aft by `dx` adds
`(CL cos α + CDi sin α) dx / c`, up by `dz` adds `(CL sin α − CDi cos α) dz / c`. -/
theorem C199_transfer (sref cbar span xb zb dx dz a : ℝ) (l : List Strip) :
    (coefs sref cbar span (xb + dx) (zb + dz) a 0 l).CM =
      (coefs sref cbar span xb zb a 0 l).CM
      + (((coefs sref cbar span xb zb a 0 l).CL * Real.cos a
          + (coefs sref cbar span xb zb a 0 l).CDi * Real.sin a) * dx
        + ((coefs sref cbar span xb zb a 0 l).CL * Real.sin a
          - (coefs sref cbar span xb zb a 0 l).CDi * Real.cos a) * dz) / cbar := by
  rw [(C199_moment_components sref cbar span (xb + dx) (zb + dz) a 0 l).1,
    (C199_moment_components sref cbar span xb zb a 0 l).1,
    (C199_force_components sref cbar span xb zb a 0 l).1,
    (C199_force_components sref cbar span xb zb a 0 l).2.1,
    vsum_moment_shift xb zb (xb + dx) (zb + dz) l]
  generalize vsum (l.map load) = F
  generalize vsum (l.map (moment xb zb)) = M
  unfold Vec3.dot Vec3.cross sideDir liftDir dragDir
  simp only [Vec3.add_x, Vec3.add_y, Vec3.add_z, Real.cos_zero, Real.sin_zero]
  have h1 := Real.sin_sq_add_cos_sq a
  have e : (Real.sin a) ^ 2 = 1 - Real.cos a ^ 2 := by linarith
  ring_nf
  simp only [e]
  ring

/-- **C200.** The magnitude of a strip force is that of its normal and axial coefficient, and its normal
part is tilted by the dihedral only in the `y`-`z` plane. -/
theorem C200_strip_force (s : Strip) :
    (bodyForce s).norm ^ 2 = s.cnc ^ 2 + s.caxl ^ 2 ∧
    (bodyForce s).y * Real.cos s.dl = -((bodyForce s).z * Real.sin s.dl) := by
  have h1 := Real.sin_sq_add_cos_sq s.zeta
  have h2 := Real.sin_sq_add_cos_sq s.dl
  constructor
  · unfold Vec3.norm
    rw [Real.sq_sqrt (by positivity)]
    unfold bodyForce
    simp only
    obtain ⟨A, hA⟩ : ∃ A, A = s.cnc * Real.cos s.zeta + s.caxl * Real.sin s.zeta := ⟨_, rfl⟩
    rw [← hA]
    have : (-A * Real.sin s.dl) ^ 2 + (A * Real.cos s.dl) ^ 2 = A ^ 2 := by
      linear_combination (A ^ 2) * h2
    rw [add_assoc, this, hA]
    linear_combination (s.cnc ^ 2 + s.caxl ^ 2) * h1
  · unfold bodyForce; simp only; ring

/-- **C200 (partial).** The normal load of a strip at zero incidence is perpendicular to its chord and the axial
load along it.  Missing: strips at incidence (see the counterexample). -/
theorem C200_chord_partial (s : Strip) (h0 : s.zeta = 0) :
    Vec3.dot (bodyForce s) ⟨1, 0, s.zeta * Real.cos s.dl⟩ = s.caxl := by
  unfold bodyForce Vec3.dot
  simp [h0]

/-- The stored incidence is a slope `m`, but is used as an angle: for every slope between 0 and `π/2` the purely
normal load of a strip without dihedral has a component along the chord line `(1, 0, m)`. -/
theorem C200_chord_counterexample (m : ℝ) (h0 : 0 < m) (h1 : m < Real.pi / 2) (s : Strip)
    (hz : s.zeta = m) (hd : s.dl = 0) (hn : 0 < s.cnc) (ha : s.caxl = 0) :
    Vec3.dot (bodyForce s) ⟨1, 0, m⟩ < 0 := by
  have hcos : 0 < Real.cos m := Real.cos_pos_of_mem_Ioo ⟨by linarith [Real.pi_pos], h1⟩
  have ht : m < Real.tan m := Real.lt_tan h0 h1
  rw [Real.tan_eq_sin_div_cos, lt_div_iff₀ hcos] at ht
  unfold bodyForce Vec3.dot
  simp only [hz, hd, ha, Real.cos_zero, Real.sin_zero]
  nlinarith

/-- What the force would be with the angle in place of its tangent: perpendicular to the chord. -/
theorem C200_with_angle (s : Strip) (m : ℝ) (hz : s.zeta = Real.arctan m) (hd : s.dl = 0)
    (ha : s.caxl = 0) : Vec3.dot (bodyForce s) ⟨1, 0, m⟩ = 0 := by
  unfold bodyForce Vec3.dot
  simp only [hz, hd, ha, Real.cos_zero, Real.sin_zero, Real.sin_arctan, Real.cos_arctan]
  have h2 : Real.sqrt (1 + m ^ 2) ≠ 0 := (Real.sqrt_pos.2 (by positivity)).ne'
  field_simp
  ring

example : ∃ s : Strip, s.zeta = 1 ∧ s.dl = 0 ∧ 0 < s.cnc ∧ s.caxl = 0 ∧ (1 : ℝ) < Real.pi / 2 :=
  ⟨⟨1, 0, 1, 0, ⟨0, 0, 0⟩, 0, 0, 1, 1⟩, rfl, rfl, one_pos, rfl, by linarith [Real.pi_gt_three]⟩

/-! ### Prefix sums along strips -/

theorem stripOf_break (lens : List ℕ) (j k : ℕ) (hj : j < lens.length) (hk : k < lens[j]) :
    stripOf lens (chordBreak lens j + k) = j := by
  induction lens generalizing j with
  | nil => simp at hj
  | cons l ls ih =>
    cases j with
    | zero =>
      have : k < l := by simpa using hk
      simp [stripOf, chordBreak, this]
    | succ j =>
      have hj' : j < ls.length := by simpa using hj
      have hk' : k < ls[j] := by simpa using hk
      have e : chordBreak (l :: ls) (j + 1) + k = l + (chordBreak ls j + k) := by
        simp [chordBreak, Nat.add_assoc]
      rw [e, stripOf, if_neg (by omega), Nat.add_sub_cancel_left, ih j hj' hk']

theorem cumsum_eq (arr : ℕ → ℝ) (i : ℕ) : cumsum arr i = ∑ n ∈ Finset.range (i + 1), arr n := by
  unfold cumsum
  induction i with
  | zero => simp
  | succ n ih =>
    rw [List.range_succ, List.map_append, List.sum_append, ih, Finset.sum_range_succ _ (n + 1)]
    simp

theorem chordBreak_pos (lens : List ℕ) (j : ℕ) (hpos : ∀ l ∈ lens, 0 < l) (hj : j < lens.length)
    (h0 : j ≠ 0) : 0 < chordBreak lens j := by
  cases lens with
  | nil => simp at hj
  | cons l ls =>
    cases j with
    | zero => exact absurd rfl h0
    | succ j =>
      have := hpos l (by simp)
      simp only [chordBreak, List.take_succ_cons, List.sum_cons]
      omega

/-- **C201.** Within every strip, and whatever the lengths of the strips, the accumulated circulation at
panel `k` is the sum of the circulations of the panels in front of it in the same strip. -/
theorem C201_prefix_sum (lens : List ℕ) (arr : ℕ → ℝ) (j k : ℕ) (hpos : ∀ l ∈ lens, 0 < l)
    (hj : j < lens.length) (hk : k < lens[j]) :
    gant lens arr (chordBreak lens j + k)
      = ∑ m ∈ Finset.range k, arr (chordBreak lens j + m) := by
  unfold gant
  rw [stripOf_break lens j k hj hk]
  by_cases h0 : k = 0
  · subst h0; simp
  · rw [if_neg (by omega), if_neg (by omega)]
    have e : chordBreak lens j + k - 1 = chordBreak lens j + (k - 1) := by omega
    rw [e]
    unfold stripCumsum
    rw [stripOf_break lens j (k - 1) hj (by omega), cumsum_eq]
    have e2 : chordBreak lens j + (k - 1) + 1 = chordBreak lens j + k := by omega
    rw [e2, Finset.sum_range_add]
    by_cases hb : j = 0
    · subst hb
      simp [chordBreak]
    · rw [if_neg hb, cumsum_eq]
      have hz := chordBreak_pos lens j hpos hj hb
      rw [show chordBreak lens j - 1 + 1 = chordBreak lens j by omega]
      ring

/-- **C201.** No circulation leaks from one strip to the next: changing the circulations outside a strip
does not change what is accumulated inside it. -/
theorem C201_no_leak (lens : List ℕ) (arr arr' : ℕ → ℝ) (j k : ℕ) (hpos : ∀ l ∈ lens, 0 < l)
    (hj : j < lens.length) (hk : k < lens[j])
    (hsame : ∀ m, m < lens[j] → arr (chordBreak lens j + m) = arr' (chordBreak lens j + m)) :
    gant lens arr (chordBreak lens j + k) = gant lens arr' (chordBreak lens j + k) := by
  rw [C201_prefix_sum lens arr j k hpos hj hk, C201_prefix_sum lens arr' j k hpos hj hk]
  apply Finset.sum_congr rfl
  intro m hm
  exact hsame m (lt_trans (Finset.mem_range.1 hm) hk)

/-- Strips of two and three panels, unit circulations: the last panel sees the two before it. -/
example : gant [2, 3] (fun _ => 1) 4 = 2 := by
  have := C201_prefix_sum [2, 3] (fun _ => 1) 1 2 (by decide) (by decide) (by decide)
  have e : chordBreak [2, 3] 1 + 2 = 4 := by decide
  rw [e] at this
  rw [this]; norm_num

/-! ### Reference point -/

theorem bestWing_spec (best : Option RefWing) (ws : List RefWing) (hnn : ∀ w ∈ ws, 0 ≤ w.mac)
    (hb : ∀ b, best = some b → b.vertical = false ∧ 0 ≤ b.mac) :
    (∀ r, bestWing best ws = some r → r.vertical = false ∧ (best = some r ∨ r ∈ ws) ∧
      (∀ w ∈ ws, w.vertical = false → w.mac ≤ r.mac) ∧ (∀ b, best = some b → b.mac ≤ r.mac)) ∧
    (bestWing best ws = none ↔ best = none ∧ ∀ w ∈ ws, w.vertical = true) := by
  induction ws generalizing best with
  | nil =>
    constructor
    · intro r hr
      have hr' : best = some r := hr
      refine ⟨(hb r hr').1, Or.inl hr', by simp, ?_⟩
      intro b hbb; rw [hbb] at hr'; simp only [Option.some.injEq] at hr'; rw [hr']
    · simp [bestWing]
  | cons w ws ih =>
    obtain ⟨cur, hcur⟩ : ∃ c : ℝ, c = bestMac best := ⟨_, rfl⟩
    have hw := hnn w (by simp)
    have hnn' : ∀ v ∈ ws, 0 ≤ v.mac := fun v hv => hnn v (by simp [hv])
    have hcurb : ∀ b, best = some b → b.mac = cur := by
      intro b hbb; rw [hcur, hbb]; rfl
    unfold bestWing
    rw [← hcur]
    by_cases hc : w.vertical = false ∧ cur ≤ w.mac
    · rw [if_pos hc]
      obtain ⟨i1, i2⟩ := ih (some w) hnn' (by intro b hbb; simp only [Option.some.injEq] at hbb; rw [← hbb]; exact ⟨hc.1, hw⟩)
      constructor
      · intro r hr
        obtain ⟨a1, a2, a3, a4⟩ := i1 r hr
        have hwr := a4 w rfl
        refine ⟨a1, Or.inr ?_, ?_, ?_⟩
        · rcases a2 with h | h
          · simp only [Option.some.injEq] at h; simp [h]
          · simp [h]
        · intro v hv hvv
          rcases List.mem_cons.1 hv with h | h
          · rw [h]; exact hwr
          · exact a3 v h hvv
        · intro b hbb; rw [hcurb b hbb]; exact le_trans hc.2 hwr
      · constructor
        · intro h; exact absurd (i2.1 h).1 (by simp)
        · intro h; have := h.2 w (by simp); rw [hc.1] at this; exact absurd this (by simp)
    · rw [if_neg hc]
      obtain ⟨i1, i2⟩ := ih best hnn' hb
      constructor
      · intro r hr
        obtain ⟨a1, a2, a3, a4⟩ := i1 r hr
        refine ⟨a1, ?_, ?_, a4⟩
        · rcases a2 with h | h
          · exact Or.inl h
          · exact Or.inr (by simp [h])
        · intro v hv hvv
          rcases List.mem_cons.1 hv with h | h
          · subst h
            have hlt : v.mac < cur := by
              by_contra hcon; exact hc ⟨hvv, not_lt.1 hcon⟩
            cases hbest : best with
            | none =>
              rw [hcur, hbest] at hlt
              exact absurd hlt (not_lt.2 hw)
            | some b =>
              have := a4 b hbest
              rw [hcurb b hbest] at this
              linarith
          · exact a3 v h hvv
      · constructor
        · intro h
          obtain ⟨g1, g2⟩ := i2.1 h
          refine ⟨g1, ?_⟩
          intro v hv
          rcases List.mem_cons.1 hv with h' | h'
          · subst h'
            by_contra hcon
            have hvf : v.vertical = false := by simpa using hcon
            apply hc
            refine ⟨hvf, ?_⟩
            rw [hcur, g1]; exact hw
          · exact g2 v h'
        · intro h
          exact i2.2 ⟨h.1, fun v hv => h.2 v (by simp [hv])⟩

/-- **C202.** Without a main wing, the reference lengths come from a horizontal wing with the largest mean
aerodynamic chord, and there is none only if all wings are vertical; a main wing always takes precedence. -/
theorem C202_reference_wing (ws : List RefWing) (hnn : ∀ w ∈ ws, 0 ≤ w.mac) :
    (∀ r, refWing ws = some r → r ∈ ws ∧
      (r.main = true ∨ ((∀ w ∈ ws, w.main = false) ∧ r.vertical = false ∧
        ∀ w ∈ ws, w.vertical = false → w.mac ≤ r.mac))) ∧
    ((∃ w ∈ ws, w.main = true) → ∃ r, refWing ws = some r ∧ r.main = true) ∧
    (refWing ws = none ↔ ∀ w ∈ ws, w.main = false ∧ w.vertical = true) := by
  have hs := bestWing_spec none ws hnn (by simp)
  cases hf : ws.find? (·.main) with
  | some m =>
    have hm := List.find?_some hf
    have hmem := List.mem_of_find?_eq_some hf
    have hr : refWing ws = some m := by unfold refWing; rw [hf]
    refine ⟨?_, ?_, ?_⟩
    · intro r h; rw [hr] at h; simp only [Option.some.injEq] at h; subst h
      exact ⟨hmem, Or.inl hm⟩
    · intro _; exact ⟨m, hr, hm⟩
    · rw [hr]
      constructor
      · intro h; exact absurd h (by simp)
      · intro h; have := (h m hmem).1; rw [this] at hm; exact absurd hm (by simp)
  | none =>
    have hno : ∀ w ∈ ws, w.main = false := by
      intro w hw
      have := List.find?_eq_none.1 hf w hw
      simpa using this
    have hr : refWing ws = bestWing none ws := by unfold refWing; rw [hf]
    refine ⟨?_, ?_, ?_⟩
    · intro r h
      rw [hr] at h
      obtain ⟨a1, a2, a3, _⟩ := hs.1 r h
      have hmem : r ∈ ws := by rcases a2 with h | h; exact absurd h (by simp); exact h
      exact ⟨hmem, Or.inr ⟨hno, a1, a3⟩⟩
    · rintro ⟨w, hw, hwm⟩; rw [hno w hw] at hwm; exact absurd hwm (by simp)
    · rw [hr, hs.2]
      constructor
      · intro h w hw; exact ⟨hno w hw, h.2 w hw⟩
      · intro h; exact ⟨rfl, fun w hw => (h w hw).2⟩

/-- **C202 (partial).** Moments are taken about the centre of gravity whenever its longitudinal station is not
exactly zero, whatever the wings.  Missing: a centre of gravity at station zero. -/
theorem C202_moment_point_partial (cg : ℝ × ℝ) (ws : List RefWing) (h : cg.1 ≠ 0) :
    momentPoint cg ws = some cg := by
  unfold momentPoint; rw [if_neg h]

/-- A vehicle whose origin is at its centre of gravity: the moments are taken about the aerodynamic centre of the
wing, and a height of the centre of gravity is ignored too. -/
theorem C202_moment_point_counterexample :
    momentPoint (0, 2) [⟨true, false, 1, 5, 0, 10⟩] = some (5, 0) := by
  unfold momentPoint refWing
  simp

/-- **C202.** A vehicle with vertical wings only and the centre of gravity at station zero has no reference point: the
analysis fails instead of returning moments. -/
theorem C202_no_reference (cgz : ℝ) (ws : List RefWing) (hnn : ∀ w ∈ ws, 0 ≤ w.mac)
    (h : ∀ w ∈ ws, w.main = false ∧ w.vertical = true) : momentPoint (0, cgz) ws = none := by
  unfold momentPoint
  rw [if_pos rfl, (C202_reference_wing ws hnn).2.2.2 h]; rfl

/-- **C202.** After the guard no velocity is zero; non-zero velocities pass unchanged; a zero velocity is an error unless
a surrogate is being built. -/
theorem C202_velocity (sur : Bool) (v : List ℝ) :
    (∀ r, velocityGuard sur v = some r → r.length = v.length ∧ (0 : ℝ) ∉ r ∧
      ∀ i (hi : i < v.length) (hr : i < r.length), v[i] ≠ 0 → r[i] = v[i]) ∧
    (velocityGuard sur v = none ↔ (0 : ℝ) ∈ v ∧ sur = false) := by
  unfold velocityGuard
  by_cases h0 : (0 : ℝ) ∈ v
  · rw [if_pos h0]
    cases sur with
    | false => simp [h0]
    | true =>
      simp only [if_true]
      constructor
      · intro r hr
        simp only [Option.some.injEq] at hr
        subst hr
        refine ⟨by simp, ?_, ?_⟩
        · intro hm
          obtain ⟨x, _, hx⟩ := List.mem_map.1 hm
          by_cases hx0 : x = 0
          · rw [if_pos hx0] at hx; norm_num at hx
          · rw [if_neg hx0] at hx; exact hx0 hx
        · intro i hi hr hne
          simp only [List.getElem_map]
          rw [if_neg hne]
      · simp
  · rw [if_neg h0]
    constructor
    · intro r hr
      simp only [Option.some.injEq] at hr
      subst hr
      exact ⟨rfl, h0, fun _ _ _ _ => rfl⟩
    · simp [h0]

end Verif.Vlm
