import Verif.Aero.Compress
import Verif.Num.BlendProps
import Mathlib.Analysis.Convex.SpecificFunctions.Basic
import Mathlib.Analysis.SpecialFunctions.Pow.Continuity
import Mathlib.Analysis.Real.Pi.Bounds

/-!
C133 drag rise of wings, C135 wave drag.
-/

namespace Verif.Aero
open Real Verif.Num

/-! ## C133 -/

/-- Below the crest-critical Mach number and above: the drag grows with Mach number, is 19 counts times the cube of the
cosine at the crest-critical one, and more than 1.29 times that at drag divergence, which lies 2 to 10 per cent above. -/
theorem C133_rise (tc cl cs M : ℝ) (h0 : 0 < cs) (h1 : cs ≤ 1) (hm : 0 < crest tc cl cs) (hM : 0 ≤ M) :
    ∃ r, compWing tc cl cs M = some r ∧ r.crest = crest tc cl cs ∧ 0 ≤ r.cd
      ∧ (M = r.crest → r.cd = 0.0019 * cs ^ 3)
      ∧ 1.02 * r.crest ≤ r.divergence ∧ r.divergence < 1.1 * r.crest
      ∧ (M = r.divergence → 1.29 * (0.0019 * cs ^ 3) ≤ r.cd)
      ∧ ∀ M', M < M' → ∃ r', compWing tc cl cs M' = some r' ∧ r.cd < r'.cd := by
  have hdef : ∀ N : ℝ, 0 ≤ N → compWing tc cl cs N = some ⟨0.0019 * (N / crest tc cl cs) ^ (14.641 : ℝ) * cs * cs * cs,
      crest tc cl cs, crest tc cl cs * (1.02 + 0.08 * (1 - cs))⟩ := by
    intro N hN
    unfold compWing
    dsimp only
    rw [if_neg]
    push Not
    exact ⟨h0.ne', hm.ne', div_nonneg hN hm.le⟩
  refine ⟨_, hdef M hM, rfl, ?_, ?_, ?_, ?_, ?_, ?_⟩
  · dsimp only; positivity
  · intro e
    dsimp only at e ⊢
    rw [e, div_self hm.ne', one_rpow]; ring
  · dsimp only; nlinarith
  · dsimp only; nlinarith
  · intro e
    dsimp only at e ⊢
    have hr : M / crest tc cl cs = 1.02 + 0.08 * (1 - cs) := by rw [e]; field_simp
    rw [hr]
    have hb := one_add_mul_self_le_rpow_one_add (s := 0.02) (p := 14.641) (by norm_num) (by norm_num)
    have hmon : (1 + 0.02 : ℝ) ^ (14.641 : ℝ) ≤ (1.02 + 0.08 * (1 - cs)) ^ (14.641 : ℝ) :=
      rpow_le_rpow (by norm_num) (by linarith) (by norm_num)
    have hk : 1.29 ≤ (1.02 + 0.08 * (1 - cs)) ^ (14.641 : ℝ) := by
      refine le_trans ?_ (le_trans hb hmon); norm_num
    have hc : 0 < 0.0019 * cs ^ 3 := by positivity
    nlinarith
  · intro M' hlt
    refine ⟨_, hdef M' (by linarith), ?_⟩
    dsimp only
    have : (M / crest tc cl cs) ^ (14.641 : ℝ) < (M' / crest tc cl cs) ^ (14.641 : ℝ) :=
      rpow_lt_rpow (div_nonneg hM hm.le) (div_lt_div_of_pos_right hlt hm) (by norm_num)
    gcongr

example : ∃ r, compWing 0.1 0.4 0.9 0.78 = some r ∧ 0 ≤ r.cd := by
  have hm : 0 < crest 0.1 0.4 0.9 := by unfold crest crestCos; norm_num
  obtain ⟨r, h, -, h0, -⟩ := C133_rise 0.1 0.4 0.9 0.78 (by norm_num) (by norm_num) hm (by norm_num)
  exact ⟨r, h, h0⟩

/-- For thickness up to 0.2 and lift up to 1.2 (perpendicular to the sweep) the crest-critical Mach number is positive
and falls with thickness and lift. -/
theorem crestCos_mono {tc tc' cl cl' : ℝ} (ht0 : 0 ≤ tc) (ht : tc ≤ tc') (ht1 : tc' ≤ 0.2) (hc0 : 0 ≤ cl) (hc : cl ≤ cl')
    (hc1 : cl' ≤ 1.2) : 0 < crestCos tc' cl' ∧ crestCos tc' cl' ≤ crestCos tc cl
      ∧ (tc < tc' ∨ cl < cl' → crestCos tc' cl' < crestCos tc cl) := by
  unfold crestCos
  have e : (0.922321524499352 - 1.153885166170620 * tc - 0.304541067183461 * cl + 0.332881324404729 * tc * tc
      + 0.467317361111105 * tc * cl + 0.087490431201549 * cl * cl)
      - (0.922321524499352 - 1.153885166170620 * tc' - 0.304541067183461 * cl' + 0.332881324404729 * tc' * tc'
      + 0.467317361111105 * tc' * cl' + 0.087490431201549 * cl' * cl')
      = (tc' - tc) * (1.153885166170620 - 0.332881324404729 * (tc + tc') - 0.467317361111105 * cl)
        + (cl' - cl) * (0.304541067183461 - 0.467317361111105 * tc' - 0.087490431201549 * (cl + cl')) := by ring
  have f1 : 0 < 1.153885166170620 - 0.332881324404729 * (tc + tc') - 0.467317361111105 * cl := by
    norm_num at *; linarith
  have f2 : 0 < 0.304541067183461 - 0.467317361111105 * tc' - 0.087490431201549 * (cl + cl') := by
    norm_num at *; linarith
  refine ⟨?_, ?_, ?_⟩
  · norm_num at *; nlinarith [mul_nonneg (ht0.trans ht) (hc0.trans hc), sq_nonneg cl', sq_nonneg tc']
  · have := mul_nonneg (sub_nonneg.2 ht) f1.le
    have := mul_nonneg (sub_nonneg.2 hc) f2.le
    linarith
  · rintro (h | h)
    · have := mul_pos (sub_pos.2 h) f1
      have := mul_nonneg (sub_nonneg.2 hc) f2.le
      linarith
    · have := mul_nonneg (sub_nonneg.2 ht) f1.le
      have := mul_pos (sub_pos.2 h) f2
      linarith

/-- There more lift or thickness is a lower crest-critical Mach number and more drag at every Mach number. -/
theorem C133_lift_partial (tc tc' cl cl' cs M : ℝ) (h0 : 0 < cs) (ht0 : 0 ≤ tc) (ht : tc ≤ tc')
    (ht1 : tc' ≤ 0.2 * cs) (hc0 : 0 ≤ cl) (hc : cl ≤ cl') (hc1 : cl' ≤ 1.2 * cs ^ 2) (hne : tc < tc' ∨ cl < cl')
    (hM : 0 < M) :
    ∃ a b, compWing tc cl cs M = some a ∧ compWing tc' cl' cs M = some b ∧ b.crest < a.crest ∧ a.cd < b.cd := by
  have c2 : 0 < cs * cs := by positivity
  have m := crestCos_mono (tc := tc / cs) (tc' := tc' / cs) (cl := cl / (cs * cs)) (cl' := cl' / (cs * cs))
    (by positivity) (by gcongr) (by rw [div_le_iff₀ h0]; linarith) (by positivity) (by gcongr)
    (by rw [div_le_iff₀ c2]; nlinarith)
  have hl := m.2.2 (hne.imp (fun h => by gcongr) (fun h => by gcongr))
  have p' : 0 < crest tc' cl' cs := div_pos m.1 h0
  have lt : crest tc' cl' cs < crest tc cl cs := div_lt_div_of_pos_right hl h0
  have p : 0 < crest tc cl cs := p'.trans lt
  have d : ∀ t c, 0 < crest t c cs → compWing t c cs M = some ⟨0.0019 * (M / crest t c cs) ^ (14.641 : ℝ) * cs * cs * cs,
      crest t c cs, crest t c cs * (1.02 + 0.08 * (1 - cs))⟩ := by
    intro t c hp
    unfold compWing
    dsimp only
    rw [if_neg]
    push Not
    exact ⟨h0.ne', hp.ne', by positivity⟩
  refine ⟨_, _, d _ _ p, d _ _ p', lt, ?_⟩
  dsimp only
  have : (M / crest tc cl cs) ^ (14.641 : ℝ) < (M / crest tc' cl' cs) ^ (14.641 : ℝ) :=
    rpow_lt_rpow (by positivity) (by gcongr) (by norm_num)
  gcongr

example : ∃ a b, compWing 0.1 0.3 0.9 0.78 = some a ∧ compWing 0.12 0.5 0.9 0.78 = some b
    ∧ b.crest < a.crest ∧ a.cd < b.cd :=
  C133_lift_partial 0.1 0.12 0.3 0.5 0.9 0.78 (by norm_num) (by norm_num) (by norm_num) (by norm_num) (by norm_num)
    (by norm_num) (by norm_num) (by norm_num) (by norm_num)

/-- A swept wing at a lift coefficient of 1.6 has less than at 1. -/
theorem C133_lift_counterexample : ¬ ∀ tc cl cl' cs M : ℝ, 0 < cs → cs ≤ 1 → 0 ≤ tc → 0 ≤ cl → cl ≤ cl' → cl' ≤ 2 → 0 < M →
    ∃ a b, compWing tc cl cs M = some a ∧ compWing tc cl' cs M = some b ∧ a.cd ≤ b.cd := by
  intro H
  obtain ⟨a, b, ha, hb, hab⟩ := H 0.08 1 1.6 0.8 0.7 (by norm_num) (by norm_num) (by norm_num) (by norm_num)
    (by norm_num) (by norm_num) (by norm_num)
  have p : 0 < crest 0.08 1 0.8 := by unfold crest crestCos; norm_num
  have lt : crest 0.08 1 0.8 < crest 0.08 1.6 0.8 := by unfold crest crestCos; norm_num
  have p' := p.trans lt
  have d : ∀ c, 0 < crest 0.08 c 0.8 → compWing 0.08 c 0.8 0.7 = some ⟨0.0019 * (0.7 / crest 0.08 c 0.8) ^ (14.641 : ℝ) * 0.8 * 0.8 * 0.8,
      crest 0.08 c 0.8, crest 0.08 c 0.8 * (1.02 + 0.08 * (1 - 0.8))⟩ := by
    intro c hp
    unfold compWing
    dsimp only
    rw [if_neg]
    push Not
    exact ⟨by norm_num, hp.ne', by positivity⟩
  rw [d _ p] at ha
  rw [d _ p'] at hb
  rw [← Option.some.inj ha, ← Option.some.inj hb] at hab
  have : (0.7 / crest 0.08 1.6 0.8) ^ (14.641 : ℝ) < (0.7 / crest 0.08 1 0.8) ^ (14.641 : ℝ) :=
    rpow_lt_rpow (by positivity) (by gcongr) (by norm_num)
  dsimp only at hab
  nlinarith

/-- The total on the vehicle's area: drag areas add up, whatever the order of the wings. -/
theorem C133_total (S : ℝ) (ws ws' : List (ℝ × ℝ)) (hS : S ≠ 0) (hp : ws.Perm ws') :
    compTotal S ws * S = (ws.map fun w => w.1 * w.2).sum ∧ compTotal S ws = compTotal S ws' := by
  constructor
  · unfold compTotal
    clear hp
    induction ws with
    | nil => simp
    | cons w ws ih => simp only [List.map_cons, List.sum_cons, add_mul, ih]; field_simp
  · exact (hp.map _).sum_eq

/-! ## C135 -/

theorem dragDiv_continuous (S : ℝ) (w : SWing) (cl : ℝ) : Continuous (dragDiv S w cl) := by
  have c : Continuous fun M : ℝ => 0.0019 * (M / superCrest w cl) ^ (14.641 : ℝ) :=
    continuous_const.mul ((continuous_id.div_const _).rpow_const fun _ => Or.inr (by norm_num))
  unfold dragDiv
  dsimp only
  cases w.highMach
  · exact ((c.mul continuous_const).mul continuous_const).div_const _
  · exact (c.mul continuous_const).div_const _

theorem dragDivAll_continuous (S : ℝ) (ws : List (SWing × ℝ)) : Continuous (dragDivAll S ws) := by
  induction ws with
  | nil => exact continuous_const
  | cons w ws ih =>
    have e : dragDivAll S (w :: ws) = fun M => dragDiv S w.1 w.2 M + dragDivAll S ws M := by
      funext M; simp [dragDivAll]
    rw [e]
    exact (dragDiv_continuous S w.1 w.2).add ih

theorem volumeRaymer_eq (sweep L A S scale M : ℝ) :
    volumeRaymer sweep L A S scale M = (scale * (9 * π / 2 * (A / L) * (A / L)) * blend 1.2 1.3 M
      + scale * (1 - 0.2 * (max (M - 1.2) 0) ^ (0.57 : ℝ) * (1 - π * sweep ^ (0.77 : ℝ) / 100))
        * (9 * π / 2 * (A / L) * (A / L)) * (1 - blend 1.2 1.3 M)) / S := by
  unfold volumeRaymer
  dsimp only
  split_ifs with h
  · rw [max_eq_left (by linarith)]
  · rw [(C29_outside (x := M) (show (1.2 : ℝ) < 1.3 by norm_num)).1 (by linarith)]; ring

theorem volumeRaymer_continuous (sweep L A S scale : ℝ) : Continuous (volumeRaymer sweep L A S scale) := by
  have e : volumeRaymer sweep L A S scale = fun M => (scale * (9 * π / 2 * (A / L) * (A / L)) * blend 1.2 1.3 M
      + scale * (1 - 0.2 * (max (M - 1.2) 0) ^ (0.57 : ℝ) * (1 - π * sweep ^ (0.77 : ℝ) / 100))
        * (9 * π / 2 * (A / L) * (A / L)) * (1 - blend 1.2 1.3 M)) / S := funext (volumeRaymer_eq sweep L A S scale)
  rw [e]
  have cb := C29_continuous (show (1.2 : ℝ) < 1.3 by norm_num)
  have cr : Continuous fun M : ℝ => (max (M - 1.2) 0) ^ (0.57 : ℝ) :=
    ((continuous_id.sub continuous_const).max continuous_const).rpow_const fun _ => Or.inr (by norm_num)
  exact ((continuous_const.mul cb).add (((continuous_const.mul (continuous_const.sub ((continuous_const.mul cr).mul
    continuous_const))).mul continuous_const).mul (continuous_const.sub cb))).div_const _

theorem parabola_continuous (peak top m v : ℝ) : Continuous (parabola peak top m v) := by
  unfold parabola; fun_prop

theorem parabola_peak (peak top m v : ℝ) : parabola peak top m v peak = top := by unfold parabola; ring

theorem parabola_end {peak m : ℝ} (top v : ℝ) (h : m ≠ peak) : parabola peak top m v m = v := by
  have : m - peak ≠ 0 := sub_ne_zero.2 h
  unfold parabola
  field_simp
  ring

/-- Between its two ends the parabola stays between the two values. -/
theorem parabola_nonneg {peak m top v M : ℝ} (h : m ≠ peak) (hM : (M - peak) ^ 2 ≤ (m - peak) ^ 2) (ht : 0 ≤ top)
    (hv : 0 ≤ v) : 0 ≤ parabola peak top m v M := by
  have hp : 0 < (m - peak) ^ 2 := by
    have : m - peak ≠ 0 := sub_ne_zero.2 h
    positivity
  have e : parabola peak top m v M = (v * (M - peak) ^ 2 + top * ((m - peak) ^ 2 - (M - peak) ^ 2)) / (m - peak) ^ 2 := by
    have : m - peak ≠ 0 := sub_ne_zero.2 h
    unfold parabola
    field_simp
    ring
  rw [e]
  apply div_nonneg _ hp.le
  have := mul_nonneg hv (sq_nonneg (M - peak))
  have := mul_nonneg ht (sub_nonneg.2 hM)
  linarith

theorem continuous_if_lt_of (f g : ℝ → ℝ) {c : ℝ} (hf : Continuous f) (hg : Continuous g) (h : f c = g c) :
    Continuous fun x => if x < c then f x else g x := by
  have e : (fun x => if x < c then f x else g x) = fun x => if c ≤ x then g x else f x := by
    funext x
    by_cases hx : x < c
    · rw [if_pos hx, if_neg (not_le.2 hx)]
    · rw [if_neg hx, if_pos (not_lt.1 hx)]
  rw [e]
  exact Continuous.if_le hg hf continuous_const continuous_id fun x hx => by rw [← hx]; exact h.symm

theorem volumeDrag_continuous (low high peak factor : ℝ) (sub wv : ℝ → ℝ) (h1 : low < peak) (h2 : peak < high)
    (hs : Continuous sub) (hw : Continuous wv) : Continuous (volumeDrag low high peak factor sub wv) := by
  have cb1 := C29_continuous (show low < peak - (peak - low) * 3 / 4 by linarith)
  have cb2 := C29_continuous h2
  unfold volumeDrag
  dsimp only
  refine continuous_if_lt_of (fun M => sub M * blend low (peak - (peak - low) * 3 / 4) M
      + parabola peak (wv low * factor) low (sub low) M * (1 - blend low (peak - (peak - low) * 3 / 4) M))
    (fun M => parabola peak (wv low * factor) high (wv low) M * blend peak high M + wv M * (1 - blend peak high M)) ?_ ?_ ?_
  · exact (hs.mul cb1).add ((parabola_continuous _ _ _ _).mul (continuous_const.sub cb1))
  · exact ((parabola_continuous _ _ _ _).mul cb2).add (hw.mul (continuous_const.sub cb2))
  · rw [parabola_peak, parabola_peak,
      (C29_outside (x := peak) (show low < peak - (peak - low) * 3 / 4 by linarith)).2 (by linarith),
      (C29_outside (x := peak) h2).1 le_rfl]
    ring

/-- The volume drag has no jump, not at the peak and not at either end of the rise: with Raymer's and with the
Sears-Haack formula. -/
theorem C135_continuous (low high peak factor S sweep L A scale : ℝ) (ws : List (SWing × ℝ)) (h1 : low < peak)
    (h2 : peak < high) :
    Continuous (volumeDrag low high peak factor (dragDivAll S ws) (volumeRaymer sweep L A S scale))
      ∧ Continuous (volumeDrag low high peak factor (dragDivAll S ws) fun _ => volumeSears L A S scale) :=
  ⟨volumeDrag_continuous _ _ _ _ _ _ h1 h2 (dragDivAll_continuous S ws) (volumeRaymer_continuous _ _ _ _ _),
    volumeDrag_continuous _ _ _ _ _ _ h1 h2 (dragDivAll_continuous S ws) continuous_const⟩

example : Continuous (volumeDrag 0.95 1.2 1.04 1.25 (dragDivAll 360 [(⟨true, true, 0.03, 0.6, 360⟩, 0.15)])
    (volumeRaymer 55 60 8 360 3.2)) :=
  (C135_continuous 0.95 1.2 1.04 1.25 360 55 60 8 3.2 _ (by norm_num) (by norm_num)).1

/-- Before the rise it is the drag rise of the wings, after it the volume wave drag. -/
theorem C135_ends (low high peak factor : ℝ) (sub wv : ℝ → ℝ) (h1 : low < peak) (h2 : peak < high) (M : ℝ) :
    (M ≤ low → volumeDrag low high peak factor sub wv M = sub M)
      ∧ (high ≤ M → volumeDrag low high peak factor sub wv M = wv M) := by
  unfold volumeDrag
  constructor
  · intro h
    dsimp only
    rw [if_pos (by linarith),
      (C29_outside (x := M) (show low < peak - (peak - low) * 3 / 4 by linarith)).1 h]
    ring
  · intro h
    dsimp only
    rw [if_neg (by linarith), (C29_outside (x := M) h2).2 h]
    ring

theorem volumeDrag_peak (low high peak factor : ℝ) (sub wv : ℝ → ℝ) (h2 : peak < high) :
    volumeDrag low high peak factor sub wv peak = factor * wv low := by
  unfold volumeDrag
  dsimp only
  rw [if_neg (lt_irrefl _), parabola_peak, (C29_outside (x := peak) h2).1 le_rfl]
  ring

theorem volumeRaymer_low {sweep L A S scale M : ℝ} (h : M ≤ 1.2) :
    volumeRaymer sweep L A S scale M = scale * (9 * π / 2 * (A / L) ^ 2) / S := by
  rw [volumeRaymer_eq, (C29_outside (x := M) (show (1.2 : ℝ) < 1.3 by norm_num)).1 h]
  ring

/-- At the peak it is the factor times the volume drag at the end of the rise — for a rise that ends by Mach 1.2, or for
the Sears-Haack formula. -/
theorem C135_peak_partial (low high peak factor S sweep L A scale : ℝ) (sub : ℝ → ℝ) (h1 : low < peak) (h2 : peak < high) :
    (high ≤ 1.2 → volumeDrag low high peak factor sub (volumeRaymer sweep L A S scale) peak
        = factor * volumeDrag low high peak factor sub (volumeRaymer sweep L A S scale) high)
      ∧ volumeDrag low high peak factor sub (fun _ => volumeSears L A S scale) peak
        = factor * volumeDrag low high peak factor sub (fun _ => volumeSears L A S scale) high := by
  constructor
  · intro h
    rw [volumeDrag_peak _ _ _ _ _ _ h2, (C135_ends low high peak factor sub _ h1 h2 high).2 le_rfl,
      volumeRaymer_low h, volumeRaymer_low (by linarith)]
  · rw [volumeDrag_peak _ _ _ _ _ _ h2, (C135_ends low high peak factor sub _ h1 h2 high).2 le_rfl]

/-- For a later end it is not. -/
theorem C135_peak_counterexample : ¬ ∀ (low high peak factor S sweep L A scale : ℝ) (sub : ℝ → ℝ), low < peak →
    peak < high → volumeDrag low high peak factor sub (volumeRaymer sweep L A S scale) peak
        = factor * volumeDrag low high peak factor sub (volumeRaymer sweep L A S scale) high := by
  intro H
  have h := H 0.95 1.5 1.04 1 1 0 1 1 1 (fun _ => 0) (by norm_num) (by norm_num)
  rw [volumeDrag_peak _ _ _ _ _ _ (by norm_num),
    (C135_ends 0.95 1.5 1.04 1 (fun _ => 0) _ (by norm_num) (by norm_num) 1.5).2 le_rfl, volumeRaymer_low (by norm_num),
    volumeRaymer_eq, (C29_outside (x := (1.5 : ℝ)) (show (1.2 : ℝ) < 1.3 by norm_num)).2 (by norm_num),
    max_eq_left (by norm_num), zero_rpow (by norm_num)] at h
  have hp := pi_pos
  have hr : (0 : ℝ) < (1.5 - 1.2) ^ (0.57 : ℝ) := by apply rpow_pos_of_pos; norm_num
  have hm := mul_pos hr hp
  ring_nf at h hm
  linarith

/-- It is nowhere negative. -/
theorem C135_nonneg (low high peak factor : ℝ) (sub wv : ℝ → ℝ) (h0 : 0 ≤ low) (h1 : low < peak) (h2 : peak < high)
    (hf : 0 ≤ factor) (hs : ∀ M, 0 ≤ M → 0 ≤ sub M) (hw : ∀ M, 0 ≤ M → 0 ≤ wv M) (M : ℝ) (hM : 0 ≤ M) :
    0 ≤ volumeDrag low high peak factor sub wv M := by
  have hl : low < peak - (peak - low) * 3 / 4 := by linarith
  have r1 := C29_range hl M
  have r2 := C29_range h2 M
  have ht : 0 ≤ wv low * factor := mul_nonneg (hw low h0) hf
  by_cases a : M ≤ low
  · rw [(C135_ends low high peak factor sub wv h1 h2 M).1 a]; exact hs M hM
  by_cases b : high ≤ M
  · rw [(C135_ends low high peak factor sub wv h1 h2 M).2 b]; exact hw M hM
  push Not at a b
  unfold volumeDrag
  dsimp only
  split_ifs with c
  · have hp := parabola_nonneg (m := low) (peak := peak) (M := M) h1.ne (by nlinarith) ht (hs low h0)
    have := mul_nonneg (hs M hM) r1.1
    have := mul_nonneg hp (sub_nonneg.2 r1.2)
    linarith
  · have hp := parabola_nonneg (m := high) (peak := peak) (M := M) h2.ne' (by nlinarith) ht (hw low h0)
    have := mul_nonneg (hw M hM) (sub_nonneg.2 r2.2)
    have := mul_nonneg hp r2.1
    linarith

example (M : ℝ) (hM : 0 ≤ M) : 0 ≤ volumeDrag 0.95 1.2 1.04 1.25 (fun M => 0.0019 * M) (fun _ => 0.01) M :=
  C135_nonneg 0.95 1.2 1.04 1.25 _ _ (by norm_num) (by norm_num) (by norm_num) (by norm_num)
    (fun M h => by positivity) (fun _ _ => by norm_num) M hM

/-- The formulas themselves: the rise of the wings is nowhere negative where the crest-critical Mach numbers are
positive, Raymer's volume drag not up to Mach 6.2, and the Sears-Haack one is positive. -/
theorem C135_formulas (S sweep L A scale M : ℝ) (ws : List (SWing × ℝ)) (hS : 0 < S) (hL : 0 < L) (hA : 0 < A)
    (hsc : 0 < scale) (hsw : 0 ≤ sweep) (hM : 0 ≤ M) (hw : ∀ w ∈ ws, 0 < superCrest w.1 w.2 ∧ 0 ≤ w.1.cs ∧ 0 ≤ w.1.area) :
    0 ≤ dragDivAll S ws M ∧ (M ≤ 6.2 → 0 ≤ volumeRaymer sweep L A S scale M) ∧ 0 < volumeSears L A S scale := by
  have hp := pi_pos
  refine ⟨?_, ?_, ?_⟩
  · unfold dragDivAll
    apply List.sum_nonneg
    intro x hx
    obtain ⟨w, hm, rfl⟩ := List.mem_map.1 hx
    obtain ⟨a, b, c⟩ := hw w hm
    unfold dragDiv
    dsimp only
    split_ifs <;> positivity
  · intro h6
    rw [volumeRaymer_eq]
    have r := C29_range (show (1.2 : ℝ) < 1.3 by norm_num) M
    obtain ⟨t, ht⟩ : ∃ t, t = max (M - 1.2) 0 := ⟨_, rfl⟩
    have t0 : 0 ≤ t := by rw [ht]; exact le_max_right _ _
    have t5 : t ≤ 5 := by rw [ht]; exact max_le (by linarith) (by norm_num)
    have tp : t ^ (0.57 : ℝ) ≤ 5 := by
      calc t ^ (0.57 : ℝ) ≤ (5 : ℝ) ^ (0.57 : ℝ) := rpow_le_rpow t0 t5 (by norm_num)
        _ ≤ (5 : ℝ) ^ (1 : ℝ) := rpow_le_rpow_of_exponent_le (by norm_num) (by norm_num)
        _ = 5 := rpow_one 5
    have tn : 0 ≤ t ^ (0.57 : ℝ) := by positivity
    have sn : 0 ≤ π * sweep ^ (0.77 : ℝ) / 100 := by positivity
    rw [← ht]
    generalize t ^ (0.57 : ℝ) = u at *
    generalize π * sweep ^ (0.77 : ℝ) / 100 = z at *
    have hk : 0 ≤ 1 - 0.2 * u * (1 - z) := by nlinarith [mul_nonneg tn sn]
    generalize 1 - 0.2 * u * (1 - z) = k at *
    have hd : 0 < 9 * π / 2 * (A / L) * (A / L) := by positivity
    have b1 := mul_nonneg (mul_pos hsc hd).le r.1
    have b2 := mul_nonneg (mul_nonneg (mul_nonneg hsc.le hk) hd.le) (sub_nonneg.2 r.2)
    exact div_nonneg (add_nonneg b1 b2) hS.le
  · unfold volumeSears
    dsimp only
    have : 0 < √(A / π) := sqrt_pos.2 (by positivity)
    positivity

/-- Up to Mach 1.2 the two formulas differ by a third: Raymer's gives three quarters of the other. -/
theorem C135_raymer_sears (sweep L A S scale M : ℝ) (hA : 0 ≤ A) (h : M ≤ 1.2) :
    4 * volumeRaymer sweep L A S scale M = 3 * volumeSears L A S scale := by
  have hp := pi_pos
  rw [volumeRaymer_low h]
  unfold volumeSears
  dsimp only
  have hs : √(A / π) ^ 2 = A / π := sq_sqrt (by positivity)
  have e : 3 / 2 * π * π * (√(A / π) * 2 / L) * (√(A / π) * 2 / L) * A / S * scale
      = 6 * π * π * (√(A / π) ^ 2) * A / L ^ 2 / S * scale := by ring
  rw [e, hs]
  by_cases hL : L = 0
  · rw [hL]; simp
  by_cases hS : S = 0
  · rw [hS]; simp
  field_simp
  ring

/-- Drag due to lift at supersonic speed: depends on Mach number only through `fw`. -/
theorem C135_lift (s l AR CL M : ℝ) (hs : 0 < s) (hl : 0 < l) (hAR : 0 < AR) (hM : 1.01 ≤ M) :
    waveLift s l AR CL M = CL ^ 2 * (1 + 2 * s / (AR * l)) * fw (√(M ^ 2 - 1) * s / l) / (2 * π * (s / l)) := by
  have hp := pi_pos
  have hb : 0 < √(M ^ 2 - 1) := sqrt_pos.2 (by nlinarith)
  unfold waveLift
  rw [if_pos hM]
  dsimp only
  generalize fw (√(M ^ 2 - 1) * s / l) = f
  generalize √(M ^ 2 - 1) = b at *
  field_simp
  ring

theorem fw_nonneg {x : ℝ} (h1 : 0.2 ≤ x) (h2 : x ≤ 2.9) : 0 < fw x := by
  unfold fw
  rw [if_pos (by linarith)]
  have a : 0 ≤ x - 0.2 := by linarith
  have b : 0 ≤ 2.9 - x := by linarith
  have e : 0.4935 - 0.2382 * x + 1.6306 * x ^ 2 - 0.86 * x ^ 3 + 0.2232 * x ^ 4 - 0.0365 * x ^ 5 - 0.5
      = (18956/597871125 : ℝ) * ((x - 0.2) ^ 0 * (2.9 - x) ^ 5) + (3668797/597871125 : ℝ) * ((x - 0.2) ^ 1 * (2.9 - x) ^ 4) + (49880036/597871125 : ℝ) * ((x - 0.2) ^ 2 * (2.9 - x) ^ 3) + (141465811/1195742250 : ℝ) * ((x - 0.2) ^ 3 * (2.9 - x) ^ 2) + (381982337/4782969000 : ℝ) * ((x - 0.2) ^ 4 * (2.9 - x) ^ 1) + (22764569/9565938000 : ℝ) * ((x - 0.2) ^ 5 * (2.9 - x) ^ 0) := by ring
  rw [e]
  rcases a.lt_or_eq with a' | a'
  · have : 0 < (x - 0.2) ^ 5 := by positivity
    have := pow_nonneg b 5
    positivity
  · have hx : x = 0.2 := by linarith
    rw [hx]; norm_num

/-- Not negative for `0.2 ≤ β·s/l ≤ 2.9`. -/
theorem C135_lift_sign_partial (s l AR CL M : ℝ) (hs : 0 < s) (hl : 0 < l) (hAR : 0 < AR) (hM : 1.01 ≤ M)
    (h1 : 0.2 ≤ √(M ^ 2 - 1) * s / l) (h2 : √(M ^ 2 - 1) * s / l ≤ 2.9) : 0 ≤ waveLift s l AR CL M := by
  have hp := pi_pos
  rw [C135_lift s l AR CL M hs hl hAR hM]
  have := fw_nonneg h1 h2
  positivity

example : 0 ≤ waveLift 12 50 2 0.15 1.8 := by
  have e : (0.2 : ℝ) ≤ √(1.8 ^ 2 - 1) * 12 / 50 := by
    have : (1.4 : ℝ) ≤ √(1.8 ^ 2 - 1) := by
      rw [le_sqrt' (by norm_num)]; norm_num
    linarith
  have f : √(1.8 ^ 2 - 1) * 12 / 50 ≤ (2.9 : ℝ) := by
    have : √(1.8 ^ 2 - 1) ≤ (1.8 : ℝ) := by
      rw [sqrt_le_left (by norm_num)]; norm_num
    linarith
  exact C135_lift_sign_partial 12 50 2 0.15 1.8 (by norm_num) (by norm_num) (by norm_num) (by norm_num) e f

/-- Just above 0.178 it is. -/
theorem C135_lift_sign_counterexample : ¬ ∀ s l AR CL M : ℝ, 0 < s → 0 < l → 0 < AR → 1.01 ≤ M → 0 ≤ waveLift s l AR CL M := by
  intro H
  have h := H 0.24 1 2 1 1.25 (by norm_num) (by norm_num) (by norm_num) (by norm_num)
  have hp := pi_pos
  have e : √((1.25 : ℝ) ^ 2 - 1) = 0.75 := by
    rw [show ((1.25 : ℝ) ^ 2 - 1) = 0.75 ^ 2 by norm_num]; exact sqrt_sq (by norm_num)
  rw [C135_lift 0.24 1 2 1 1.25 (by norm_num) (by norm_num) (by norm_num) (by norm_num), e] at h
  have f : fw (0.75 * 0.24 / 1) < 0 := by
    unfold fw
    rw [if_pos (by norm_num)]
    norm_num
  have d : 0 < 2 * π * (0.24 / 1) := by positivity
  have : (1 : ℝ) ^ 2 * (1 + 2 * 0.24 / (2 * 1)) * fw (0.75 * 0.24 / 1) < 0 := by
    norm_num at f ⊢; linarith
  have := div_neg_of_neg_of_pos this d
  linarith

theorem scatter_take (a b : List (ℝ × ℝ)) (ha : ∀ r ∈ a, 1.01 ≤ r.2) (hb : ∀ r ∈ b, r.2 < 1.01) :
    scatter ((a ++ b).map fun r => decide ((1.01 : ℝ) ≤ r.2)) ((a ++ b).map fun _ => (0 : ℝ)) (a.map Prod.fst)
      = a.map Prod.fst ++ b.map fun _ => 0 := by
  induction a with
  | nil =>
    clear ha
    simp only [List.nil_append, List.map_nil]
    induction b with
    | nil => rfl
    | cons r b ih =>
      have h := hb r List.mem_cons_self
      simp only [List.map_cons, decide_eq_false (not_le.2 h), scatter]
      rw [ih fun x hx => hb x (List.mem_cons_of_mem _ hx)]
  | cons r a ih =>
    have h := ha r List.mem_cons_self
    simp only [List.cons_append, List.map_cons, decide_eq_true h, scatter]
    rw [ih fun x hx => ha x (List.mem_cons_of_mem _ hx)]

/-- Over the rows of a segment: right where the supersonic rows come first. -/
theorem C135_rows_partial (area S : ℝ) (a b : List (ℝ × ℝ)) (ha : ∀ r ∈ a, 1.01 ≤ r.2) (hb : ∀ r ∈ b, r.2 < 1.01) :
    liftWave area S (a ++ b) = (a ++ b).map fun r => (if 1.01 ≤ r.2 then r.1 else 0) * area / S := by
  have hc : ((a ++ b).map fun r => decide ((1.01 : ℝ) ≤ r.2)).count true = a.length := by
    rw [List.map_append, List.count_append]
    have e1 : (a.map fun r => decide ((1.01 : ℝ) ≤ r.2)).count true = a.length := by
      rw [List.count_eq_length.2]
      · simp
      · intro x hx
        obtain ⟨r, hr, rfl⟩ := List.mem_map.1 hx
        simp [ha r hr]
    have e2 : (b.map fun r => decide ((1.01 : ℝ) ≤ r.2)).count true = 0 := by
      rw [List.count_eq_zero]
      intro hx
      obtain ⟨r, hr, h⟩ := List.mem_map.1 hx
      have := of_decide_eq_true h
      linarith [hb r hr]
    omega
  have ht : ((a ++ b).map Prod.fst).take a.length = a.map Prod.fst := by
    rw [List.map_append, List.take_append_of_le_length (by simp), List.take_of_length_le (by simp)]
  unfold liftWave
  dsimp only
  rw [hc, ht, scatter_take a b ha hb, List.map_append, List.map_append, List.map_map]
  congr 1
  · apply List.map_congr_left
    intro r hr
    simp [ha r hr]
  · rw [List.map_map]
    apply List.map_congr_left
    intro r hr
    simp [not_le.2 (hb r hr)]

example : liftWave 360 360 [(0.003, 1.5), (0, 0.8)]
    = [(0.003, 1.5), (0, 0.8)].map fun r : ℝ × ℝ => (if 1.01 ≤ r.2 then r.1 else 0) * 360 / 360 :=
  C135_rows_partial 360 360 [(0.003, 1.5)] [(0, 0.8)] (by norm_num) (by norm_num)

/-- A segment that accelerates through Mach 1: no wave drag for the supersonic row. -/
theorem C135_rows_counterexample : ¬ ∀ (area S : ℝ) (rows : List (ℝ × ℝ)), 0 < area → 0 < S →
    liftWave area S rows = rows.map fun r => (if 1.01 ≤ r.2 then r.1 else 0) * area / S := by
  intro H
  have h := H 1 1 [(0, 0.8), (0.003, 1.5)] one_pos one_pos
  have m : ([(0, 0.8), (0.003, 1.5)] : List (ℝ × ℝ)).map (fun r => decide ((1.01 : ℝ) ≤ r.2)) = [false, true] := by
    norm_num
  unfold liftWave at h
  rw [m] at h
  simp only [List.map_cons, List.map_nil, scatter, List.count_cons, List.count_nil] at h
  norm_num [scatter] at h

/-- The lift wave drag of the older method, used with OpenVSP: nowhere negative, growing with Mach number, -/
theorem C135_helper (l Sref CL M M' : ℝ) (hl : 0 < l) (hS : 0 < Sref) (hM : M ≤ M') :
    0 ≤ helperWaveRow l Sref CL M ∧ helperWaveRow l Sref CL M ≤ helperWaveRow l Sref CL M' := by
  have hp := pi_pos
  have hx : 0 < π * (l ^ 2 / Sref) / 4 := by positivity
  have nn : ∀ y : ℝ, 0 ≤ √(1 + (y / (π * (l ^ 2 / Sref) / 4)) ^ 2) - 1 := by
    intro y
    have : 1 ≤ √(1 + (y / (π * (l ^ 2 / Sref) / 4)) ^ 2) := by
      rw [le_sqrt' one_pos]; nlinarith [sq_nonneg (y / (π * (l ^ 2 / Sref) / 4))]
    linarith
  have n : ∀ M, 0 ≤ helperWaveRow l Sref CL M := by
    intro M
    unfold helperWaveRow
    split_ifs
    · exact mul_nonneg (by positivity) (nn _)
    · exact le_rfl
  refine ⟨n M, ?_⟩
  by_cases h : 1.05 ≤ M
  · unfold helperWaveRow
    rw [if_pos h, if_pos (h.trans hM)]
    have : √(M ^ 2 - 1) ≤ √(M' ^ 2 - 1) := sqrt_le_sqrt (by nlinarith)
    dsimp only
    gcongr
  · have e : helperWaveRow l Sref CL M = 0 := by unfold helperWaveRow; rw [if_neg h]
    rw [e]; exact n M'

/-- over the rows right where the supersonic ones come first, -/
theorem C135_helper_rows_partial (a b : List (ℝ × ℝ)) (ha : ∀ r ∈ a, 1.05 ≤ r.2) (hb : ∀ r ∈ b, r.2 < 1.05) :
    helperWave (a ++ b) = (a ++ b).map Prod.fst := by
  have ea : a.filter (fun r => decide ((1.05 : ℝ) ≤ r.2)) = a :=
    List.filter_eq_self.2 fun r hr => decide_eq_true (ha r hr)
  have eb : b.filter (fun r => decide ((1.05 : ℝ) ≤ r.2)) = [] := by
    rw [List.filter_eq_nil_iff]
    intro r hr h
    linarith [of_decide_eq_true h, hb r hr]
  unfold helperWave
  rw [List.filter_append, ea, eb, List.append_nil]
  simp

/-- and otherwise wave drag is put on subsonic rows. -/
theorem C135_helper_rows_counterexample : ¬ ∀ rows : List (ℝ × ℝ), (∀ r ∈ rows, r.2 < 1.05 → r.1 = 0) →
    helperWave rows = rows.map Prod.fst := by
  intro H
  have h := H [(0, 0.8), (0.003, 1.5)] (by intro r hr hl; fin_cases hr <;> norm_num at *)
  have f : ([(0, 0.8), (0.003, 1.5)] : List (ℝ × ℝ)).filter (fun r => decide ((1.05 : ℝ) ≤ r.2)) = [(0.003, 1.5)] := by
    norm_num [List.filter]
  unfold helperWave at h
  rw [f] at h
  norm_num at h

end Verif.Aero
