import Verif.Stability.ZeroDynamics
import Verif.Stability.ModesProps
import Verif.Geometry.PlanformProps

/-!
C275 derivatives of the rolling moment, C276 derivatives of tails and downwash, C277 modes of the zero fidelity analysis.
-/

namespace Verif.Stability
open Real MeasureTheory intervalIntegral
open Verif.Geometry (lerp int_poly)

/-! ### C275: strip theory

The rolling moment of a wing whose strip at `y` sees the extra angle of attack `a y` on the right and `-a y` on the left is
`-2 q ∫ c(y) cla a(y) y dy`, made dimensionless by `q S b`. -/

/-- Derivative of the rolling moment coefficient for the angles `a`, chord tapering from `cr` to `t cr` over the half span. -/
noncomputable def stripRoll (cla cr t b : ℝ) (a : ℝ → ℝ) : ℝ :=
  -(2 * ∫ y in (0 : ℝ)..b / 2, cla * lerp 0 (b / 2) cr (t * cr) y * a y * y) / ((b * cr * (1 + t) / 2) * b)

/-- Rolling with `p b / 2V = 1`: the strip at `y` sees `p y / V = 2 y / b`. -/
noncomputable def stripClP (cla cr t b : ℝ) : ℝ := stripRoll cla cr t b fun y => 2 * y / b

/-- Side slip of one radian with dihedral `d`: every strip of the windward side sees `d`. -/
noncomputable def stripClBeta (cla cr t b d : ℝ) : ℝ := stripRoll cla cr t b fun _ => d

theorem int_cubic (k b : ℝ) (c0 c1 : ℝ) : ∫ y in (0 : ℝ)..b, (c0 * y ^ 2 + c1 * y ^ 3) * k = (c0 * b ^ 3 / 3 + c1 * b ^ 4 / 4) * k := by
  have h : ∀ y ∈ Set.uIcc 0 b, HasDerivAt (fun y : ℝ => (c0 * y ^ 3 / 3 + c1 * y ^ 4 / 4) * k) ((c0 * y ^ 2 + c1 * y ^ 3) * k) y := by
    intro y _
    have h1 := ((hasDerivAt_pow 3 y).const_mul c0).div_const 3
    have h2 := ((hasDerivAt_pow 4 y).const_mul c1).div_const 4
    exact ((h1.add h2).mul_const k).congr_deriv (by push_cast; ring)
  rw [integral_eq_sub_of_hasDerivAt h (Continuous.intervalIntegrable (by fun_prop) _ _)]
  ring

/-- **C275, damping in roll.** The derivative is that of strip theory for every straight-tapered wing. -/
theorem C275_roll_damping (cla cr t b : ℝ) (hc : 0 < cr) (ht : 0 ≤ t) (hb : 0 < b) : clP cla t = stripClP cla cr t b := by
  have h1 : 1 + t ≠ 0 := by positivity
  have hb' := hb.ne'
  have hc' := hc.ne'
  have e : ∀ y, cla * lerp 0 (b / 2) cr (t * cr) y * (2 * y / b) * y =
      (cr * y ^ 2 + 2 * (t * cr - cr) / b * y ^ 3) * (cla * 2 / b) := fun y => by
    simp only [lerp, sub_zero]; field_simp
  simp only [stripClP, stripRoll, e]
  rw [int_cubic, clP]
  field_simp; ring

/-- **C275.** Rolling is damped: the derivative is negative and between a twelfth and a quarter of the lift-curve slope. -/
theorem C275_damped (cla t : ℝ) (hc : 0 < cla) (ht : 0 ≤ t) : -(cla / 4) < clP cla t ∧ clP cla t ≤ -(cla / 12) := by
  have h1 : 0 < 1 + t := by linarith
  have : 1 ≤ (1 + 3 * t) / (1 + t) := by rw [le_div_iff₀ h1]; linarith
  have : (1 + 3 * t) / (1 + t) < 3 := by rw [div_lt_iff₀ h1]; linarith
  unfold clP
  constructor <;> nlinarith

/-- The dihedral effect in terms of strip theory: half of it. -/
theorem C275_dihedral_half (cla cr t b d : ℝ) (hc : 0 < cr) (ht : 0 ≤ t) (hb : 0 < b) :
    clBeta t d (clP cla t) = stripClBeta cla cr t b d / 2 := by
  have h1 : 1 + t ≠ 0 := by positivity
  have h3 : 1 + 3 * t ≠ 0 := by positivity
  have hb' := hb.ne'
  have hc' := hc.ne'
  have e : ∀ y, cla * lerp 0 (b / 2) cr (t * cr) y * d * y =
      0 + cla * d * cr * y + cla * d * (2 * (t * cr - cr) / b) * y ^ 2 := fun y => by
    simp only [lerp, sub_zero]; field_simp; ring
  simp only [stripClBeta, stripRoll, e]
  rw [int_poly, clBeta, clP]
  field_simp; ring

/-- **C275, dihedral effect.** Its sign is that of strip theory: positive dihedral rolls the aircraft away from the side slip; it
is proportional to the dihedral, and no dihedral gives none. -/
theorem C275_dihedral_partial (cla t d : ℝ) (hc : 0 < cla) (ht : 0 ≤ t) :
    (clBeta t d (clP cla t) < 0 ↔ 0 < d) ∧ (clBeta t d (clP cla t) = 0 ↔ d = 0) ∧
    ∀ k, clBeta t (k * d) (clP cla t) = k * clBeta t d (clP cla t) := by
  have hp : clP cla t < 0 := by have := (C275_damped cla t hc ht).2; linarith
  have hr : 0 < (1 + 2 * t) / (1 + 3 * t) := by positivity
  have e : clBeta t d (clP cla t) = d * ((1 + 2 * t) / (1 + 3 * t) * clP cla t) := by unfold clBeta; ring
  have hn : (1 + 2 * t) / (1 + 3 * t) * clP cla t < 0 := by nlinarith
  refine ⟨?_, ?_, fun k => by unfold clBeta; ring⟩
  · rw [e]; constructor
    · intro h; by_contra hd; nlinarith
    · intro h; nlinarith
  · rw [e, mul_eq_zero]; exact or_iff_left hn.ne

/-- **C275 fails for the size of the dihedral effect.** For every wing with dihedral it is half of that of the strip theory the
damping in roll follows. -/
theorem C275_dihedral_counterexample (cla cr t b d : ℝ) (hl : 0 < cla) (hc : 0 < cr) (ht : 0 ≤ t) (hb : 0 < b) (hd : d ≠ 0) :
    clBeta t d (clP cla t) ≠ stripClBeta cla cr t b d := by
  intro h
  have h1 := C275_dihedral_half cla cr t b d hc ht hb
  have h2 := (C275_dihedral_partial cla t d hl ht).2.1
  have : clBeta t d (clP cla t) = 0 := by linarith
  exact hd (h2.1 this)

example : clP 6 1 = stripClP 6 2 1 10 ∧ clP 6 1 = -1 := ⟨C275_roll_damping 6 2 1 10 (by norm_num) (by norm_num) (by norm_num), by norm_num [clP]⟩
example : clBeta 1 0.1 (clP 6 1) ≠ stripClBeta 6 2 1 10 0.1 :=
  C275_dihedral_counterexample 6 2 1 10 0.1 (by norm_num) (by norm_num) (by norm_num) (by norm_num) (by norm_num)
example : clBeta 1 0.1 (clP 6 1) < 0 := ((C275_dihedral_partial 6 1 0.1 (by norm_num) (by norm_num)).1).2 (by norm_num)

/-! ### C276 -/

/-- Moment derivative of a surface of slope `a`, area `S'`, at the distance `l` behind the centre of gravity, due to rotation with
`θ' c / 2V = 1` where `c` is the reference length: it sees the angle `2 l / c` and its lift acts at `-l`. -/
noncomputable def tailDamping (a eta S' S l c : ℝ) : ℝ := -(a * eta * (2 * l / c)) * (S' / S) * (l / c)

/-- **C276, yaw.** The damping in yaw is a quarter of the wing's parasite drag and what the fin, at its distance from the wing,
contributes by its own slope. It is never positive, and the same for a fin as far ahead. -/
theorem C276_yaw (a : Craft) (f : Flight) (v h : Tail) :
    (dynamics a f v h).Cnr = -(f.cDw / 4) + tailDamping v.CLa v.eta v.area a.Sref (v.x - a.xw) a.span ∧
    (0 ≤ f.cDw → 0 < a.Sref → 0 ≤ v.area → 0 ≤ v.CLa → 0 ≤ v.eta → (dynamics a f v h).Cnr ≤ 0) ∧
    (dynamics a f v h).Cnr = (dynamics a f { v with x := 2 * a.xw - v.x } h).Cnr := by
  refine ⟨by simp only [dynamics, cnR, tailDamping]; ring, fun h1 h2 h3 h4 h5 => ?_, by simp only [dynamics, cnR]; ring⟩
  have e : (dynamics a f v h).Cnr = -f.cDw / 4 - 2 * v.area / a.Sref * ((v.x - a.xw) / a.span) ^ 2 * v.CLa * v.eta := rfl
  have : 0 ≤ 2 * v.area / a.Sref * ((v.x - a.xw) / a.span) ^ 2 * v.CLa * v.eta := by positivity
  rw [e]; linarith

/-- **C276, pitch.** A tenth is added to the damping of the tail, which is right when the tail's slope is that of the wing and it
flies in the free stream. The damping is never positive. -/
theorem C276_pitch_partial (a : Craft) (f : Flight) (v h : Tail) :
    (h.CLa = a.CLa → h.eta = 1 → (dynamics a f v h).Cmq = 1.1 * tailDamping h.CLa h.eta h.area a.Sref (h.x - a.xw) a.mac) ∧
    (0 < a.Sref → 0 ≤ h.area → 0 ≤ a.CLa → (dynamics a f v h).Cmq ≤ 0) := by
  constructor
  · intro e1 e2; simp only [dynamics, cmQ, tailDamping, e1, e2]; ring
  · intro h1 h2 h3
    have e : (dynamics a f v h).Cmq = -(2.2 * (h.area / a.Sref * ((h.x - a.xw) / a.mac) ^ 2 * a.CLa)) := by
      simp only [dynamics, cmQ]; ring
    have : 0 ≤ h.area / a.Sref * ((h.x - a.xw) / a.mac) ^ 2 * a.CLa := by positivity
    rw [e]; linarith

/-- **C276 fails for the slope of the tail.** The damping in pitch does not depend on the tail's lift-curve slope, a tail that
gives no lift damps as well; wherever the two slopes differ the value is not that of the tail. -/
theorem C276_tail_slope_counterexample (a : Craft) (f : Flight) (v h : Tail) (s : ℝ) :
    (dynamics a f v { h with CLa := s }).Cmq = (dynamics a f v h).Cmq ∧
    (0 < a.Sref → 0 < a.mac → 0 < h.area → h.x ≠ a.xw → h.eta = 1 → h.CLa ≠ a.CLa →
      (dynamics a f v h).Cmq ≠ 1.1 * tailDamping h.CLa h.eta h.area a.Sref (h.x - a.xw) a.mac) := by
  refine ⟨rfl, fun h1 h2 h3 h4 h5 h6 e => h6 ?_⟩
  have h4' : h.x - a.xw ≠ 0 := sub_ne_zero.2 h4
  have hk : 2.2 * (h.area / a.Sref * ((h.x - a.xw) / a.mac) ^ 2) ≠ 0 := by positivity
  have e1 : (dynamics a f v h).Cmq = -(2.2 * (h.area / a.Sref * ((h.x - a.xw) / a.mac) ^ 2) * a.CLa) := by
    simp only [dynamics, cmQ]; ring
  have e2 : 1.1 * tailDamping h.CLa h.eta h.area a.Sref (h.x - a.xw) a.mac =
      -(2.2 * (h.area / a.Sref * ((h.x - a.xw) / a.mac) ^ 2) * h.CLa) := by
    simp only [tailDamping, h5]; ring
  rw [e1, e2, neg_inj] at e
  exact (mul_left_cancel₀ hk e).symm

/-- **C276, downwash.** The downwash slope is twice the lift-curve slope over `π` and the aspect ratio, the value behind a lifting
line. -/
theorem C276_downwash (cLa S b ar : ℝ) (hS : 0 < S) (h : b ^ 2 = ar * S) : epAlphaZero cLa S b = 2 * cLa / (π * ar) := by
  have : b ^ 2 / S = ar := by rw [h]; field_simp
  rw [epAlphaZero, this, div_div]

/-- **C276, lag of downwash.** It is proportional to the static derivative of the whole aircraft and to the downwash of the tail
itself: the wing in front has no part in it. -/
theorem C276_lag_counterexample (a : Craft) (f : Flight) (v h : Tail) (s : ℝ) :
    (dynamics { a with CLa := s } f v h).CmaDot = (dynamics a f v h).CmaDot ∧
    (h.ep = 0 → (dynamics a f v h).CmaDot = 0) ∧ (f.Cma = 0 → (dynamics a f v h).CmaDot = 0) := by
  refine ⟨rfl, fun e => ?_, fun e => ?_⟩ <;> simp [dynamics, cmAlphadot, e]

/-! ### C277 -/

/-- An aircraft with fin and tail. -/
noncomputable def craftSample (Ixx Iyy Izz : ℝ) : Craft :=
  ⟨100, 30, 4, 10, 0.5, some 0.1, 5, some ⟨20, 25, 1, 3, 0.3⟩, some ⟨25, 26, 0.9, 4, 0.3⟩,
    fun i j => if i = j then (if i = 0 then Ixx else if i = 1 then Iyy else Izz) else 0⟩

example (f : Flight) : (dynamics (craftSample 1 1 1) f ⟨20, 25, 1, 3, 0.3⟩ ⟨25, 26, 0.9, 4, 0.3⟩).Cmq ≤ 0 :=
  (C276_pitch_partial _ _ _ _).2 (by norm_num [craftSample]) (by norm_num) (by norm_num [craftSample])

example : epAlphaZero 5 100 20 = 2 * 5 / (π * 4) := C276_downwash 5 100 20 4 (by norm_num) (by norm_num)

/-- **C277, when.** Without moments of inertia there is no dynamic part; with them and both tails there is one. -/
theorem C277_when (a : Craft) (f : Flight) :
    ((∀ i j, a.inertia i j = 0) → dynamicPart a f = some none) ∧
    (∀ v h i j, a.fin = some v → a.tail = some h → a.inertia i j ≠ 0 → dynamicPart a f = some (some (dynamics a f v h))) := by
  constructor
  · intro h
    have : ¬ ∃ i j, a.inertia i j ≠ 0 := fun ⟨i, j, e⟩ => e (h i j)
    simp [dynamicPart, this]
  · intro v h i j hv hh e
    have : ∃ i j, a.inertia i j ≠ 0 := ⟨i, j, e⟩
    simp [dynamicPart, this, hv, hh]

/-- **C277 fails without a tail.** An aircraft with moments of inertia and without a fin (or a horizontal tail) is an exception. -/
theorem C277_tailless_counterexample (a : Craft) (f : Flight) (i j : Fin 3) (e : a.inertia i j ≠ 0)
    (h : a.fin = none ∨ a.tail = none) : dynamicPart a f = none := by
  have : ∃ i j, a.inertia i j ≠ 0 := ⟨i, j, e⟩
  rcases h with h | h
  · simp [dynamicPart, this, h]
  · cases hf : a.fin <;> simp [dynamicPart, this, h, hf]

/-- **C277, axes.** Dutch roll depends on the inertia about the vertical axis alone, the short period on that about the lateral
axis alone, the phugoid and the spiral on none. For the roll mode see the counterexample. -/
theorem C277_axes_partial (a : Craft) (f : Flight) (v h : Tail) (J : Fin 3 → Fin 3 → ℝ) :
    (J 2 2 = a.inertia 2 2 → (dynamics { a with inertia := J } f v h).dutch = (dynamics a f v h).dutch) ∧
    (J 1 1 = a.inertia 1 1 → (dynamics { a with inertia := J } f v h).short = (dynamics a f v h).short) ∧
    (dynamics { a with inertia := J } f v h).phug = (dynamics a f v h).phug ∧
    (dynamics { a with inertia := J } f v h).spiralTau = (dynamics a f v h).spiralTau := by
  refine ⟨fun e => ?_, fun e => ?_, rfl, rfl⟩
  · simp only [dynamics, e]
  · simp only [dynamics, e]

/-- The frequency of the Dutch roll falls as the inertia about the vertical axis grows, that of the short period likewise. -/
theorem C277_heavier (a : Craft) (f : Flight) (v h : Tail) (J : Fin 3 → Fin 3 → ℝ) (hV : 0 < f.V) (hr : 0 < f.rho) (hS : 0 < a.Sref)
    (hb : 0 < a.span) (hn : 0 < f.CnB) (h0 : 0 < a.inertia 2 2) (h1 : a.inertia 2 2 < J 2 2) :
    (dynamics { a with inertia := J } f v h).dutch.wn < (dynamics a f v h).dutch.wn := by
  simp only [dynamics, dutchRoll]
  apply mul_lt_mul_of_pos_left _ hV
  apply Real.sqrt_lt_sqrt
  · have : 0 < J 2 2 := h0.trans h1
    positivity
  · have : 0 < f.CnB * a.Sref * f.rho * a.span / 2 := by positivity
    exact div_lt_div_of_pos_left this h0 h1

/-- **C277 fails for the roll mode.** Its time constant is that of the yaw inertia: it does not change with the roll inertia, and
is wrong whenever the two differ. -/
theorem C277_roll_counterexample (a : Craft) (f : Flight) (v h : Tail) (hc : 0 < a.CLa) (ht : 0 ≤ a.taper) (hS : 0 < a.Sref)
    (hr : 0 < f.rho) (hV : 0 < f.V) (hb : 0 < a.span) (hI : a.inertia 0 0 ≠ a.inertia 2 2) :
    (dynamics a f v h).rollTau ≠ some (rollTau (a.inertia 0 0) a.Sref f.rho f.V a.span (dynamics a f v h).Clp) ∧
    ∀ J : Fin 3 → Fin 3 → ℝ, J 2 2 = a.inertia 2 2 → (dynamics { a with inertia := J } f v h).rollTau = (dynamics a f v h).rollTau := by
  have hp : clP a.CLa a.taper < 0 := by have := (C275_damped a.CLa a.taper hc ht).2; linarith
  constructor
  · simp only [dynamics, hp.ne, if_false, ne_eq, Option.some.injEq, rollTau]
    intro e
    have hd : a.Sref * f.rho * f.V * a.span ^ 2 * clP a.CLa a.taper ≠ 0 := by
      have : a.Sref * f.rho * f.V * a.span ^ 2 ≠ 0 := by positivity
      exact mul_ne_zero this hp.ne
    rw [div_left_inj' hd] at e
    exact hI (by linarith)
  · intro J e; simp only [dynamics, e]

/-- **C277, roll mode.** With equal inertias about the two axes the reported time constant is that of the roll equation
`Ixx p' = (ρ V S b² / 4) Cl_p p`: its inverse is the rate of growth, negative, so that roll rate dies out. -/
theorem C277_roll_partial (a : Craft) (f : Flight) (v h : Tail) (hc : 0 < a.CLa) (ht : 0 ≤ a.taper) (hS : 0 < a.Sref)
    (hr : 0 < f.rho) (hV : 0 < f.V) (hb : 0 < a.span) (hI : a.inertia 0 0 = a.inertia 2 2) (hp : 0 < a.inertia 0 0) :
    ∃ τ, (dynamics a f v h).rollTau = some τ ∧ τ < 0 ∧
      a.inertia 0 0 * τ⁻¹ = f.rho * f.V * a.Sref * a.span ^ 2 / 4 * (dynamics a f v h).Clp := by
  have hp' : clP a.CLa a.taper < 0 := by have := (C275_damped a.CLa a.taper hc ht).2; linarith
  refine ⟨rollTau (a.inertia 0 0) a.Sref f.rho f.V a.span (clP a.CLa a.taper), ?_, ?_, ?_⟩
  · simp only [dynamics, hp'.ne, if_false, hI]
  · unfold rollTau
    apply div_neg_of_pos_of_neg (by positivity)
    exact mul_neg_of_pos_of_neg (by positivity) hp'
  · have e : (dynamics a f v h).Clp = clP a.CLa a.taper := rfl
    rw [e, rollTau]
    have := hp'.ne
    generalize clP a.CLa a.taper = c at *
    field_simp

example : (dynamics (craftSample 1 2 3) ⟨100, 1, 9.81, 1000, 0.03, 0.5, 0.01, -1, 0.1⟩ ⟨20, 25, 1, 3, 0.3⟩ ⟨25, 26, 0.9, 4, 0.3⟩).rollTau ≠
    some (rollTau 1 100 1 100 30 (dynamics (craftSample 1 2 3) ⟨100, 1, 9.81, 1000, 0.03, 0.5, 0.01, -1, 0.1⟩ ⟨20, 25, 1, 3, 0.3⟩ ⟨25, 26, 0.9, 4, 0.3⟩).Clp) :=
  (C277_roll_counterexample (craftSample 1 2 3) _ _ _ (by norm_num [craftSample]) (by norm_num [craftSample]) (by norm_num [craftSample])
    (by norm_num) (by norm_num) (by norm_num [craftSample]) (by simp [craftSample])).1

example (f : Flight) : dynamicPart (craftSample 1 2 3) f = some (some (dynamics (craftSample 1 2 3) f ⟨20, 25, 1, 3, 0.3⟩ ⟨25, 26, 0.9, 4, 0.3⟩)) :=
  (C277_when _ f).2 _ _ 0 0 rfl rfl (by simp [craftSample])

end Verif.Stability
