import Verif.Aero.Supersonic
import Verif.Num.BlendProps
import Mathlib.Tactic.Linarith
import Mathlib.Tactic.FieldSimp
import Mathlib.Analysis.SpecialFunctions.Trigonometric.Arctan
import Mathlib.Analysis.SpecialFunctions.Gaussian.GaussianIntegral
/-
Properties C266-C269 of the model in `Supersonic.lean`.
-/

namespace Verif.Aero

open Verif.Num

/-! ### C266 -/

open Classical in
/-- Specification.  Lift carried by the panels up to a station. -/
noncomputable def carried (l : List (ℝ × ℝ)) (u : ℝ) : ℝ := ((l.filter fun p => p.1 ≤ u).map Prod.snd).sum

theorem running_length : ∀ (acc : ℝ) (xs : List ℝ), (running acc xs).length = xs.length
  | _, [] => rfl
  | acc, x :: xs => by simp [running, running_length]

theorem running_get : ∀ (xs : List ℝ) (acc : ℝ) (i : Nat), i < xs.length → (running acc xs)[i]? = some (acc + (xs.take (i + 1)).sum)
  | [], _, _, h => by simp at h
  | x :: xs, acc, 0, _ => by simp [running]
  | x :: xs, acc, i + 1, h => by
    simp only [running, List.getElem?_cons_succ]
    rw [running_get xs (acc + x) i (by simpa using h)]
    simp [add_assoc]

theorem sum_sumAt (l : List (ℝ × ℝ)) : ∀ (us : List ℝ), us.Nodup →
    (us.map (sumAt l)).sum = ((l.filter fun p => decide (p.1 ∈ us)).map Prod.snd).sum := by
  intro us hus
  induction l with
  | nil =>
    simp only [List.filter_nil, List.map_nil, List.sum_nil]
    have : us.map (sumAt []) = us.map fun _ => 0 := List.map_congr_left fun u _ => by simp [sumAt]
    rw [this]; simp
  | cons p l ih =>
    have e : ∀ u, sumAt (p :: l) u = (if p.1 = u then p.2 else 0) + sumAt l u := by
      intro u
      unfold sumAt
      by_cases h : p.1 = u <;> simp [h]
    have e2 : us.map (sumAt (p :: l)) = us.map fun u => (if p.1 = u then p.2 else 0) + sumAt l u := by
      exact List.map_congr_left fun u _ => e u
    have hs : (us.map fun u => (if p.1 = u then p.2 else 0) + sumAt l u).sum
        = (us.map fun u => if p.1 = u then p.2 else 0).sum + (us.map (sumAt l)).sum := List.sum_map_add
    have hone : ∀ vs : List ℝ, vs.Nodup → (vs.map fun u => if p.1 = u then p.2 else 0).sum = if p.1 ∈ vs then p.2 else 0 := by
      intro vs hvs
      induction vs with
      | nil => simp
      | cons v vs ihv =>
        rw [List.map_cons, List.sum_cons, ihv (List.nodup_cons.1 hvs).2]
        have hv := (List.nodup_cons.1 hvs).1
        by_cases h1 : p.1 = v
        · subst h1; simp [hv]
        · simp [h1]
    rw [e2, hs, hone us hus, ih]
    by_cases h : p.1 ∈ us <;> simp [h]

theorem sorted_take_mem {us : List ℝ} (h : us.Pairwise (· < ·)) (i : Nat) (hi : i < us.length) (x : ℝ) (hx : x ∈ us) :
    x ∈ us.take (i + 1) ↔ x ≤ us[i] := by
  have hm : StrictMono fun k : Fin us.length => us[k] := fun a b hab => List.pairwise_iff_getElem.1 h a b a.2 b.2 hab
  obtain ⟨j, hj, rfl⟩ := List.getElem_of_mem hx
  constructor
  · intro hx
    obtain ⟨k, hk, e⟩ := List.getElem_of_mem hx
    rw [List.getElem_take] at e
    rw [← e]
    have hk' : k < i + 1 := by rw [List.length_take] at hk; omega
    have hk2 : k < us.length := by rw [List.length_take] at hk; omega
    exact hm.monotone (a := ⟨k, hk2⟩) (b := ⟨i, hi⟩) (by simp only [Fin.mk_le_mk]; omega)
  · intro hle
    have : (⟨j, hj⟩ : Fin us.length) ≤ ⟨i, hi⟩ := by
      by_contra hc
      exact absurd (hm (not_le.1 hc)) (not_lt.2 hle)
    simp only [Fin.mk_le_mk] at this
    rw [List.mem_take_iff_getElem]
    exact ⟨j, by simp only [lt_min_iff]; omega, rfl⟩

theorem stations_sorted (l : List (ℝ × ℝ)) : (stations l).Pairwise (· < ·) := Finset.sortedLT_sort _ |>.pairwise

theorem mem_stations (l : List (ℝ × ℝ)) (x : ℝ) : x ∈ stations l ↔ ∃ p ∈ l, p.1 = x := by
  simp [stations]

/-- The running sum at a station is what the panels up to there carry. -/
theorem running_carried (l : List (ℝ × ℝ)) (i : Nat) (hi : i < (stations l).length) :
    (running 0 ((stations l).map (sumAt l)))[i]? = some (carried l ((stations l)[i])) := by
  classical
  rw [running_get _ _ _ (by simpa using hi), zero_add, ← List.map_take]
  have hnd : ((stations l).take (i + 1)).Nodup := by
    have : (stations l).Nodup := (stations_sorted l).imp fun h => ne_of_lt h
    exact this.sublist (List.take_sublist _ _)
  rw [sum_sumAt l _ hnd, carried]
  congr 3
  refine List.filter_congr fun p hp => ?_
  rw [decide_eq_decide]
  exact sorted_take_mem (stations_sorted l) i hi p.1 ((mem_stations l p.1).2 ⟨p, hp, rfl⟩)

/-- C266: the equivalent area at each station is half the Prandtl-Glauert factor over the dynamic pressure times the lift of
all panels whose cut is at or ahead of that station, whatever the order of the panels. -/
theorem C266_area (q aoa mach length : ℝ) (panels : List BoomPanel) (xs as : List ℝ) (h : liftArea q aoa mach length panels = some (xs, as)) :
    xs.length = as.length ∧ ∀ i, 0 < i → i + 1 < xs.length → ∃ X, xs[i]? = some X ∧
      as[i]? = some (Real.sqrt (mach ^ 2 - 1) / (2 * q) * carried (panels.map fun p => (p.shift mach, p.force q aoa)) X) := by
  simp only [liftArea, Option.map_eq_some_iff] at h
  obtain ⟨last, -, h⟩ := h
  rw [Prod.mk.injEq] at h
  obtain ⟨rfl, rfl⟩ := h
  set l := panels.map fun p => (p.shift mach, p.force q aoa) with hl
  have hlen : (running 0 ((stations l).map (sumAt l))).length = (stations l).length := by rw [running_length, List.length_map]
  refine ⟨by simp [hlen], fun i hi0 hi => ?_⟩
  obtain ⟨k, rfl⟩ := Nat.exists_eq_succ_of_ne_zero hi0.ne'
  simp only [List.cons_append, List.length_cons, List.length_append, List.length_nil] at hi
  have hk : k < (stations l).length := by omega
  refine ⟨(stations l)[k], ?_, ?_⟩
  · simp only [Nat.succ_eq_add_one, List.cons_append, List.getElem?_cons_succ]
    rw [List.getElem?_append_left hk, List.getElem?_eq_getElem hk]
  · simp only [Nat.succ_eq_add_one, List.cons_append, List.getElem?_cons_succ]
    rw [List.getElem?_append_left (by simp [hlen, hk]), List.getElem?_map, running_carried l k hk]
    rfl

/-- C266: the stations are every cut of a panel, once, in order. -/
theorem C266_stations (q aoa mach length : ℝ) (panels : List BoomPanel) (xs as : List ℝ) (h : liftArea q aoa mach length panels = some (xs, as)) :
    ∃ us, xs = 0 :: us ++ [length * (5 / 4)] ∧ us.Pairwise (· < ·) ∧ ∀ x, x ∈ us ↔ ∃ p ∈ panels, p.shift mach = x := by
  simp only [liftArea, Option.map_eq_some_iff] at h
  obtain ⟨last, -, h⟩ := h
  rw [Prod.mk.injEq] at h
  obtain ⟨rfl, rfl⟩ := h
  refine ⟨_, rfl, stations_sorted _, fun x => ?_⟩
  rw [mem_stations]
  simp

/-- C266: the area starts at zero and ends with the whole lift. -/
theorem C266_ends (q aoa mach length : ℝ) (panels : List BoomPanel) (xs as : List ℝ) (h : liftArea q aoa mach length panels = some (xs, as)) :
    as.head? = some 0 ∧ as.getLast? = some (Real.sqrt (mach ^ 2 - 1) / (2 * q) * (panels.map fun p => p.force q aoa).sum) := by
  classical
  have h' := h
  simp only [liftArea, Option.map_eq_some_iff] at h
  obtain ⟨last, hlast, h⟩ := h
  rw [Prod.mk.injEq] at h
  obtain ⟨rfl, rfl⟩ := h
  refine ⟨rfl, ?_⟩
  rw [List.getLast?_append]
  simp only [List.getLast?_singleton, Option.some_or, Option.some.injEq]
  set l := panels.map fun p => (p.shift mach, p.force q aoa) with hl
  have hlen : (running 0 ((stations l).map (sumAt l))).length = (stations l).length := by rw [running_length, List.length_map]
  rw [List.getLast?_eq_getElem?, List.getElem?_map, List.length_map, hlen] at hlast
  have hpos : 0 < (stations l).length := by
    by_contra hc
    have : (stations l).length = 0 := by omega
    rw [List.length_eq_zero_iff] at this
    simp [this, running] at hlast
  rw [running_carried l _ (by omega)] at hlast
  simp only [Option.map_some, Option.some.injEq] at hlast
  rw [← hlast]
  congr 1
  have hall : l.filter (fun p => decide (p.1 ≤ (stations l)[(stations l).length - 1]'(by omega))) = l := by
    rw [List.filter_eq_self]
    intro p hp
    rw [decide_eq_true_eq]
    have hmem := (mem_stations l p.1).2 ⟨p, hp, rfl⟩
    refine (sorted_take_mem (stations_sorted l) ((stations l).length - 1) (by omega) p.1 hmem).1 ?_
    rw [show (stations l).length - 1 + 1 = (stations l).length by omega, List.take_length]
    exact hmem
  unfold carried
  rw [hall, hl, List.map_map]
  rfl

/-- C266: there is a result exactly when there is a panel. -/
theorem C266_some (q aoa mach length : ℝ) (panels : List BoomPanel) :
    (∃ r, liftArea q aoa mach length panels = some r) ↔ panels ≠ [] := by
  constructor
  · rintro ⟨r, h⟩ rfl
    simp [liftArea, stations, running] at h
  · intro h
    obtain ⟨p, ps, rfl⟩ := List.exists_cons_of_ne_nil h
    simp only [liftArea]
    set l := (p :: ps).map fun p => (p.shift mach, p.force q aoa) with hl
    have hm : p.shift mach ∈ stations l := (mem_stations l _).2 ⟨(p.shift mach, p.force q aoa), by simp [hl], rfl⟩
    have hne : ((running 0 ((stations l).map (sumAt l))).map fun s => Real.sqrt (mach ^ 2 - 1) / (2 * q) * s) ≠ [] := by
      intro hc
      have : (stations l).length = 0 := by
        rw [← List.length_map (f := sumAt l), ← running_length 0, ← List.length_map, hc]; rfl
      rw [List.length_eq_zero_iff] at this
      rw [this] at hm; simp at hm
    rw [List.getLast?_eq_some_getLast hne]
    exact ⟨_, rfl⟩

/-! ### C267 -/

/-- Two points are on one Mach line towards the ground when the lower lies behind the higher by
`√(M²-1)` times the height between them. -/
def sameMachLine (mach x z x' z' : ℝ) : Prop := x' - x = Real.sqrt (mach ^ 2 - 1) * (z - z')

theorem tan_mach (mach : ℝ) (h : 1 < mach) : Real.tan (Real.arcsin (1 / mach)) = 1 / Real.sqrt (mach ^ 2 - 1) := by
  rw [Real.tan_arcsin]
  have h0 : 0 < mach := by linarith
  have hb : 0 < mach ^ 2 - 1 := by nlinarith
  have : 1 - (1 / mach) ^ 2 = (mach ^ 2 - 1) / mach ^ 2 := by field_simp
  rw [this, Real.sqrt_div hb.le, Real.sqrt_sq h0.le]
  have := (Real.sqrt_pos.2 hb).ne'
  field_simp

/-- C267 at Mach `√2`, where tangent and cotangent of the Mach angle agree: panels on one Mach line share a
station. -/
theorem C267_partial (mach : ℝ) (h1 : 1 < mach) (h2 : mach ^ 2 = 2) (p p' : BoomPanel) :
    sameMachLine mach p.x p.z p'.x p'.z ↔ p.shift mach = p'.shift mach := by
  unfold sameMachLine BoomPanel.shift
  rw [tan_mach mach h1, h2]
  norm_num
  constructor <;> intro h <;> linarith

/-- C267 for panels at one height. -/
theorem C267_level_partial (mach : ℝ) (p p' : BoomPanel) (hz : p.z = p'.z) :
    sameMachLine mach p.x p.z p'.x p'.z ↔ p.shift mach = p'.shift mach := by
  unfold sameMachLine BoomPanel.shift
  rw [hz]
  constructor <;> intro h <;> linarith

/-- At every other Mach number, two panels of different height on one Mach line get different stations. -/
theorem C267_counterexample (mach : ℝ) (h1 : 1 < mach) (h2 : mach ^ 2 ≠ 2) (p p' : BoomPanel) (hz : p.z ≠ p'.z)
    (h : sameMachLine mach p.x p.z p'.x p'.z) : p.shift mach ≠ p'.shift mach := by
  unfold sameMachLine at h
  unfold BoomPanel.shift
  rw [tan_mach mach h1]
  have hb : 0 < mach ^ 2 - 1 := by nlinarith
  set s := Real.sqrt (mach ^ 2 - 1) with hs
  have hs0 : 0 < s := Real.sqrt_pos.2 hb
  have hsq : s ^ 2 = mach ^ 2 - 1 := Real.sq_sqrt hb.le
  intro hc
  have : (p.z - p'.z) * (s - 1 / s) = 0 := by linarith
  rcases mul_eq_zero.1 this with h' | h'
  · exact hz (by linarith)
  · field_simp at h'
    apply h2
    nlinarith

example : sameMachLine 2 0 1 (Real.sqrt 3) 0 := by unfold sameMachLine; norm_num

/-! ### C268 -/

/-- C268: the drag of the Sears-Haack body of given length and cross section: `6 π A² / (L² S)`. -/
theorem C268_sears_haack (v : WaveBody) (hA : 0 ≤ v.area) (k : ℝ) :
    searsHaack v k 3 = some (6 * Real.pi * v.area ^ 2 / (v.L ^ 2 * v.S) * k) := by
  simp only [searsHaack, if_true, Option.some.injEq]
  have hsq : Real.sqrt (v.area / Real.pi) * Real.sqrt (v.area / Real.pi) = v.area / Real.pi :=
    Real.mul_self_sqrt (div_nonneg hA Real.pi_pos.le)
  have hp := Real.pi_ne_zero
  have : 3 / 2 * Real.pi * Real.pi * (Real.sqrt (v.area / Real.pi) * 2 / v.L) * (Real.sqrt (v.area / Real.pi) * 2 / v.L) * v.area / v.S * k
      = 6 * Real.pi * Real.pi * (Real.sqrt (v.area / Real.pi) * Real.sqrt (v.area / Real.pi)) * v.area / (v.L ^ 2 * v.S) * k := by
    field_simp; ring
  rw [this, hsq]
  field_simp

/-- C268: in Raymer's formula the drag up to Mach 1.2 is constant. -/
theorem C268_low (v : WaveBody) (sweep k mach : ℝ) (hs : 0 ≤ sweep) (hm : mach ≤ 12 / 10) :
    raymer v sweep k mach = some (9 * Real.pi / 2 * (v.area / v.L) ^ 2 / v.S * k) := by
  simp only [raymer]
  rw [if_neg (not_lt.2 hs), (C29_outside (by norm_num)).1 hm]
  simp only [dqSH, Option.some.injEq]
  ring

/-- C268: from Mach 1.3 on the drag is Raymer's. -/
theorem C268_high (v : WaveBody) (sweep k mach : ℝ) (hs : 0 ≤ sweep) (hm : 13 / 10 ≤ mach) :
    raymer v sweep k mach = some (k * (1 - 2 / 10 * (mach - 12 / 10) ^ (57 / 100 : ℝ) * (1 - Real.pi * sweep ^ (77 / 100 : ℝ) / 100))
      * (9 * Real.pi / 2 * (v.area / v.L) ^ 2) / v.S) := by
  simp only [raymer]
  rw [if_neg (not_lt.2 hs), if_pos (by linarith), (C29_outside (by norm_num)).2 hm]
  simp only [dqSH, Option.some.injEq]
  ring

/-- C268: up to Mach 6 and for sweeps in the range of the formula the drag is neither negative nor above its value below
Mach 1.2. -/
theorem C268_range (v : WaveBody) (sweep k mach : ℝ) (hs : 0 ≤ sweep) (hr : Real.pi * sweep ^ (77 / 100 : ℝ) ≤ 100)
    (hS : 0 < v.S) (hk : 0 ≤ k) (hm : mach ≤ 6) :
    ∃ d, raymer v sweep k mach = some d ∧ 0 ≤ d ∧ d ≤ 9 * Real.pi / 2 * (v.area / v.L) ^ 2 / v.S * k := by
  rcases le_or_gt mach (12 / 10) with hlo | hhi
  · rw [C268_low v sweep k mach hs hlo]
    have := Real.pi_pos
    exact ⟨_, rfl, by positivity, le_rfl⟩
  · simp only [raymer]
    rw [if_neg (not_lt.2 hs), if_pos hhi.le]
    refine ⟨_, rfl, ?_⟩
    have hp := Real.pi_pos
    have hD : 0 ≤ dqSH v := by
      have : dqSH v = 9 * Real.pi / 2 * (v.area / v.L) ^ 2 := by unfold dqSH; ring
      rw [this]; positivity
    have hDe : 9 * Real.pi / 2 * (v.area / v.L) ^ 2 = dqSH v := by unfold dqSH; ring
    rw [hDe]
    have hb := C29_range (xs := 12 / 10) (xe := 13 / 10) (by norm_num) mach
    set h := blend (12 / 10) (13 / 10) mach
    set e := (mach - 12 / 10) ^ (57 / 100 : ℝ) with he
    have he0 : 0 ≤ e := Real.rpow_nonneg (by linarith) _
    have he5 : e ≤ 5 := by
      have h1 : e ≤ (5 : ℝ) ^ (57 / 100 : ℝ) := Real.rpow_le_rpow (by linarith) (by linarith) (by norm_num)
      have h2 : (5 : ℝ) ^ (57 / 100 : ℝ) ≤ (5 : ℝ) ^ (1 : ℝ) := Real.rpow_le_rpow_of_exponent_le (by norm_num) (by norm_num)
      rw [Real.rpow_one] at h2
      linarith
    set g := 1 - Real.pi * sweep ^ (77 / 100 : ℝ) / 100 with hg
    have hg0 : 0 ≤ g := by rw [hg]; linarith
    have hg1 : g ≤ 1 := by
      rw [hg]
      have : 0 ≤ Real.pi * sweep ^ (77 / 100 : ℝ) := mul_nonneg hp.le (Real.rpow_nonneg hs _)
      linarith
    have hf0 : 0 ≤ 1 - 2 / 10 * e * g := by nlinarith [mul_nonneg he0 hg0, mul_le_mul he5 hg1 hg0 (by norm_num)]
    have hf1 : 1 - 2 / 10 * e * g ≤ 1 := by nlinarith [mul_nonneg he0 hg0]
    have hkD := mul_nonneg hk hD
    have heq : k * dqSH v * h + k * (1 - 2 / 10 * e * g) * dqSH v * (1 - h) = k * dqSH v * (h + (1 - 2 / 10 * e * g) * (1 - h)) := by ring
    rw [heq]
    have hw0 : 0 ≤ h + (1 - 2 / 10 * e * g) * (1 - h) := add_nonneg hb.1 (mul_nonneg hf0 (by linarith))
    have hw1 : h + (1 - 2 / 10 * e * g) * (1 - h) ≤ 1 := by nlinarith [mul_nonneg (sub_nonneg.2 hf1) (sub_nonneg.2 hb.2)]
    constructor
    · exact div_nonneg (mul_nonneg hkD hw0) hS.le
    · rw [show dqSH v / v.S * k = k * dqSH v / v.S by ring]
      exact div_le_div_of_nonneg_right (by nlinarith) hS.le

example : Real.pi * (0 : ℝ) ^ (77 / 100 : ℝ) ≤ 100 := by rw [Real.zero_rpow (by norm_num)]; norm_num

/-- C268: the two formulas differ: below Mach 1.2 Raymer's is three quarters of the other. -/
theorem C268_ratio (v : WaveBody) (hA : 0 ≤ v.area) (sweep k mach a b : ℝ) (hs : 0 ≤ sweep) (hm : mach ≤ 12 / 10)
    (ha : raymer v sweep k mach = some a) (hb : searsHaack v k 3 = some b) : a = 3 / 4 * b := by
  rw [C268_low v sweep k mach hs hm, Option.some.injEq] at ha
  rw [C268_sears_haack v hA k, Option.some.injEq] at hb
  rw [← ha, ← hb]
  field_simp; ring

/-- A forward swept leading edge has no drag: not-a-number. -/
theorem C268_forward_counterexample (v : WaveBody) (sweep k mach : ℝ) (hs : sweep < 0) : raymer v sweep k mach = none := by
  simp [raymer, hs]

/-! ### C269 -/

/-- A wing in a flow. -/
def WakeWing.ok (w : WakeWing) : Prop := 0 < w.span ∧ 0 < w.croot ∧ 0 < w.ctip ∧ 0 < w.V ∧ 0 < w.nu

theorem chord_pos (w : WakeWing) (hw : w.ok) (y : ℝ) (hy : |y| < 1 / 2 * w.span) : 0 < w.chord y := by
  obtain ⟨h1, h2, h3, -, -⟩ := hw
  unfold WakeWing.chord
  have h0 : 0 ≤ |y| / (1 / 2 * w.span) := by positivity
  have h1' : |y| / (1 / 2 * w.span) < 1 := by rw [div_lt_one (by positivity)]; exact hy
  nlinarith

theorem theta_pos (w : WakeWing) (hw : w.ok) (x : ℝ) (hx : w.x0 < x) : 0 < w.theta x := by
  obtain ⟨-, -, -, h4, h5⟩ := hw
  unfold WakeWing.theta
  have : 0 < x - w.x0 := by linarith
  have := Real.rpow_pos_of_pos (show 0 < w.V * (x - w.x0) / w.nu by positivity) (1 / 5)
  positivity

/-- C269: outside the span, ahead of the wing, or without the viscous option the wake has no deficit. -/
theorem C269_outside (w : WakeWing) (viscous : Bool) (x y z : ℝ) (h : viscous = false ∨ x < w.x0 ∨ 1 / 2 * w.span ≤ |y|) :
    w.deficit viscous x y z = some 0 := by
  unfold WakeWing.deficit
  by_cases hc : viscous = true ∧ w.x0 ≤ x
  · rw [if_pos hc]
    rcases h with h | h | h
    · simp [h] at hc
    · exact absurd hc.2 (not_le.2 h)
    · rw [if_neg (not_lt.2 h)]
  · rw [if_neg hc]

/-- C269 behind the trailing edge: the deficit is positive, greatest in the plane of the wing, falls with the
distance from it, the same above and below and left and right, and half of its greatest value at half the
width on either side. -/
theorem C269_profile_partial (w : WakeWing) (hw : w.ok) (x y : ℝ) (hy : |y| < 1 / 2 * w.span) (hx : w.x0 + w.chord y < x) :
    0 < w.peak x y ∧ 0 < w.width x y ∧ w.deficit true x y 0 = some (w.peak x y) ∧
    w.deficit true x y (w.width x y / 2) = some (w.peak x y / 2) ∧
    ∀ z, (∃ d, w.deficit true x y z = some d ∧ 0 < d ∧ d ≤ w.peak x y ∧
        ∀ z' d', |z| < |z'| → w.deficit true x y z' = some d' → d' < d) ∧
      w.deficit true x y (-z) = w.deficit true x y z ∧ w.deficit true x (-y) z = w.deficit true x y z := by
  have hc := chord_pos w hw y hy
  have ht := theta_pos w hw x (by linarith)
  have hxt : 0 < w.xTheta x y := div_pos (by linarith) ht
  have hV := hw.2.2.2.1
  have hpi := Real.pi_pos
  have hl2 : 0 < Real.log 2 := Real.log_pos (by norm_num)
  have hp : 0 < w.peak x y := div_pos hV (Real.sqrt_pos.2 (by positivity))
  have hb : 0 < w.width x y := mul_pos (by linarith) (Real.sqrt_pos.2 (by positivity))
  have key : ∀ z, w.deficit true x y z = some (w.peak x y * Real.exp (-4 * Real.log 2 * (|z| / w.width x y) ^ 2)) := by
    intro z
    unfold WakeWing.deficit
    rw [if_pos ⟨rfl, by linarith⟩, if_pos hy, if_neg (not_le.2 hxt)]
  refine ⟨hp, hb, by rw [key]; simp, ?_, fun z => ⟨⟨_, key z, by positivity, ?_, fun z' d' hz hd => ?_⟩, ?_, ?_⟩⟩
  · rw [key, abs_of_pos (by linarith)]
    congr 1
    have : w.width x y / 2 / w.width x y = 1 / 2 := by field_simp
    rw [this, show -4 * Real.log 2 * (1 / 2) ^ 2 = -Real.log 2 by ring, Real.exp_neg, Real.exp_log (by norm_num)]
    ring
  · have : Real.exp (-4 * Real.log 2 * (|z| / w.width x y) ^ 2) ≤ 1 := by
      rw [Real.exp_le_one_iff]
      nlinarith [mul_nonneg hl2.le (sq_nonneg (|z| / w.width x y))]
    nlinarith
  · rw [key, Option.some.injEq] at hd
    rw [← hd]
    refine mul_lt_mul_of_pos_left (Real.exp_lt_exp.2 ?_) hp
    have h1 : |z| / w.width x y < |z'| / w.width x y := div_lt_div_of_pos_right hz hb
    have h2 : (|z| / w.width x y) ^ 2 < (|z'| / w.width x y) ^ 2 := by
      exact pow_lt_pow_left₀ h1 (by positivity) (by norm_num)
    nlinarith
  · rw [key, key, abs_neg]
  · have e1 : w.xTheta x (-y) = w.xTheta x y := by unfold WakeWing.xTheta WakeWing.chord; rw [abs_neg]
    unfold WakeWing.deficit WakeWing.peak WakeWing.width
    rw [e1, abs_neg]

example : ∃ w : WakeWing, w.ok ∧ |(0 : ℝ)| < 1 / 2 * w.span ∧ w.x0 + w.chord 0 < 3 :=
  ⟨⟨10, 1, 1, 0, 100, 1⟩, by unfold WakeWing.ok; norm_num, by norm_num, by unfold WakeWing.chord; norm_num⟩

/-- C269 behind the trailing edge: the deficit across the wake amounts to twice the momentum thickness of the turbulent layer of each
surface at the speed of flight, at every distance behind the wing. -/
theorem C269_momentum (w : WakeWing) (hw : w.ok) (x y : ℝ) (hy : |y| < 1 / 2 * w.span) (hx : w.x0 + w.chord y < x) :
    ∃ d : ℝ → ℝ, (∀ z, w.deficit true x y z = some (d z)) ∧
      ∫ z, d z = 2 * w.V * (36 / 1000 * (x - w.x0) / (w.V * (x - w.x0) / w.nu) ^ (1 / 5 : ℝ)) := by
  have hc := chord_pos w hw y hy
  have ht := theta_pos w hw x (by linarith)
  have hxt : 0 < w.xTheta x y := div_pos (by linarith) ht
  have hl2 : 0 < Real.log 2 := Real.log_pos (by norm_num)
  refine ⟨fun z => w.peak x y * Real.exp (-(4 * Real.log 2 / w.width x y ^ 2) * z ^ 2), fun z => ?_, ?_⟩
  · unfold WakeWing.deficit
    rw [if_pos ⟨rfl, by linarith⟩, if_pos hy, if_neg (not_le.2 hxt), div_pow, sq_abs]
    congr 3
    ring
  · rw [MeasureTheory.integral_const_mul, integral_gaussian]
    change _ = 2 * w.V * w.theta x
    unfold WakeWing.peak WakeWing.width
    generalize w.xTheta x y = X at hxt ⊢
    generalize w.theta x = T at ht ⊢
    generalize Real.log 2 = L at hl2 ⊢
    have hpi := Real.pi_pos
    rw [div_mul_eq_mul_div, mul_div_assoc, ← Real.sqrt_div (by positivity)]
    have e : Real.pi / (4 * L / (2 * T * Real.sqrt (16 * (32 / 1000) * L * X)) ^ 2) / (4 * Real.pi * (32 / 1000) * X) = (2 * T) ^ 2 := by
      rw [mul_pow, Real.sq_sqrt (by positivity)]
      field_simp
      ring
    rw [e, Real.sqrt_sq (by positivity)]
    ring

/-- Over the wing, between leading and trailing edge, the wake is not-a-number. -/
theorem C269_chord_counterexample (w : WakeWing) (hw : w.ok) (x y z : ℝ) (hy : |y| < 1 / 2 * w.span) (h0 : w.x0 < x) (hx : x ≤ w.x0 + w.chord y) :
    w.deficit true x y z = none := by
  have ht := theta_pos w hw x h0
  unfold WakeWing.deficit
  rw [if_pos ⟨rfl, h0.le⟩, if_pos hy, if_pos]
  exact div_nonpos_of_nonpos_of_nonneg (by linarith) ht.le

/-- C269: the grid of the wake plane is symmetric. -/
theorem C269_grid (semi outer : List ℝ) (L half : ℝ) :
    (gridY semi outer L half).reverse = (gridY semi outer L half).map fun y => -y := by
  simp only [gridY]
  generalize (if 1 ≤ L then semi ++ outer else List.filter (fun y => decide (y < L * half)) semi) = s
  simp [List.map_reverse]

end Verif.Aero
