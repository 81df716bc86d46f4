import Verif.Performance.Field
import Mathlib.Analysis.Convex.Mul
import Mathlib.Algebra.BigOperators.Intervals
import Mathlib.Tactic.GCongr

/-!
C156–C162: field lengths, second segment, take-off weight for a field length, electric payload-range
diagram, climb-rate diagram, best speeds.
-/

namespace Verif.Performance
open Real Verif.Num

/-! ### Specification -/

/-- The polynomial with coefficients `c`. -/
noncomputable def poly (c : List ℝ) (x : ℝ) : ℝ := ∑ i ∈ Finset.range c.length, c.getD i 0 * x ^ i

/-- Lift (drag) of a wing. -/
noncomputable def aeroForce (ρ V S c : ℝ) : ℝ := 1 / 2 * ρ * V ^ 2 * S * c

/-- An airport and aircraft that make sense. -/
structure Field.Ok (f : Field) : Prop where
  g : 0 < f.g
  ρ : 0 < f.ρ
  S : 0 < f.S
  CLmax : 0 < f.CLmax
  v2 : ∀ r ∈ f.v2, 0 < r
  vref : ∀ r ∈ f.vref, 0 < r

theorem polyLoop_eq (x : ℝ) (c : List ℝ) (i : ℕ) (acc : ℝ) :
    polyLoop x c i acc = acc + ∑ k ∈ Finset.range c.length, c.getD k 0 * x ^ (i + k) := by
  induction c generalizing i acc with
  | nil => simp [polyLoop]
  | cons a c ih =>
    rw [polyLoop, ih, List.length_cons, Finset.sum_range_succ']
    simp only [List.getD_cons_succ, List.getD_cons_zero, Nat.add_zero]
    have : ∀ k, i + 1 + k = i + (k + 1) := by intro k; ring
    simp only [this]; ring

theorem polyLoop_poly (x : ℝ) (c : List ℝ) : polyLoop x c 0 0 = poly c x := by
  rw [polyLoop_eq]; simp [poly]

theorem poly_mono {c : List ℝ} (hc : ∀ a ∈ c, 0 ≤ a) {x y : ℝ} (hx : 0 ≤ x) (hxy : x ≤ y) : poly c x ≤ poly c y := by
  unfold poly
  apply Finset.sum_le_sum
  intro i hi
  have : 0 ≤ c.getD i 0 := by
    rw [List.getD_eq_getElem?_getD, List.getElem?_eq_getElem (Finset.mem_range.1 hi)]; exact hc _ (List.getElem_mem _)
  gcongr

/-! ### Stall speed -/

/-- At the stall speed the maximum lift coefficient just carries the weight. -/
theorem C156_stall_speed (m g ρ S CL : ℝ) (hm : 0 ≤ m) (hg : 0 ≤ g) (hρ : 0 < ρ) (hS : 0 < S) (hC : 0 < CL) :
    aeroForce ρ (stallV m g ρ S CL) S CL = m * g := by
  unfold aeroForce stallV
  rw [Real.sq_sqrt (by positivity)]
  field_simp

example : aeroForce 1.2 (stallV 1000 9.81 1.2 16 1.5) 16 1.5 = 1000 * 9.81 :=
  C156_stall_speed _ _ _ _ _ (by norm_num) (by norm_num) (by norm_num) (by norm_num) (by norm_num)

theorem v2_pos {f : Field} (h : f.Ok) : 0 < f.v2.getD 1.20 := by
  cases e : f.v2 with
  | none => norm_num
  | some r => simpa using h.v2 r (by simp [e])

theorem vref_pos {f : Field} (h : f.Ok) : 0 < f.vref.getD 1.23 := by
  cases e : f.vref with
  | none => norm_num
  | some r => simpa using h.vref r (by simp [e])

/-! ### C156 landing field length -/

theorem landing_formula (f : Field) (h : f.Ok) (m : ℝ) (hm : 0 ≤ m) :
    landingLength f m = 250 + 4.97 * f.vref.getD 1.23 ^ 2 * m / (f.ρ * f.S * f.CLmax) := by
  have hg := h.g; have hρ := h.ρ; have hS := h.S; have hC := h.CLmax
  unfold landingLength
  have hs : stallV m f.g f.ρ f.S f.CLmax ^ 2 = 2 * m * f.g / (f.ρ * f.S * f.CLmax) := by
    unfold stallV; rw [Real.sq_sqrt (by positivity)]
  generalize f.vref.getD 1.23 = r
  simp only [polyLoop, zero_add, pow_zero, pow_one, Nat.reduceAdd]
  rw [mul_pow, hs]
  field_simp; ring

/-- The landing distance does not depend on gravity, grows linearly with the mass and never falls below
250 m. -/
theorem C156_landing_linear (f : Field) (h : f.Ok) (m m' g' : ℝ) (hm : 0 ≤ m) (hm' : 0 ≤ m') (hg' : 0 < g') :
    landingLength f (m + m') - landingLength f m = landingLength f m' - 250 ∧ 250 ≤ landingLength f m ∧
    landingLength { f with g := g' } m = landingLength f m := by
  have h' : Field.Ok { f with g := g' } := ⟨hg', h.ρ, h.S, h.CLmax, h.v2, h.vref⟩
  have hρ := h.ρ; have hS := h.S; have hC := h.CLmax; have hr := vref_pos h
  refine ⟨?_, ?_, ?_⟩
  · rw [landing_formula f h _ (by positivity), landing_formula f h _ hm, landing_formula f h _ hm']; ring
  · rw [landing_formula f h _ hm]
    have : 0 ≤ 4.97 * f.vref.getD 1.23 ^ 2 * m / (f.ρ * f.S * f.CLmax) := by positivity
    linarith
  · rw [landing_formula f h _ hm, landing_formula _ h' _ hm]

/-- A heavier aircraft needs more, one with a larger wing, more lift or denser air less. -/
theorem C156_landing_mono (f : Field) (h : f.Ok) (m m' ρ' S' C' : ℝ) (hm : 0 ≤ m) (hmm : m ≤ m')
    (hρ' : 0 < ρ') (hS' : 0 < S') (hC' : 0 < C') (hρ : ρ' ≤ f.ρ) (hS : S' ≤ f.S) (hC : C' ≤ f.CLmax) :
    landingLength f m ≤ landingLength { f with ρ := ρ', S := S', CLmax := C' } m' := by
  have h' : Field.Ok { f with ρ := ρ', S := S', CLmax := C' } := ⟨h.g, hρ', hS', hC', h.v2, h.vref⟩
  rw [landing_formula f h _ hm, landing_formula _ h' _ (hm.trans hmm)]
  have hr := vref_pos h
  have := h.ρ; have := h.S; have := h.CLmax
  have hm' := hm.trans hmm
  dsimp only
  have h0 : 0 ≤ 4.97 * f.vref.getD 1.23 ^ 2 * m' := by positivity
  gcongr

/-- Airport and aircraft used in the examples. -/
noncomputable def fieldEx : Field :=
  { g := 10, ρ := 1, S := 100, CLmax := 2, v2 := none, vref := none, takeoffConstants := none,
    landingConstants := none, engines := [2], thrust := fun _ => 200000 }

theorem fieldEx_ok : fieldEx.Ok :=
  ⟨by norm_num [fieldEx], by norm_num [fieldEx], by norm_num [fieldEx], by norm_num [fieldEx], by simp [fieldEx], by simp [fieldEx]⟩

example : landingLength fieldEx 40000 ≤ landingLength { fieldEx with ρ := 0.9, S := 90, CLmax := 1.8 } 50000 :=
  C156_landing_mono fieldEx fieldEx_ok _ _ _ _ _ (by norm_num) (by norm_num) (by norm_num) (by norm_num) (by norm_num)
    (by norm_num [fieldEx]) (by norm_num [fieldEx]) (by norm_num [fieldEx])

example : landingLength fieldEx (40000 + 1000) - landingLength fieldEx 40000 = landingLength fieldEx 1000 - 250 ∧
    250 ≤ landingLength fieldEx 40000 ∧ landingLength { fieldEx with g := 9.81 } 40000 = landingLength fieldEx 40000 :=
  C156_landing_linear fieldEx fieldEx_ok _ _ _ (by norm_num) (by norm_num) (by norm_num)

/-- Landing constants given by the user have no effect. -/
theorem C156_landing_constants_counterexample :
    ¬ ∀ (f : Field) (c : List ℝ) (m : ℝ), f.Ok → 0 < m → f.landingConstants = some c →
      landingLength f m = poly c (stallV m f.g f.ρ f.S f.CLmax * f.vref.getD 1.23) := by
  intro hall
  have h : Field.Ok { fieldEx with landingConstants := some [0] } :=
    ⟨fieldEx_ok.g, fieldEx_ok.ρ, fieldEx_ok.S, fieldEx_ok.CLmax, fieldEx_ok.v2, fieldEx_ok.vref⟩
  have := hall _ [0] 40000 h (by norm_num) rfl
  have h2 := (C156_landing_linear _ h 40000 0 1 (by norm_num) le_rfl one_pos).2.1
  rw [this] at h2
  norm_num [poly] at h2

/-! ### C157 take-off field length -/

/-- The parameter of the correlation: V2 squared times mass over thrust. -/
theorem takeoffIndex_eq (f : Field) (h : f.Ok) (m : ℝ) (hm : 0 < m) :
    takeoffIndex f m = f.v2.getD 1.20 ^ 2 * (2 * f.g * m ^ 2) / (f.ρ * f.S * f.CLmax * f.thrust (0.70 * v2Speed f m)) := by
  have hg := h.g; have hρ := h.ρ; have hS := h.S; have hC := h.CLmax
  unfold takeoffIndex
  generalize f.thrust (0.70 * v2Speed f m) = T
  unfold v2Speed stallV
  rw [mul_pow, Real.sq_sqrt (by positivity)]
  generalize f.v2.getD 1.20 = r
  by_cases hT : T = 0
  · simp [hT]
  · field_simp

/-- The length is the polynomial, in feet, of V2² over thrust per mass; there is one as soon as there is an
engine. -/
theorem C157_length (f : Field) (m : ℝ) (hn : ∃ n ∈ f.engines, n ≠ 0) :
    takeoffLength f m = some (0.3048 * poly (f.takeoffConstants.getD (takeoffDefault f.engines.sum))
      (v2Speed f m ^ 2 * m / f.thrust (0.70 * v2Speed f m))) := by
  have : f.engines.sum ≠ 0 := by
    obtain ⟨n, hn, h0⟩ := hn
    intro h
    exact h0 (by simpa using List.single_le_sum (fun _ _ => Nat.zero_le _) n hn |>.trans_eq h)
  rw [takeoffLength, if_neg this, polyLoop_poly, takeoffIndex, div_div_eq_mul_div, mul_comm]

theorem C157_no_engine (f : Field) (m : ℝ) : takeoffLength f m = none ↔ ∀ n ∈ f.engines, n = 0 := by
  unfold takeoffLength
  split_ifs with h
  · simpa [List.sum_eq_zero_iff] using h
  · simpa [List.sum_eq_zero_iff] using h

theorem takeoffDefault_nonneg (n : ℕ) : ∀ a ∈ takeoffDefault n, 0 ≤ a := by
  unfold takeoffDefault
  split_ifs <;> intro a ha <;> simp at ha <;> rcases ha with rfl | rfl | rfl <;> norm_num

theorem v2Speed_mono (f : Field) (h : f.Ok) {m m' : ℝ} (hmm : m ≤ m') : v2Speed f m ≤ v2Speed f m' := by
  have := v2_pos h; have hg := h.g; have hρ := h.ρ; have hS := h.S; have hC := h.CLmax
  unfold v2Speed stallV
  gcongr

/-- Heavier aircraft need at least as much, when thrust does not grow with speed and the constants are not
negative (as all default ones). -/
theorem C157_mono (f : Field) (h : f.Ok) (hT : ∀ v, 0 < f.thrust v) (ha : Antitone f.thrust)
    (hc : ∀ c ∈ f.takeoffConstants, ∀ a ∈ c, 0 ≤ a) (m m' l l' : ℝ) (hm : 0 < m) (hmm : m ≤ m')
    (hl : takeoffLength f m = some l) (hl' : takeoffLength f m' = some l') : l ≤ l' := by
  unfold takeoffLength at hl hl'
  split_ifs at hl with hn
  simp only [hn, if_false, Option.some.injEq, polyLoop_poly] at hl hl'
  rw [← hl, ← hl']
  have hcc : ∀ a ∈ f.takeoffConstants.getD (takeoffDefault f.engines.sum), 0 ≤ a := by
    cases e : f.takeoffConstants with
    | none => simpa using takeoffDefault_nonneg _
    | some c => simpa using hc c (by simp [e])
  have hg := h.g; have hρ := h.ρ; have hS := h.S; have hC := h.CLmax; have hv := v2_pos h
  apply mul_le_mul_of_nonneg_right _ (by norm_num)
  apply poly_mono hcc
  · rw [takeoffIndex_eq f h m hm]
    have := hT (0.70 * v2Speed f m); positivity
  · rw [takeoffIndex_eq f h m hm, takeoffIndex_eq f h m' (hm.trans_le hmm)]
    have h1 := hT (0.70 * v2Speed f m); have h2 := hT (0.70 * v2Speed f m')
    have h3 : f.thrust (0.70 * v2Speed f m') ≤ f.thrust (0.70 * v2Speed f m) :=
      ha (mul_le_mul_of_nonneg_left (v2Speed_mono f h hmm) (by norm_num))
    gcongr

theorem fieldEx_length (m : ℝ) : ∃ l, takeoffLength fieldEx m = some l := by
  refine ⟨_, C157_length fieldEx m ⟨2, by simp [fieldEx], by norm_num⟩⟩

example (l l' : ℝ) (hl : takeoffLength fieldEx 40000 = some l) (hl' : takeoffLength fieldEx 50000 = some l') : l ≤ l' :=
  C157_mono fieldEx fieldEx_ok (by norm_num [fieldEx]) antitone_const (by simp [fieldEx]) _ _ _ _ (by norm_num) (by norm_num) hl hl'

example : takeoffLength fieldEx 40000 = some (0.3048 * poly (fieldEx.takeoffConstants.getD (takeoffDefault fieldEx.engines.sum))
      (v2Speed fieldEx 40000 ^ 2 * 40000 / fieldEx.thrust (0.70 * v2Speed fieldEx 40000))) :=
  C157_length fieldEx _ ⟨2, by simp [fieldEx], by norm_num⟩

/-- With the default constants more engines, which leave more thrust when one fails, never need more at the
same index. -/
theorem C157_engines (n n' : ℕ) (hnn : n ≤ n') (x : ℝ) (hx : 0 ≤ x) :
    poly (takeoffDefault n') x ≤ poly (takeoffDefault n) x := by
  have h2 : poly [857.4, 2.476, 0.00014] x = 857.4 + 2.476 * x + 0.00014 * x ^ 2 := by
    simp [poly, Finset.sum_range_succ]
  have h3 : poly [667.9, 2.343, 0.000093] x = 667.9 + 2.343 * x + 0.000093 * x ^ 2 := by
    simp [poly, Finset.sum_range_succ]
  have h4 : poly [486.7, 2.282, 0.0000705] x = 486.7 + 2.282 * x + 0.0000705 * x ^ 2 := by
    simp [poly, Finset.sum_range_succ]
  have hxx := sq_nonneg x
  unfold takeoffDefault
  split_ifs <;> first | omega | (simp only [h2, h3, h4]; nlinarith)

/-! ### C158 second segment -/

/-- The climb gradient is the excess of thrust over drag per weight, drag being that of lift at V2, of the
failed engine and of the rudder, and lift at V2 being the weight. -/
theorem C158_gradient (f : Field) (h : f.Ok) (m thrust ld cda cdw : ℝ) (hm : 0 < m) :
    let clv2 := f.CLmax / f.v2.getD 1.20 ^ 2
    let V := v2Speed f m
    aeroForce f.ρ V f.S clv2 = m * f.g ∧
    secondSegment f m thrust ld cda cdw * (m * f.g) =
      thrust - (aeroForce f.ρ V f.S (clv2 / ld) + aeroForce f.ρ V f.S cda + aeroForce f.ρ V f.S cdw) := by
  have hg := h.g; have hρ := h.ρ; have hS := h.S; have hC := h.CLmax; have hv := v2_pos h
  dsimp only
  unfold secondSegment aeroForce v2Speed stallV
  dsimp only
  rw [mul_pow, Real.sq_sqrt (by positivity)]
  generalize f.v2.getD 1.20 = r at *
  refine ⟨by field_simp, ?_⟩
  rw [one_div_div]
  generalize f.CLmax / r ^ 2 / ld = a
  field_simp

example : secondSegment fieldEx 40000 100000 10 0.001 0.002 * (40000 * 10) = 100000
    - (aeroForce 1 (v2Speed fieldEx 40000) 100 (2 / fieldEx.v2.getD 1.20 ^ 2 / 10)
      + aeroForce 1 (v2Speed fieldEx 40000) 100 0.001 + aeroForce 1 (v2Speed fieldEx 40000) 100 0.002) := by
  have := (C158_gradient fieldEx fieldEx_ok 40000 100000 10 0.001 0.002 (by norm_num)).2
  simpa [fieldEx] using this

/-- The rudder's drag is the drag due to lift of a fin of height `h`, loaded elliptically, whose side force balances
the moment of the remaining engine's thrust and the failed engine's drag. -/
theorem C158_asymmetry (q S y thrust cdw h l : ℝ) (hq : 0 < q) (hS : 0 < S) (hh : 0 < h) (hl : l ≠ 0) (F : ℝ)
    (hF : F * l = y * (thrust + q * S * cdw)) :
    q * S * asymmetry q S y thrust cdw h l = F ^ 2 / (q * 3.141593 * h ^ 2) := by
  unfold asymmetry
  dsimp only
  have e : y ^ 2 * (thrust + cdw * q * S) ^ 2 = F ^ 2 * l ^ 2 := by rw [← mul_pow, ← mul_pow, hF]; ring
  rw [e]
  field_simp

example : (3000:ℝ) * 100 * asymmetry 3000 100 5 90000 0 6 20 = 22500 ^ 2 / (3000 * 3.141593 * 6 ^ 2) :=
  C158_asymmetry _ _ _ _ _ _ _ (by norm_num) (by norm_num) (by norm_num) (by norm_num) _ (by norm_num)

/-- One nacelle: its skin is charged. -/
theorem C158_windmilling_partial (a S : ℝ) : windmilling [a] S = 0.007274 * a / S := by simp [windmilling]

/-- The drag of the failed engine is charged for every nacelle of the aircraft, running or not. -/
theorem C158_windmilling_counterexample :
    ¬ ∀ (nacelles : List ℝ) (S a : ℝ), (∀ x ∈ nacelles, x = a) → nacelles ≠ [] → 0 < S → 0 < a →
      windmilling nacelles S = 0.007274 * a / S := by
  intro h
  have := h [10, 10] 100 10 (by simp) (by simp) (by norm_num) (by norm_num)
  norm_num [windmilling] at this

/-! ### C159 take-off weight for a field length -/

theorem linspace_mem {a b : ℝ} (hab : a ≤ b) {n : ℕ} (hn : n ≠ 0) {w : ℝ} (hw : w ∈ linspace a b n) : a ≤ w ∧ w ≤ b := by
  simp only [linspace, List.mem_map, List.mem_range] at hw
  obtain ⟨i, hi, rfl⟩ := hw
  have hn' : (0:ℝ) < n := by positivity
  have hi' : (i:ℝ) ≤ n := by exact_mod_cast Nat.lt_succ_iff.1 hi
  have h1 : 0 ≤ (b - a) * i / n := by
    have : 0 ≤ b - a := by linarith
    positivity
  have h2 : (b - a) * i / n ≤ b - a := by
    rw [div_le_iff₀ hn']; exact mul_le_mul_of_nonneg_left hi' (by linarith)
  constructor <;> linarith

theorem linspace_sorted {a b : ℝ} (hab : a < b) {n : ℕ} (hn : n ≠ 0) : (linspace a b n).Pairwise (· < ·) := by
  unfold linspace
  rw [List.pairwise_map]
  refine List.pairwise_lt_range.imp ?_
  intro i j hij
  have hn' : (0:ℝ) < n := by positivity
  have : (i:ℝ) < j := by exact_mod_cast hij
  have hb : 0 < b - a := by linarith
  have : (b - a) * i / n < (b - a) * j / n := by gcongr
  linarith

/-- The table read backwards. -/
theorem tow_rising (v : TowMasses) (tofl : ℝ → ℝ) (hv : v.operatingEmpty < 1.10 * v.maxTakeoff)
    (hinc : StrictMonoOn tofl (Set.Icc v.operatingEmpty (1.10 * v.maxTakeoff))) :
    Rising ((towVec v).map fun w => (tofl w, w)) := by
  unfold Rising
  rw [List.pairwise_map]
  have hm : ∀ w ∈ towVec v, w ∈ Set.Icc v.operatingEmpty (1.10 * v.maxTakeoff) :=
    fun w hw => linspace_mem hv.le (by norm_num) hw
  refine List.Pairwise.imp_of_mem ?_ (linspace_sorted hv (by norm_num))
  intro x y hx hy hxy
  exact ⟨hinc (hm x hx) (hm y hy) hxy, hxy.le⟩

theorem towVec_cons (v : TowMasses) : ∃ l, towVec v = v.operatingEmpty :: l := by
  refine ⟨(towVec v).tail, ?_⟩
  simp only [towVec, linspace, List.range_succ_eq_map, List.map_cons, List.tail_cons]
  simp

/-- The weight reported lies between the empty weight and 1.1 times the maximum take-off weight, a longer
field never gives less, and a field just long enough for one of the weights tried gives that weight. -/
theorem C159_weight (v : TowMasses) (tofl : ℝ → ℝ) (hv : v.operatingEmpty < 1.10 * v.maxTakeoff)
    (hinc : StrictMonoOn tofl (Set.Icc v.operatingEmpty (1.10 * v.maxTakeoff))) (t t' : ℝ) (htt : t ≤ t') :
    ∃ w w', (findTow v tofl [t, t']).1 = [w, w'] ∧ w ≤ w' ∧ v.operatingEmpty ≤ w ∧ w' ≤ 1.10 * v.maxTakeoff ∧
      ∀ x ∈ towVec v, t = tofl x → w = x := by
  refine ⟨_, _, rfl, npInterp_mono _ (tow_rising v tofl hv hinc) htt, ?_, ?_, ?_⟩
  · obtain ⟨l, hl⟩ := towVec_cons v
    have := tow_rising v tofl hv hinc
    rw [hl] at this ⊢
    simpa using npInterp_ge_head (tofl v.operatingEmpty, v.operatingEmpty) _ this t
  · apply npInterp_le_last _ (tow_rising v tofl hv hinc)
    · intro p hp
      simp only [List.mem_map] at hp
      obtain ⟨w, hw, rfl⟩ := hp
      exact (linspace_mem hv.le (by norm_num) hw).2
    · obtain ⟨l, hl⟩ := towVec_cons v
      simp [hl]
  · intro x hx ht
    subst ht
    have := npInterp_node _ ((tow_rising v tofl hv hinc).imp fun h => h.1) (tofl x, x)
      (List.mem_map.2 ⟨x, hx, rfl⟩)
    exact this

/-- The reported weight can take off from the field: for a field length that is convex in the weight the aircraft
needs at most the target, if it can take off empty. -/
theorem C159_enough (v : TowMasses) (tofl : ℝ → ℝ) (hv : v.operatingEmpty < 1.10 * v.maxTakeoff)
    (hinc : StrictMonoOn tofl (Set.Icc v.operatingEmpty (1.10 * v.maxTakeoff)))
    (hconv : ConvexOn ℝ (Set.Icc v.operatingEmpty (1.10 * v.maxTakeoff)) tofl)
    (targets : List ℝ) (ht : ∀ t ∈ targets, tofl v.operatingEmpty ≤ t) :
    List.Forall₂ (fun t w => tofl w ≤ t) targets (findTow v tofl targets).1 := by
  have key : ∀ t, tofl v.operatingEmpty ≤ t → tofl (npInterp ((towVec v).map fun w => (tofl w, w)) t) ≤ t := by
    intro t h
    obtain ⟨l, hl⟩ := towVec_cons v
    exact npInterp_inverse_convex tofl _ hconv (towVec v) (fun w hw => linspace_mem hv.le (by norm_num) hw)
      ((tow_rising v tofl hv hinc).imp fun h => h.1) t v.operatingEmpty l hl h
  show List.Forall₂ _ targets (targets.map _)
  rw [List.forall₂_map_right_iff, List.forall₂_same]
  exact fun t h => key t (ht t h)

/-- The estimate itself has these properties when thrust is the same at all speeds. -/
theorem C159_estimate (f : Field) (h : f.Ok) (T : ℝ) (hT : 0 < T) (hf : f.thrust = fun _ => T)
    (hn : f.engines.sum ≠ 0) (hd : f.takeoffConstants = none) (v : TowMasses) (hv : 0 < v.operatingEmpty)
    (tofl : ℝ → ℝ) (htofl : ∀ m, takeoffLength f m = some (tofl m)) :
    StrictMonoOn tofl (Set.Icc v.operatingEmpty (1.10 * v.maxTakeoff)) ∧
    ConvexOn ℝ (Set.Icc v.operatingEmpty (1.10 * v.maxTakeoff)) tofl := by
  obtain ⟨k, hk⟩ : ∃ k, k = f.v2.getD 1.20 ^ 2 * (2 * f.g) / (f.ρ * f.S * f.CLmax * T) := ⟨_, rfl⟩
  have hk0 : 0 < k := by
    have hg := h.g; have hρ := h.ρ; have hS := h.S; have hC := h.CLmax; have hr := v2_pos h
    rw [hk]; positivity
  obtain ⟨a, b, c, hb, hc, habc⟩ : ∃ a b c : ℝ, 0 < b ∧ 0 < c ∧ takeoffDefault f.engines.sum = [a, b, c] := by
    unfold takeoffDefault
    split_ifs <;> exact ⟨_, _, _, by norm_num, by norm_num, rfl⟩
  have hp : ∀ x, poly [a, b, c] x = a + b * x + c * x ^ 2 := by
    intro x; simp [poly, Finset.sum_range_succ]
  have ht : ∀ m, 0 < m → tofl m = (a + b * (k * m ^ 2) + c * (k * m ^ 2) ^ 2) * 0.3048 := by
    intro m hm
    have := htofl m
    rw [takeoffLength, if_neg hn, polyLoop_poly, takeoffIndex_eq f h m hm, hd, hf, Option.getD_none, habc, hp] at this
    rw [← Option.some.inj this, hk]
    congr 4
    all_goals (try ring)
  have hpos : ∀ m ∈ Set.Icc v.operatingEmpty (1.10 * v.maxTakeoff), 0 < m := fun m hm => hv.trans_le hm.1
  constructor
  · intro x hx y hy hxy
    have := hpos x hx
    rw [ht x this, ht y (hpos y hy)]
    gcongr
  · have hconv : ConvexOn ℝ (Set.Ici (0:ℝ)) fun m : ℝ => (a + b * (k * m ^ 2) + c * (k * m ^ 2) ^ 2) * 0.3048 := by
      have e : (fun m : ℝ => (a + b * (k * m ^ 2) + c * (k * m ^ 2) ^ 2) * 0.3048)
          = fun m : ℝ => (b * k * 0.3048) * m ^ 2 + ((c * k ^ 2 * 0.3048) * m ^ 4 + a * 0.3048) := by
        funext m; ring
      rw [e]
      have h2 := (convexOn_pow (𝕜 := ℝ) 2).smul (by positivity : 0 ≤ b * k * 0.3048)
      have h4 := (convexOn_pow (𝕜 := ℝ) 4).smul (by positivity : 0 ≤ c * k ^ 2 * 0.3048)
      exact h2.add (h4.add (convexOn_const _ (convex_Ici 0)))
    refine (hconv.subset (fun m hm => (hpos m hm).le) (convex_Icc _ _)).congr ?_
    intro m hm
    exact (ht m (hpos m hm)).symm

/-- Vehicle of the examples. -/
noncomputable def towEx : TowMasses := ⟨30000, 50000, 45000⟩

example (tofl : ℝ → ℝ) (htofl : ∀ m, takeoffLength fieldEx m = some (tofl m)) (t : ℝ) (ht : tofl 30000 ≤ t) :
    List.Forall₂ (fun t w => tofl w ≤ t) [t] (findTow towEx tofl [t]).1 := by
  have h := C159_estimate fieldEx fieldEx_ok 200000 (by norm_num) rfl (by simp [fieldEx]) rfl towEx (by norm_num [towEx]) tofl htofl
  exact C159_enough towEx tofl (by norm_num [towEx]) h.1 h.2 [t] (by simpa [towEx] using ht)

/-- The maximum take-off weight of the vehicle is left as it was. -/
theorem C159_restores_partial (v : TowMasses) (tofl : ℝ → ℝ) (targets : List ℝ) :
    (findTow v tofl targets).2.maxTakeoff = v.maxTakeoff ∧ (findTow v tofl targets).2.operatingEmpty = v.operatingEmpty := by
  refine ⟨rfl, ?_⟩
  have : ∀ (l : List ℝ) (v : TowMasses),
      (l.foldl (fun (v : TowMasses) w => { v with takeoff := w }) v).operatingEmpty = v.operatingEmpty := by
    intro l
    induction l with
    | nil => intro v; rfl
    | cons w l ih => intro v; rw [List.foldl_cons, ih]
  exact this _ _

theorem findTow_after (v : TowMasses) (tofl : ℝ → ℝ) (targets : List ℝ) :
    (findTow v tofl targets).2.takeoff = 1.10 * v.maxTakeoff := by
  have h : ∀ (l : List ℝ) (x : ℝ) (v : TowMasses),
      ((l ++ [x]).foldl (fun (v : TowMasses) w => { v with takeoff := w }) v).takeoff = x := by
    intro l x v; rw [List.foldl_append]; rfl
  show ((towVec v).foldl _ v).takeoff = _
  have : towVec v = (List.range 49).map (fun i : ℕ => v.operatingEmpty + (1.10 * v.maxTakeoff - v.operatingEmpty) * i / (49 : ℕ))
      ++ [1.10 * v.maxTakeoff] := by
    unfold towVec linspace
    rw [List.range_succ, List.map_append]
    congr 1
    simp only [List.map_cons, List.map_nil]
    congr 1
    push_cast; ring
  rw [this, h]

/-- Its take-off weight is not: afterwards the vehicle weighs 1.1 times the maximum. -/
theorem C159_restores_counterexample :
    ¬ ∀ (v : TowMasses) (tofl : ℝ → ℝ) (targets : List ℝ), v.takeoff ≤ v.maxTakeoff →
      (findTow v tofl targets).2.takeoff = v.takeoff := by
  intro h
  have := h towEx id [] (by norm_num [towEx])
  rw [findTow_after] at this
  norm_num [towEx] at this

/-! ### C160 electric payload-range diagram -/

/-- Two points are flown, full at the maximum take-off weight and empty at the empty weight; ranges are those of the
mission in the unit asked for. -/
theorem C160_points_partial (oew maxPld mtow unit : ℝ) (fly : ℝ → ℝ) (h1 : 0 < oew) (h2 : 0 < maxPld) (h3 : 0 < mtow) (hu : 0 < unit) :
    ∃ p q left, electricRange oew maxPld mtow unit fly = some ([⟨0, maxPld, 0⟩, p, q], left) ∧
      p.payload = maxPld ∧ q.payload = 0 ∧ p.tow = mtow ∧ q.tow = oew ∧
      p.range * unit = fly p.tow ∧ q.range * unit = fly q.tow := by
  unfold electricRange
  rw [if_neg (by push Not; exact ⟨h1.ne', h2.ne', h3.ne'⟩)]
  refine ⟨_, _, _, rfl, rfl, rfl, rfl, rfl, ?_, ?_⟩ <;> simp [hu.ne']

/-- An aircraft whose full weight is below the maximum is flown heavier than it is, the point without range
weighs nothing, and an aircraft without payload has no diagram. -/
theorem C160_weights_counterexample :
    (¬ ∀ (oew maxPld mtow unit : ℝ) (fly : ℝ → ℝ) (l : List EPt) (left : ℝ), 0 < oew → 0 < maxPld → oew + maxPld ≤ mtow → 0 < unit →
      electricRange oew maxPld mtow unit fly = some (l, left) → ∀ p ∈ l, 0 < p.range → p.tow = oew + p.payload) ∧
    (¬ ∀ (oew maxPld mtow unit : ℝ) (fly : ℝ → ℝ) (l : List EPt) (left : ℝ), 0 < oew → 0 < maxPld → oew + maxPld ≤ mtow → 0 < unit →
      electricRange oew maxPld mtow unit fly = some (l, left) → ∀ p ∈ l, oew ≤ p.tow) ∧
    (∀ oew mtow unit fly, electricRange oew 0 mtow unit fly = none) := by
  have hd : electricRange 800 200 1100 1 (fun _ => 1) = some ([⟨0, 200, 0⟩, ⟨1, 200, 1100⟩, ⟨1, 0, 800⟩], 800) := by
    norm_num [electricRange]
  refine ⟨?_, ?_, ?_⟩
  · intro h
    have := h 800 200 1100 1 (fun _ => 1) _ _ (by norm_num) (by norm_num) (by norm_num) (by norm_num) hd
      ⟨1, 200, 1100⟩ (by simp) (by norm_num)
    norm_num at this
  · intro h
    have := h 800 200 1100 1 (fun _ => 1) _ _ (by norm_num) (by norm_num) (by norm_num) (by norm_num) hd
      ⟨0, 200, 0⟩ (by simp)
    norm_num at this
  · intro oew mtow unit fly; simp [electricRange]

/-- Afterwards the mission is set to the empty weight, whatever it was before. -/
theorem C160_left_counterexample :
    ¬ ∀ (oew maxPld mtow unit : ℝ) (fly : ℝ → ℝ) (l : List EPt) (left before : ℝ), 0 < oew → 0 < maxPld →
      oew + maxPld ≤ mtow → 0 < unit → oew < before → electricRange oew maxPld mtow unit fly = some (l, left) → left = before := by
  intro h
  have := h 800 200 1000 1 (fun _ => 1) _ _ 900 (by norm_num) (by norm_num) (by norm_num) (by norm_num) (by norm_num)
    (by norm_num [electricRange]; exact ⟨rfl, rfl⟩)
  norm_num at this

/-! ### C161 climb-rate diagram -/

/-- Entries are not negative, and zero at and below the stall speed; above it the climb takes up exactly the power
that is left, up to the battery's limit. -/
theorem C161_climb (v : Vh) (disa h V r : ℝ) (hW : 0 < v.W) (hr : climbRate v disa h V = some r) :
    0 ≤ r ∧ (V ≤ √(2 * v.W / (v.ρ h disa * v.S * v.CLmax)) → r = 0) ∧
    (0 < r → ∃ p, vhPower v h V = some p ∧ r * v.W + v.drag h 0 V * V = min p v.maxPower) := by
  unfold climbRate at hr
  dsimp only at hr
  split_ifs at hr with h1
  · cases hp : vhPower v h V with
    | none => rw [hp] at hr; simp at hr
    | some p =>
      rw [hp] at hr
      simp only [Option.map_some, Option.some.injEq] at hr
      refine ⟨hr ▸ le_max_left _ _, fun h2 => absurd h1 (not_lt.2 h2), ?_⟩
      intro h0
      refine ⟨p, rfl, ?_⟩
      rcases le_total (1 / v.W * (min p v.maxPower - v.drag h 0 V * V)) 0 with h2 | h2
      · rw [max_eq_left h2] at hr; exact absurd hr.symm h0.ne'
      · rw [max_eq_right h2] at hr
        rw [← hr]; field_simp; ring
  · simp only [Option.some.injEq] at hr
    exact ⟨hr ▸ le_rfl, fun _ => hr.symm, fun h0 => absurd hr.symm h0.ne'⟩

/-- Identical propellers: the first one stands for all; otherwise all are added. -/
theorem C161_power (v : Vh) (h V : ℝ) (hl : v.power.length = v.nprops) (hn : 0 < v.nprops)
    (hid : v.identical = true → ∀ p ∈ v.power, ∀ q ∈ v.power, p = q) :
    vhPower v h V = some ((v.power.map fun p => p h 0 V).sum) := by
  unfold vhPower
  dsimp only
  cases hi : v.identical with
  | false =>
    simp only [Bool.false_eq_true, if_false, hl, lt_irrefl, Option.some.injEq]
    rw [← hl, List.take_length]; simp
  | true =>
    simp only [if_true, hl]
    rw [if_neg (by omega)]
    have hh := hid hi
    cases hp : v.power with
    | nil => rw [hp] at hl; simp at hl; omega
    | cons a l =>
      rw [hp] at hl hh
      have : ∀ q ∈ a :: l, (fun p : ℝ → ℝ → ℝ → ℝ => p h 0 V) q = a h 0 V := by
        intro q hq; dsimp only; rw [hh a (by simp) q hq]
      rw [List.map_congr_left this]
      simp [← hl]; ring

/-- Two identical propellers at sea level. -/
noncomputable def vhEx : Vh :=
  { W := 10000, S := 16, CLmax := 1.5, ρ := fun _ _ => 1.2, drag := fun _ _ _ => 1000,
    power := [fun _ _ _ => 60000, fun _ _ _ => 60000], nprops := 2, identical := true, maxPower := 100000 }

example : vhPower vhEx 0 50 = some 120000 := by
  rw [C161_power vhEx 0 50 rfl (by norm_num [vhEx]) (by simp [vhEx])]
  norm_num [vhEx]

example (r : ℝ) (hr : climbRate vhEx 0 0 10 = some r) : 0 ≤ r := (C161_climb vhEx 0 0 10 r (by norm_num [vhEx]) hr).1

/-- A grid asked for by an integer is that fine; the grid used when nothing is asked for does not exist. -/
theorem C161_grid_partial (n : ℕ) : gridSize (some (.int n)) = some n := rfl

theorem C161_default_counterexample : ¬ ∀ g : Option PyNum, g = none → ∃ n, gridSize g = some n := by
  intro h
  obtain ⟨n, hn⟩ := h none rfl
  simp [gridSize, gridDefault] at hn

/-- On a hot day only the stall speed changes: drag and power are those of the standard day. -/
theorem C161_hot_day_counterexample :
    ¬ ∀ (v : Vh) (disa h V r : ℝ), 0 < v.W → climbRate v disa h V = some r → 0 < r →
      ∃ p, p = (v.power.map fun p => p h disa V).sum ∧ r * v.W + v.drag h disa V * V = min p v.maxPower := by
  intro hall
  have hs : √(2 * 10000 / ((1.2:ℝ) * 16 * 1.5)) < 50 := by
    rw [Real.sqrt_lt' (by norm_num)]; norm_num
  have hr : climbRate { vhEx with drag := fun _ d _ => 1000 + d, power := [fun _ _ _ => 60000], nprops := 1 } 20 0 50 = some 1 := by
    unfold climbRate
    simp only [vhEx, vhPower, gt_iff_lt, hs, if_true]
    norm_num
  obtain ⟨p, hp, h⟩ := hall _ 20 0 50 1 (by norm_num [vhEx]) hr one_pos
  subst hp
  norm_num [vhEx] at h

/-! ### C162 best speeds -/

/-- Whatever point the minimizer returns, the value reported is the lift-to-drag ratio there, and the wing can
carry the weight at that speed. -/
theorem C162_best (CL CD : ℝ → ℝ) (m g ρ S CLmax up : ℝ) (hm : 0 < m) (hg : 0 < g) (hρ : 0 < ρ) (hS : 0 < S) (hC : 0 < CLmax)
    (r : Option (ℝ × ℝ)) (V k : ℝ) (hr : Bounded (objectiveLD CL CD) (stallV m g ρ S CLmax) up r)
    (h : reportBest r = some (V, k)) :
    k = CL V / CD V ∧ V ≤ up ∧ ∃ c ≤ CLmax, aeroForce ρ V S c = m * g := by
  cases r with
  | none => simp [reportBest] at h
  | some p =>
    obtain ⟨x, v⟩ := p
    simp only [reportBest, Option.map_some, Option.some.injEq, Prod.mk.injEq] at h
    obtain ⟨rfl, rfl⟩ := h
    obtain ⟨h1, h2, h3⟩ := hr
    refine ⟨by rw [h3, objectiveLD]; ring, h2, 2 * m * g / (ρ * S * x ^ 2), ?_, ?_⟩
    all_goals
      have h0 : 0 < stallV m g ρ S CLmax := by unfold stallV; positivity
      have hx : 0 < x := h0.trans_le h1
    · rw [div_le_iff₀ (by positivity)]
      have hsq : stallV m g ρ S CLmax ^ 2 ≤ x ^ 2 := by gcongr
      unfold stallV at hsq
      rw [Real.sq_sqrt (by positivity), div_le_iff₀ (by positivity)] at hsq
      linarith
    · unfold aeroForce; field_simp

/-- The same for the best endurance of a propeller aircraft. -/
theorem C162_endurance (CL CD : ℝ → ℝ) (a up : ℝ) (r : Option (ℝ × ℝ)) (V k : ℝ) (hCL : 0 ≤ CL V)
    (hr : Bounded (objective32 CL CD) a up r) (h : reportBest r = some (V, k)) :
    k * CD V = CL V * √(CL V) ∨ CD V = 0 := by
  cases r with
  | none => simp [reportBest] at h
  | some p =>
    obtain ⟨x, v⟩ := p
    simp only [reportBest, Option.map_some, Option.some.injEq, Prod.mk.injEq] at h
    obtain ⟨rfl, rfl⟩ := h
    by_cases hD : CD x = 0
    · exact Or.inr hD
    · left
      rw [hr.2.2, objective32, Real.sqrt_eq_rpow]
      have e : CL x * CL x ^ (1 / 2 : ℝ) = CL x ^ (3 / 2 : ℝ) := by
        rw [show (3 / 2 : ℝ) = 1 + 1 / 2 by norm_num, Real.rpow_add_of_nonneg hCL (by norm_num) (by norm_num), Real.rpow_one]
      rw [e]; field_simp

/-- When the upper bound is below the stall speed there is an exception, never a speed. -/
theorem C162_no_speed (f : ℝ → ℝ) (a b : ℝ) (hab : b < a) (r : Option (ℝ × ℝ)) (hr : Bounded f a b r) : reportBest r = none := by
  cases r with
  | none => rfl
  | some p => obtain ⟨h1, h2, -⟩ := hr; linarith

example : reportBest (some (50, objectiveLD (fun V => 1000 / V ^ 2) (fun V => 0.02 + 5000 / V ^ 4) 50)) =
    some (50, (1000 / 50 ^ 2) / (0.02 + 5000 / 50 ^ 4)) := by
  norm_num [reportBest, objectiveLD]

example (r : Option (ℝ × ℝ)) (V k : ℝ) (hr : Bounded (objectiveLD (fun V => 1000 / V ^ 2) (fun V => 0.02 + 5000 / V ^ 4))
    (stallV 1000 10 1.2 16 1.5) 100 r) (h : reportBest r = some (V, k)) :
    ∃ c ≤ (1.5:ℝ), aeroForce 1.2 V 16 c = 1000 * 10 :=
  (C162_best _ _ _ _ _ _ _ _ (by norm_num) (by norm_num) (by norm_num) (by norm_num) (by norm_num) r V k hr h).2.2

end Verif.Performance
