import Verif.Weights.Common
import Verif.Weights.TransportProps
import Mathlib.Tactic.Ring
import Mathlib.Tactic.Linarith
import Mathlib.Tactic.NormNum
import Mathlib.Tactic.FieldSimp
import Mathlib.Tactic.Positivity
import Mathlib.Tactic.GCongr
import Mathlib.Analysis.MeanInequalitiesPow
import Mathlib.Analysis.Real.Pi.Bounds
import Mathlib.Analysis.SpecialFunctions.Trigonometric.InverseDeriv
import Mathlib.Analysis.SpecialFunctions.Sqrt
import Mathlib.MeasureTheory.Integral.IntervalIntegral.FundThmCalculus

/-!
C142 (parts of the statement add up), C143 (weights and seats), C144 (fuselage and wing), C145 (tails, engines and motors) for
the default correlations.
-/

namespace Verif.Weights
open Real

theorem lb_pos : 0 < lb := by norm_num [lb]
theorem ft_pos : 0 < ft := by norm_num [ft]
theorem lbf_pos : 0 < lbf := by norm_num [lbf, lb]
theorem hp_pos : 0 < hp := by norm_num [hp, lbf, lb, ft]

/-! ### C142 Parts add up -/

/-- Main and nose gear share the configured part of the take-off weight. -/
theorem C142_gear (mtow factor : ℝ) :
    (landingGear mtow factor).1 + (landingGear mtow factor).2 = factor * mtow
    ∧ (landingGear mtow factor).1 = 9 * (landingGear mtow factor).2 := by
  constructor <;> simp only [landingGear] <;> ring

example : landingGear 60000 = (2160, 240) := by norm_num [landingGear]

/-- Payload is passengers, their bags and cargo; operating items are equipment, crew and attendants. -/
theorem C142_payload (ac : String) (n cargo wp wb : ℝ) (v : VehicleIn) (hp : v.payload = payload n cargo wp wb)
    (ho : v.oper = operatingItems ac n) :
    Consistent v ∧ v.payload.pax = n * wp ∧ v.payload.bag = n * wb ∧ v.payload.cargo = cargo := by
  refine ⟨⟨?_, ?_⟩, ?_, ?_, ?_⟩
  · rw [hp]; rfl
  · rw [ho]; rfl
  · rw [hp]; simp only [payload]; ring
  · rw [hp]; simp only [payload]; ring
  · rw [hp]; rfl

example : Consistent { exVehicle with payload := payload 150 500, oper := operatingItems "medium-range" 150 } :=
  (C142_payload "medium-range" 150 500 _ _ _ rfl rfl).1

/-- The systems' total is that of the items. -/
theorem C142_systems (ac ctrl : String) (n S : ℝ) (ws : List (WKind × ℝ)) :
    let r := systems ac ctrl n S ws
    r.2 = [r.1.control, r.1.apu, r.1.elec, r.1.avionics, r.1.hyd, r.1.furnish, r.1.ac, r.1.instruments].sum := by
  intro r
  simp only [r, systems, List.sum_cons, List.sum_nil]; ring

example : (systems "medium-range" "fully powered" 100 (92.90304 : ℝ) []).1.hyd = 650 * lb := by
  simp only [systems, ft]; ring

/-! ### C143 Weights and seats -/

theorem attendants_mono {n m : ℝ} (h : n ≤ m) : attendants n ≤ attendants m := by
  unfold attendants
  split_ifs with h1 h2 h2
  · exact le_rfl
  · have : (0 : ℤ) ≤ ⌊m / 40⌋ := Int.floor_nonneg.2 (by push Not at h2; linarith)
    have : (0 : ℝ) ≤ (⌊m / 40⌋ : ℤ) := by exact_mod_cast this
    linarith
  · exfalso; push Not at h1; linarith
  · have : (⌊n / 40⌋ : ℝ) ≤ (⌊m / 40⌋ : ℝ) := by
      exact_mod_cast Int.floor_le_floor (by linarith)
    linarith

/-- There is an attendant for every fifty seats, and one in any case. -/
theorem C143_attendants (n : ℕ) : (n : ℝ) ≤ 50 * attendants n ∧ 1 ≤ attendants n := by
  unfold attendants
  split_ifs with h
  · have : n < 51 := by exact_mod_cast h
    have : (n : ℝ) ≤ 50 := by exact_mod_cast Nat.le_of_lt_succ this
    constructor <;> linarith
  · push Not at h
    have h1 := Int.lt_floor_add_one ((n : ℝ) / 40)
    have h2 : (1 : ℤ) ≤ ⌊(n : ℝ) / 40⌋ := Int.le_floor.2 (by push_cast; linarith)
    have h2 : (1 : ℝ) ≤ (⌊(n : ℝ) / 40⌋ : ℤ) := by exact_mod_cast h2
    constructor <;> linarith

example : attendants 50 = 1 := by norm_num [attendants]
example : attendants 180 = 5 := by
  have : ⌊(180 : ℝ) / 40⌋ = 4 := by rw [Int.floor_eq_iff]; norm_num
  norm_num [attendants, this]

theorem flightCrew_mono {n m : ℝ} (h : n ≤ m) : flightCrew n ≤ flightCrew m := by
  unfold flightCrew
  split_ifs with h1 h2 h2
  · exact le_rfl
  · exfalso; linarith
  · norm_num
  · exact le_rfl

theorem operItems_mono (ac : String) {n m : ℝ} (h : n ≤ m) : operItems ac n ≤ operItems ac m := by
  have := lb_pos
  have := mul_le_mul_of_nonneg_right h this.le
  unfold operItems
  split_ifs <;> linarith

/-- More seats never make operating items or payload lighter. -/
theorem C143_operating (ac : String) {n m : ℝ} (h : n ≤ m) {cargo wp wb : ℝ} (hp : 0 ≤ wp) (hb : 0 ≤ wb) :
    (operatingItems ac n).total ≤ (operatingItems ac m).total
    ∧ (payload n cargo wp wb).total ≤ (payload m cargo wp wb).total := by
  have h1 := attendants_mono h
  have h2 := flightCrew_mono h
  have h3 := operItems_mono ac h
  have h4 := lb_pos
  constructor
  · simp only [operatingItems]
    gcongr
  · simp only [payload]
    gcongr

example : (operatingItems "long-range" 149).total ≤ (operatingItems "long-range" 150).total :=
  (C143_operating _ (by norm_num) (cargo := 0) (wp := 0) (wb := 0) le_rfl le_rfl).1

theorem furnishBase_mono {n m : ℝ} (h0 : 0 ≤ n) (h : n ≤ m) : furnishBase n ≤ furnishBase m := by
  have := lb_pos
  unfold furnishBase
  refine mul_le_mul_of_nonneg_right ?_ this.le
  rcases le_total m 300 with hm | hm
  · rw [min_eq_left hm, min_eq_left (h.trans hm)]
    nlinarith
  · rw [min_eq_right hm]
    rcases le_total n 300 with hn | hn
    · rw [min_eq_left hn]; nlinarith
    · rw [min_eq_right hn]; nlinarith

theorem apuWeight_mono {n m : ℝ} (h : n ≤ m) : apuWeight n ≤ apuWeight m := by
  have := lb_pos
  unfold apuWeight
  refine max_le_max ?_ le_rfl
  split_ifs with h1 h2 h2
  · have := mul_le_mul_of_nonneg_right h this.le; linarith
  · exfalso; linarith
  · nlinarith
  · exact le_rfl

theorem byType_mono (ac : String) {n m : ℝ} (h0 : 0 ≤ n) (h : n ≤ m) :
    (byType ac n).1 ≤ (byType ac m).1 ∧ (byType ac n).2.1 ≤ (byType ac m).2.1 ∧ (byType ac n).2.2.1 ≤ (byType ac m).2.2.1
    ∧ (byType ac n).2.2.2 ≤ (byType ac m).2.2.2 := by
  have hf := furnishBase_mono h0 h
  have := mul_le_mul_of_nonneg_right h lb_pos.le
  unfold byType
  split_ifs <;> (refine ⟨?_, ?_, ?_, ?_⟩ <;> dsimp only <;> linarith)

/-- Nor any item of the systems, nor their total. -/
theorem C143_systems (ac ctrl : String) {n m : ℝ} (h0 : 0 ≤ n) (h : n ≤ m) (S : ℝ) (ws : List (WKind × ℝ)) :
    let r := systems ac ctrl n S ws
    let t := systems ac ctrl m S ws
    r.1.apu ≤ t.1.apu ∧ r.1.elec ≤ t.1.elec ∧ r.1.avionics ≤ t.1.avionics ∧ r.1.furnish ≤ t.1.furnish ∧ r.1.ac ≤ t.1.ac
    ∧ r.1.instruments ≤ t.1.instruments ∧ r.1.control = t.1.control ∧ r.1.hyd = t.1.hyd ∧ r.2 ≤ t.2 := by
  intro r t
  obtain ⟨h1, h2, h3, h4⟩ := byType_mono ac h0 h
  have h5 := apuWeight_mono h
  have h6 : 15 * n * lb ≤ 15 * m * lb := by have := lb_pos; gcongr
  refine ⟨h5, h4, h2, h3, h6, h1, rfl, rfl, ?_⟩
  simp only [r, t, systems]
  linarith

/-- The auxiliary power unit weighs seventy kilograms up to 22 seats and seven pounds a seat beyond. -/
theorem C143_apu (n : ℕ) : (n ≤ 22 → apuWeight n = 70) ∧ (22 < n → apuWeight n = 7 * n * lb) := by
  constructor
  · intro h
    have h' : (n : ℝ) ≤ 22 := by exact_mod_cast h
    unfold apuWeight
    apply max_eq_right
    split_ifs
    · norm_num [lb]; linarith
    · norm_num
  · intro h
    have h' : (23 : ℝ) ≤ n := by exact_mod_cast h
    unfold apuWeight
    rw [if_pos (by linarith)]
    apply max_eq_left
    norm_num [lb]; linarith

/-- Flight controls follow the tail area, and a hundredth of the main wing's without tails. -/
theorem C143_controls {ac ctrl : String} {n S : ℝ} {ws ws' : List (WKind × ℝ)}
    (h : tailArea ws ≤ tailArea ws') :
    (systems ac ctrl n S ws).1.control ≤ (systems ac ctrl n S ws').1.control := by
  have := lb_pos
  have := ft_pos
  simp only [systems, ctrlScaler]
  split_ifs <;> gcongr

example : tailArea [(.main, 100), (.tail, 30), (.tail, 20)] = 50 := by
  rw [tailArea, if_neg (by simp; norm_num)]; simp; norm_num
example : tailArea [(.main, 100), (.other, 30)] = 1 := by
  rw [tailArea, if_pos (by simp)]; simp; norm_num

/-! ### C144 Fuselage and wing -/

/-- The fuselage index lies between the pressure index and the larger of pressure and bending index; it is the pressure
index where that is the larger. -/
theorem C144_index {Ip Ib : ℝ} (hp : 0 ≤ Ip) (hb : 0 < Ib) :
    Ip ≤ tubeIndex Ip Ib ∧ tubeIndex Ip Ib ≤ max Ip Ib ∧ (Ib ≤ Ip → tubeIndex Ip Ib = Ip) := by
  unfold tubeIndex
  split_ifs with h
  · exact ⟨le_rfl, le_max_left _ _, fun _ => rfl⟩
  · push Not at h
    refine ⟨?_, le_max_of_le_right ?_, fun h' => ?_⟩
    · rw [le_div_iff₀ (by linarith)]; nlinarith [sq_nonneg (Ip - Ib)]
    · rw [div_le_iff₀ (by linarith)]; nlinarith
    · have : Ib = Ip := le_antisymm h' h
      subst this; field_simp; ring

/-- It never falls when either rises. -/
theorem C144_index_mono {Ip Ib Ip' Ib' : ℝ} (hp : 0 ≤ Ip) (hb : 0 < Ib) (h1 : Ip ≤ Ip') (h2 : Ib ≤ Ib') :
    tubeIndex Ip Ib ≤ tubeIndex Ip' Ib' := by
  have hb' : 0 < Ib' := hb.trans_le h2
  obtain ⟨l1, -, l3⟩ := C144_index (hp.trans h1) hb'
  rcases le_total Ib Ip with h | h
  · rw [(C144_index hp hb).2.2 h]; exact h1.trans l1
  rcases le_total Ib' Ip' with h' | h'
  · rw [l3 h']
    refine (C144_index hp hb).2.1.trans ?_
    rw [max_eq_right h]; exact h2.trans h'
  · have e : ∀ {a b : ℝ}, 0 < b → a ≤ b → tubeIndex a b = (a ^ 2 + b ^ 2) / (2 * b) := fun _ hab => by
      unfold tubeIndex; rw [if_neg (not_lt.2 hab)]
    rw [e hb h, e hb' h', div_le_div_iff₀ (by linarith) (by linarith)]
    have h3 : Ip ^ 2 ≤ Ip' ^ 2 := by gcongr
    have h4 : Ip ^ 2 ≤ Ib * Ib' := by nlinarith
    nlinarith [mul_nonneg (sub_nonneg.2 h2) (sub_nonneg.2 h4), mul_le_mul_of_nonneg_right h3 hb.le]

/-- A fuselage is heavier for more cabin pressure, limit load, zero-fuel weight or wetted area, and lighter when wing and
engines are heavier. -/
theorem C144_tube {dp dp' width height length rc nlim nlim' zf zf' ww ww' wp wp' area area' : ℝ} (hdp : 0 ≤ dp)
    (hdp' : dp ≤ dp') (hw : 0 < width) (hh : 0 < height) (hl : rc / 2 < length) (hn : 0 < nlim) (hn' : nlim ≤ nlim')
    (hz : ww + wp < zf) (hz' : zf ≤ zf') (hww : ww' ≤ ww) (hwp : wp' ≤ wp) (ha : 0 ≤ area) (ha' : area ≤ area') :
    tube dp width height length rc nlim zf ww wp area ≤ tube dp' width height length rc nlim' zf' ww' wp' area' := by
  have := lb_pos
  have := ft_pos
  have := lbf_pos
  have hL : 0 < length - rc / 2 := by linarith
  have hZ : 0 < zf - ww - wp := by linarith
  have h1 : 0 ≤ 1.5 * 10 ^ (-3 : ℤ) * (dp / (lbf / ft ^ 2)) * (width / ft) := by positivity
  have h2 : 0 < 1.91 * 10 ^ (-4 : ℤ) * nlim * ((zf - ww - wp) / lb) * ((length - rc / 2) / ft) / (height / ft) ^ 2 := by
    positivity
  have hI := C144_index_mono h1 h2
    (show _ ≤ 1.5 * 10 ^ (-3 : ℤ) * (dp' / (lbf / ft ^ 2)) * (width / ft) by gcongr)
    (show _ ≤ 1.91 * 10 ^ (-4 : ℤ) * nlim' * ((zf' - ww' - wp') / lb) * ((length - rc / 2) / ft) / (height / ft) ^ 2 by
      gcongr; linarith)
  have h0 := h1.trans (C144_index h1 h2).1
  unfold tube
  dsimp only
  gcongr
  linarith [h0.trans hI]

example : tube 50000 4 4 38 8 2.5 60000 7000 8000 350 ≤ tube 60000 4 4 38 8 2.5 60000 7000 8000 350 :=
  C144_tube (by norm_num) (by norm_num) (by norm_num) (by norm_num) (by norm_num) (by norm_num) le_rfl (by norm_num) le_rfl
    le_rfl le_rfl (by norm_num) le_rfl
example : tubeIndex 1 1 = 1 ∧ tubeIndex 0 1 = 1 / 2 ∧ tubeIndex 2 1 = 2 := by norm_num [tubeIndex]

/-- A wing is heavier for more load, take-off or zero-fuel weight, span, and less thickness. -/
theorem C144_wing_simple {S b b' tr tc tc' sweep nult nult' tow tow' zf zf' : ℝ} (hS : 0 < S) (hb : 0 ≤ b) (hb' : b ≤ b')
    (htr : 0 ≤ tr) (htc : 0 < tc') (htc' : tc' ≤ tc) (hs : cos sweep ≠ 0) (hn : 0 ≤ nult) (hn' : nult ≤ nult')
    (ht : 0 ≤ tow) (ht' : tow ≤ tow') (hz : 0 ≤ zf) (hz' : zf ≤ zf') :
    4.22 * (S / ft ^ 2) * lb ≤ wingSimple S b tr tc sweep nult tow zf
    ∧ wingSimple S b tr tc sweep nult tow zf ≤ wingSimple S b' tr tc' sweep nult' tow' zf' := by
  have := lb_pos
  have := ft_pos
  have hc : 0 < cos sweep ^ 2 := by positivity
  have htc0 : 0 < tc := htc.trans_le htc'
  unfold wingSimple
  dsimp only
  constructor
  · refine mul_le_mul_of_nonneg_right ?_ lb_pos.le
    have : 0 ≤ 1.642 * 10 ^ (-6 : ℤ) * nult * (b / ft) ^ 3 * (tow / lb * (zf / lb)) ^ (0.5 : ℝ) * (1 + 2 * tr)
      / (tc * cos sweep ^ 2 * (S / ft ^ 2) * (1 + tr)) := by positivity
    linarith
  · have hn0 := hn.trans hn'
    have hb0 := hb.trans hb'
    have ht0 := ht.trans ht'
    have hz0 := hz.trans hz'
    gcongr

example : wingSimple 125 34 0.2 0.12 0.4 3.75 79000 62000 ≤ wingSimple 125 36 0.2 0.1 0.4 3.75 80000 62000 :=
  (C144_wing_simple (by norm_num) (by norm_num) (by norm_num) (by norm_num) (by norm_num) (by norm_num)
    (Real.cos_pos_of_mem_Ioo ⟨by linarith [Real.pi_gt_three], by linarith [Real.pi_gt_three]⟩).ne' (by norm_num) le_rfl
    (by norm_num) (by norm_num) (by norm_num) le_rfl).2

/-! The integral behind a panel. -/

/-- An antiderivative of `(1 - y²)^(3/2)`. -/
noncomputable def prim (y : ℝ) : ℝ := 1 / 8 * (y * (5 - 2 * y ^ 2) * √(1 - y ^ 2) + 3 * arcsin y)

theorem prim_deriv {y : ℝ} (h1 : -1 < y) (h2 : y < 1) : HasDerivAt prim (√(1 - y ^ 2) ^ 3) y := by
  have hp : 0 < 1 - y ^ 2 := by nlinarith
  have hs := Real.sqrt_pos.2 hp
  have hsq := Real.sq_sqrt hp.le
  have ha := hasDerivAt_arcsin h1.ne' h2.ne
  have hq : HasDerivAt (fun y : ℝ => 1 - y ^ 2) (-(2 * y)) y := by
    simpa using ((hasDerivAt_pow 2 y).const_sub 1)
  have hr := hq.sqrt hp.ne'
  have hpoly : HasDerivAt (fun y : ℝ => y * (5 - 2 * y ^ 2)) (5 - 6 * y ^ 2) y := by
    have := (hasDerivAt_id y).mul (((hasDerivAt_pow 2 y).const_mul 2).const_sub 5)
    refine this.congr_deriv ?_
    simp; ring
  have h := ((hpoly.mul hr).add (ha.const_mul 3)).const_mul (1 / 8)
  refine h.congr_deriv ?_
  generalize √(1 - y ^ 2) = s at *
  field_simp
  have : y ^ 2 = 1 - s ^ 2 := by linarith
  rw [this]; ring

theorem prim_cont : Continuous prim := by
  unfold prim
  have := Real.continuous_arcsin
  fun_prop

theorem prim_integral {a b : ℝ} (ha : -1 ≤ a) (hab : a ≤ b) (hb : b ≤ 1) :
    ∫ y in a..b, √(1 - y ^ 2) ^ 3 = prim b - prim a := by
  refine intervalIntegral.integral_eq_sub_of_hasDerivAt_of_le hab prim_cont.continuousOn
    (fun y hy => prim_deriv (by linarith [hy.1]) (by linarith [hy.2])) ?_
  exact Continuous.intervalIntegrable (by fun_prop) _ _

theorem panel_prim (G C SW Y1 Y2 : ℝ) :
    panelConst G C SW Y1 Y2 = 1 / (3 * (G * C * cos SW ^ 2)) * (prim Y2 - prim Y1) := by
  unfold panelConst prim
  generalize √(1 - Y1 ^ 2) = s
  generalize √(1 - Y2 ^ 2) = t
  rw [one_div, one_div, mul_inv]; ring

/-- The bending term of a panel is the integral of `(1 - y²)^(3/2) / 3` over thickness. -/
theorem C144_panel {G C SW Y1 Y2 : ℝ} (h1 : -1 ≤ Y1) (h : Y1 ≤ Y2) (h2 : Y2 ≤ 1) :
    panelConst G C SW Y1 Y2 = 1 / (G * C * cos SW ^ 2) * ∫ y in Y1..Y2, √(1 - y ^ 2) ^ 3 / 3 := by
  rw [panel_prim, intervalIntegral.integral_div, prim_integral h1 h h2, one_div, one_div, mul_inv]; ring

/-- It is never negative and a further station within a panel changes nothing. -/
theorem C144_split {G C : ℝ} (l1 : List Station) (a m b : Station) (l2 : List Station) (hm : m.sweep = a.sweep) :
    runSum G C (l1 ++ a :: m :: b :: l2) = runSum G C (l1 ++ a :: b :: l2) := by
  induction l1 with
  | nil =>
    simp only [List.nil_append, runSum, panel_prim, hm]; ring
  | cons x l1 ih =>
    cases l1 with
    | nil => simp only [List.cons_append, List.nil_append, runSum] at ih ⊢; rw [ih]
    | cons y l1 => simp only [List.cons_append, runSum] at ih ⊢; rw [ih]

example : runSum 0.1 2 [⟨0, 0.3⟩, ⟨0.4, 0.3⟩, ⟨1, 0⟩] = runSum 0.1 2 [⟨0, 0.3⟩, ⟨1, 0⟩] :=
  C144_split [] ⟨0, 0.3⟩ ⟨0.4, 0.3⟩ ⟨1, 0⟩ [] rfl

theorem panel_nonneg {G C SW Y1 Y2 : ℝ} (hG : 0 ≤ G) (hC : 0 ≤ C) (h1 : -1 ≤ Y1) (h : Y1 ≤ Y2) (h2 : Y2 ≤ 1) :
    0 ≤ panelConst G C SW Y1 Y2 := by
  rw [C144_panel h1 h h2]
  refine mul_nonneg (by positivity) (intervalIntegral.integral_nonneg h fun y _ => by positivity)

/-- The bending part is never negative for stations in order, and grows with the loads. -/
theorem C144_wing_segmented {rho sigma S Sref b nult nult' tow tow' zf zf' G C : ℝ} {l : List Station}
    (hr : 0 ≤ rho) (hs : 0 < sigma) (hS : 0 ≤ S) (hSr : 0 < Sref) (hb : 0 < b) (hn : 0 ≤ nult) (hn' : nult ≤ nult')
    (ht : 0 ≤ tow) (ht' : tow ≤ tow') (hz : 0 ≤ zf) (hz' : zf ≤ zf') (hG : 0 ≤ G) (hC : 0 ≤ C)
    (hl : l.Pairwise fun a b => a.y ≤ b.y) (hr1 : ∀ a ∈ l, -1 ≤ a.y ∧ a.y ≤ 1) :
    4.22 * S / ft ^ 2 * lb ≤ wingSegmented rho sigma S Sref b nult tow zf G C l
    ∧ wingSegmented rho sigma S Sref b nult tow zf G C l ≤ wingSegmented rho sigma S Sref b nult' tow' zf' G C l := by
  have hsum : 0 ≤ runSum G C l := by
    induction l with
    | nil => exact le_rfl
    | cons a l ih =>
      cases l with
      | nil => exact le_rfl
      | cons c l =>
        have ih := ih hl.of_cons fun x hx => hr1 x (List.mem_cons_of_mem _ hx)
        have := panel_nonneg (SW := a.sweep) hG hC (hr1 a (by simp)).1 ((List.pairwise_cons.1 hl).1 c (by simp))
          (hr1 c (by simp)).2
        simp only [runSum]; linarith
  have := lb_pos
  have := ft_pos
  have hpi := Real.pi_pos
  unfold wingSegmented
  dsimp only
  constructor
  · refine mul_le_mul_of_nonneg_right ?_ lb_pos.le
    have : 0 ≤ rho * 9.81 / sigma * b ^ 2 * (S / Sref * 2 * (nult * √(tow * zf) * 9.81) / (b * π)) * runSum G C l / 2 / lb := by
      positivity
    linarith
  · have hn0 := hn.trans hn'
    have ht0 := ht.trans ht'
    have hz0 := hz.trans hz'
    gcongr

example : wingSegmented 2700 3e8 100 100 30 2 5000 4000 0.1 3 [⟨0, 0⟩, ⟨0.5, 0⟩, ⟨1, 0⟩]
    ≤ wingSegmented 2700 3e8 100 100 30 3 5000 4000 0.1 3 [⟨0, 0⟩, ⟨0.5, 0⟩, ⟨1, 0⟩] :=
  (C144_wing_segmented (by norm_num) (by norm_num) (by norm_num) (by norm_num) (by norm_num) (by norm_num) (by norm_num)
    (by norm_num) le_rfl (by norm_num) le_rfl (by norm_num) (by norm_num) (by norm_num) (by norm_num)).2

/-- The bending moment at a station under an elliptic load of unit strength, in units of the semispan. -/
noncomputable def bending (y : ℝ) : ℝ := ∫ t in y..1, (t - y) * √(1 - t ^ 2)

/-- What the code integrates is the moment of the outboard load about the centre line, not about the station. -/
theorem C144_moment {y : ℝ} (h0 : -1 ≤ y) (h1 : y ≤ 1) :
    √(1 - y ^ 2) ^ 3 / 3 = (∫ t in y..1, t * √(1 - t ^ 2))
    ∧ √(1 - y ^ 2) ^ 3 / 3 = bending y + y * ∫ t in y..1, √(1 - t ^ 2) := by
  have hA : √(1 - y ^ 2) ^ 3 / 3 = ∫ t in y..1, t * √(1 - t ^ 2) := by
    have hd : ∀ t ∈ Set.Ioo y 1, HasDerivAt (fun t : ℝ => -(√(1 - t ^ 2) ^ 3 / 3)) (t * √(1 - t ^ 2)) t := by
      intro t ht
      have hp : 0 < 1 - t ^ 2 := by nlinarith [ht.1, ht.2]
      have hs := Real.sqrt_pos.2 hp
      have hq : HasDerivAt (fun y : ℝ => 1 - y ^ 2) (-(2 * t)) t := by
        simpa using ((hasDerivAt_pow 2 t).const_sub 1)
      have hr := (((hq.sqrt hp.ne').pow 3).div_const 3).neg
      refine hr.congr_deriv ?_
      simp only [Nat.cast_ofNat, Nat.add_one_sub_one]
      field_simp
    rw [intervalIntegral.integral_eq_sub_of_hasDerivAt_of_le h1 (by fun_prop) hd
      (Continuous.intervalIntegrable (by fun_prop) _ _)]
    simp
  refine ⟨hA, ?_⟩
  rw [hA, bending, ← intervalIntegral.integral_const_mul, ← intervalIntegral.integral_add
    (Continuous.intervalIntegrable (by fun_prop) _ _) (Continuous.intervalIntegrable (by fun_prop) _ _)]
  congr 1; ext t; ring

/-- So outboard of the centre line it is more than the bending moment. -/
theorem C144_bending_counterexample {y : ℝ} (h0 : 0 < y) (h1 : y < 1) : bending y < √(1 - y ^ 2) ^ 3 / 3 := by
  rw [(C144_moment (by linarith) h1.le).2]
  have : 0 < ∫ t in y..1, √(1 - t ^ 2) := by
    refine intervalIntegral.intervalIntegral_pos_of_pos_on (Continuous.intervalIntegrable (by fun_prop) _ _)
      (fun t ht => Real.sqrt_pos.2 ?_) h1
    nlinarith [ht.1, ht.2]
  have := mul_pos h0 this
  linarith

/-- The bending part of the simple and the segmented computation for an unswept rectangular wing of area `S`. -/
noncomputable def bendSimple (S b tc nult tow zf : ℝ) : ℝ := wingSimple S b 1 tc 0 nult tow zf - 4.22 * (S / ft ^ 2) * lb
noncomputable def bendSegmented (rho sigma S b tc nult tow zf : ℝ) : ℝ :=
  wingSegmented rho sigma S S b nult tow zf tc (S / b) [⟨0, 0⟩, ⟨1, 0⟩] - 4.22 * (S / ft ^ 2) * lb

/-- At constant area the one grows with the cube of the span, the other with its square. -/
theorem C144_span_partial {S b tc nult tow zf rho sigma k : ℝ} (hS : 0 < S) (htc : 0 < tc) :
    bendSimple S (k * b) tc nult tow zf = k ^ 3 * bendSimple S b tc nult tow zf
    ∧ bendSegmented rho sigma S (k * b) tc nult tow zf = k ^ 2 * bendSegmented rho sigma S b tc nult tow zf := by
  have h1 := lb_pos
  have h2 := ft_pos
  have hpi := Real.pi_pos
  constructor
  · unfold bendSimple wingSimple
    dsimp only
    rw [Real.cos_zero]
    generalize (tow / lb * (zf / lb)) ^ (0.5 : ℝ) = w
    generalize lb = l at *
    generalize ft = f at *
    field_simp
    ring
  · unfold bendSegmented wingSegmented
    simp only [runSum, panel_prim, Real.cos_zero]
    generalize √(tow * zf) = w
    generalize prim 1 - prim 0 = q
    generalize lb = l at *
    generalize ft = f at *
    by_cases hs : sigma = 0
    · subst hs; simp; ring
    field_simp
    ring

/-- So no material makes the two computations agree. -/
theorem C144_span_counterexample (rho sigma : ℝ) : ∃ b : ℝ, 0 < b ∧
    wingSegmented rho sigma 100 100 b 3 50000 40000 0.1 (100 / b) [⟨0, 0⟩, ⟨1, 0⟩]
      ≠ wingSimple 100 b 1 0.1 0 3 50000 40000 := by
  by_contra hne
  push Not at hne
  have e : ∀ b : ℝ, 0 < b → bendSegmented rho sigma 100 b 0.1 3 50000 40000 = bendSimple 100 b 0.1 3 50000 40000 := by
    intro b hb
    simp only [bendSegmented, bendSimple, hne b hb]
  have h1 := e 1 one_pos
  have h2 := e (2 * 1) (by norm_num)
  obtain ⟨a1, a2⟩ := C144_span_partial (S := 100) (b := 1) (tc := 0.1) (nult := 3) (tow := 50000) (zf := 40000)
    (rho := rho) (sigma := sigma) (k := 2) (by norm_num) (by norm_num)
  rw [a1, a2, h1] at h2
  have hz : bendSimple 100 1 0.1 3 50000 40000 = 0 := by linarith
  have hlb := lb_pos
  have hft := ft_pos
  have : 0 < bendSimple 100 1 0.1 3 50000 40000 := by
    unfold bendSimple wingSimple
    dsimp only
    rw [Real.cos_zero, ← sub_mul, add_sub_cancel_left]
    positivity
  linarith

/-! ### C145 Tails, engines and motors -/

/-- A vertical tail is heavier for more load, span and take-off weight, and a quarter heavier with the engine or tail on top
when the flag says "yes"; the rudder adds to it. -/
theorem C145_vertical {S b b' tc tc' sweep nult nult' tow tow' Sref : ℝ} (hb : 0 ≤ b) (hb' : b ≤ b')
    (htc : 0 < tc') (htc' : tc' ≤ tc) (hs : cos sweep ≠ 0) (hn : 0 ≤ nult) (hn' : nult ≤ nult') (ht : 0 ≤ tow)
    (ht' : tow ≤ tow') (hSr : 0 < Sref) (f : Flag) :
    tailVertical S b tc sweep nult tow Sref f ≤ tailVertical S b' tc' sweep nult' tow' Sref f
    ∧ tailVertical S b tc sweep nult tow Sref (.str "yes") = 1.25 * tailVertical S b tc sweep nult tow Sref (.bool false)
    ∧ tailVertical S b tc sweep nult tow Sref f = 1.4 * tailVertical S b tc sweep nult tow Sref f 0 := by
  have := lb_pos
  have := ft_pos
  have hc : 0 < cos sweep ^ 2 := by positivity
  have htc0 : 0 < tc := htc.trans_le htc'
  refine ⟨?_, ?_, ?_⟩
  · have hn0 := hn.trans hn'
    have hb0 := hb.trans hb'
    have ht0 := ht.trans ht'
    unfold tailVertical
    dsimp only
    have h0 : (0 : ℝ) ≤ if f.isYes then 1.25 else 1 := by split_ifs <;> norm_num
    gcongr
  · simp only [tailVertical, Flag.isYes]
    norm_num
    ring
  · simp only [tailVertical]; ring

example : tailVertical 25 7 0.1 0 3.75 79000 125 (.str "yes") = 1.25 * tailVertical 25 7 0.1 0 3.75 79000 125 (.bool false) :=
  (C145_vertical (by norm_num) le_rfl (by norm_num) le_rfl (by norm_num) (by norm_num) le_rfl (by norm_num) le_rfl
    (by norm_num) (.bool true)).2.1

/-- Setting the flag to true, as its default suggests, has no effect on the vertical tail. -/
theorem C145_flag_counterexample (S b tc sweep nult tow Sref : ℝ) :
    tailVertical S b tc sweep nult tow Sref (.bool true) = tailVertical S b tc sweep nult tow Sref (.bool false) := rfl

open Classical in
/-- A horizontal tail whose arm and chord are known is heavier for more load, span and take-off weight. -/
theorem C145_horizontal {S b b' tc sweep nult nult' tow tow' expo wet arm mac : ℝ} (hS : 0 < S) (hb : 0 ≤ b) (hb' : b ≤ b')
    (htc : 0 < tc) (hs : cos sweep ≠ 0) (hn : 0 ≤ nult) (hn' : nult ≤ nult') (ht : 0 ≤ tow) (ht' : tow ≤ tow')
    (ha : 0 < arm) (hm : 0 ≤ mac) :
    ∃ w w', tailHorizontal S b tc sweep nult tow expo wet (some arm) (some mac) = some w
      ∧ tailHorizontal S b' tc sweep nult' tow' expo wet (some arm) (some mac) = some w' ∧ 0 < w ∧ w ≤ w' := by
  have := lb_pos
  have := ft_pos
  have hc : 0 < cos sweep ^ 2 := by positivity
  have hd : 0 < tc * cos sweep ^ 2 * (arm / ft) * (S / ft ^ 2) ^ (1.5 : ℝ) := by positivity
  unfold tailHorizontal
  simp only [Option.map_some, Option.getD_some, if_neg hd.ne']
  refine ⟨_, _, rfl, rfl, by positivity, ?_⟩
  have hn0 := hn.trans hn'
  have hb0 := hb.trans hb'
  have ht0 := ht.trans ht'
  gcongr

example : ∃ w, tailHorizontal 32 14 0.1 0 3.75 79000 25 60 (some 17) (some 4) = some w ∧ 0 < w := by
  obtain ⟨w, _, h, -, hw, -⟩ := C145_horizontal (S := 32) (b := 14) (tc := 0.1) (sweep := 0) (nult := 3.75) (tow := 79000)
    (expo := 25) (wet := 60) (arm := 17) (mac := 4) (by norm_num) (by norm_num) le_rfl (by norm_num) (by norm_num)
    (by norm_num) le_rfl (by norm_num) le_rfl (by norm_num) (by norm_num)
  exact ⟨w, h, hw⟩

/-- Without a tail arm (not a number, which the code replaces by zero) there is no weight. -/
theorem C145_arm_counterexample (S b tc sweep nult tow expo wet : ℝ) (mac : Option ℝ) :
    tailHorizontal S b tc sweep nult tow expo wet none mac = none := by
  simp [tailHorizontal]

/-- A law `c x^p` with `0 < p ≤ 1`. -/
def Concave (f : ℝ → ℝ) : Prop :=
  (∀ {x y}, 0 ≤ x → x ≤ y → f x ≤ f y) ∧ (∀ {x y}, 0 ≤ x → 0 ≤ y → f (x + y) ≤ f x + f y) ∧ f 0 = 0

theorem concave_of {c p : ℝ} (hc : 0 ≤ c) (hp : 0 < p) (hp1 : p ≤ 1) {u k : ℝ} (hu : 0 < u) (hk : 0 ≤ k) :
    Concave fun x => c * (x / u) ^ p * k := by
  refine ⟨fun {x y} hx hxy => ?_, fun {x y} hx hy => ?_, ?_⟩
  · have h1 : 0 ≤ x / u := by positivity
    dsimp only
    gcongr
  · have := Real.rpow_add_le_add_rpow (show 0 ≤ x / u by positivity) (show 0 ≤ y / u by positivity) hp.le hp1
    dsimp only
    rw [add_div, ← add_mul, ← mul_add]
    gcongr
  · simp [Real.zero_rpow hp.ne']

/-- Engines and motors are never lighter for more thrust, power or torque; one engine is never heavier than two that give
the same together; nothing weighs nothing. -/
theorem C145_engines : Concave engineJet ∧ Concave (fun p => enginePiston p) ∧ Concave (fun p => airCooledMotor p)
    ∧ Concave htsMotor ∧ Concave (fun t => nasaMotor t) := by
  have h1 := lb_pos
  have h2 := ft_pos
  have h3 := lbf_pos
  have h4 := hp_pos
  refine ⟨?_, ?_, ?_, ?_, ?_⟩
  · exact concave_of (by norm_num) (by norm_num) (by norm_num) h3 h1.le
  · exact concave_of (by norm_num) (by norm_num) (by norm_num) h4 h1.le
  · exact concave_of (by norm_num) (by norm_num) (by norm_num) (by norm_num) h1.le
  · exact concave_of (by norm_num) (by norm_num) (by norm_num) (by norm_num) h1.le
  · exact concave_of (by norm_num) (by norm_num) (by norm_num) (mul_pos h2 h3) h1.le

example : engineJet 100000 ≤ engineJet 60000 + engineJet 40000 := by
  have := C145_engines.1.2.1 (x := 60000) (y := 40000) (by norm_num) (by norm_num)
  norm_num at this ⊢; exact this

/-- The installed weight is in proportion to the number of engines and grows with the engine's. -/
theorem C145_installed {w w' n factor : ℝ} (k : ℝ) (hw : 0 ≤ w) (hw' : w ≤ w') (hn : 0 ≤ n) (hf : 0 ≤ factor) :
    integrated w (k * n) factor = k * integrated w n factor ∧ integratedGA w (k * n) factor = k * integratedGA w n factor
    ∧ integrated w n factor ≤ integrated w' n factor ∧ integratedGA w n factor ≤ integratedGA w' n factor := by
  have := lb_pos
  refine ⟨?_, ?_, ?_, ?_⟩
  · simp only [integrated]; ring
  · simp only [integratedGA]; ring
  · simp only [integrated]; gcongr
  · simp only [integratedGA]; gcongr

example : integrated 1000 2 = 3200 := by norm_num [integrated]


/-- **C143, type of aircraft.** Instruments and avionics weigh together 400 lb on a business, 800 lb on a commuter, 1700 lb on
a short, medium range or cargo and 2700 lb on a long range or supersonic aircraft; the passengers of the last two have 23 lb
more of furnishings each, and only the electrical system of a cargo aircraft does not grow with them. -/
theorem C143_types (n : ℝ) :
    (byType "business" n).1 + (byType "business" n).2.1 = 400 * lb ∧ (byType "commuter" n).1 + (byType "commuter" n).2.1 = 800 * lb
    ∧ (∀ t ∈ ["short-range", "medium-range", "cargo", "another"], (byType t n).1 + (byType t n).2.1 = 1700 * lb)
    ∧ (∀ t ∈ ["long-range", "sst"], (byType t n).1 + (byType t n).2.1 = 2700 * lb
        ∧ (byType t n).2.2.1 = (byType "commuter" n).2.2.1 + 23 * n * lb)
    ∧ (byType "cargo" n).2.2.2 = 1950 * lb ∧ ∀ t, t ≠ "cargo" → (byType t n).2.2.2 = 13 * n * lb := by
  refine ⟨?_, ?_, ?_, ?_, ?_, ?_⟩
  · simp [byType]; ring
  · simp [byType]; ring
  · intro t ht
    simp only [List.mem_cons, List.not_mem_nil, or_false] at ht
    rcases ht with e | e | e | e <;> subst e <;> simp [byType] <;> ring
  · intro t ht
    simp only [List.mem_cons, List.not_mem_nil, or_false] at ht
    rcases ht with e | e <;> subst e <;> simp [byType] <;> ring
  · simp [byType]
  · intro t ht
    unfold byType
    dsimp only
    split_ifs <;> first | rfl | exact absurd ‹_› ht

end Verif.Weights
