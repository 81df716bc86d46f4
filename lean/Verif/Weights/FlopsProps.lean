import Verif.Weights.Flops
import Verif.Weights.CommonProps
import Mathlib.Tactic.IntervalCases

/-!
C142, C143 and C145 for the FLOPS and Raymer correlations; C146 (the FLOPS wing), C147 (landing gear, fuselage, tails and
anti-icing of FLOPS).
-/

namespace Verif.Weights
open Real

theorem nmi_pos : 0 < nmi := by norm_num [nmi]

/-! ### C142 Parts add up -/

/-- Without cargo the FLOPS payload is that of its parts; the operating items always are. -/
theorem C142_flops_partial {n range wp : ℝ} {neng thrust S zf mach cargo : ℝ} {coach : Option ℝ} {wt ft' : List ℕ}
    (v : VehicleIn) (hp : v.payload = payloadFlops n 0 range wp)
    (ho : v.oper = operatingItemsFlops n neng thrust S zf range mach cargo coach wt ft') : Consistent v := by
  constructor
  · rw [hp]; simp [payloadFlops]
  · rw [ho]; rfl

example : Consistent { exVehicle with
    payload := payloadFlops 150 0 3000000
    oper := operatingItemsFlops 150 2 200000 100 50000 3000000 0.8 0 none [2] [] } :=
  C142_flops_partial _ rfl rfl

/-- With any cargo they are not: cargo enters the total in pounds, everything else in kilograms. -/
theorem C142_cargo_counterexample {n cargo range wp : ℝ} (hc : cargo ≠ 0) :
    (payloadFlops n cargo range wp).total
      ≠ (payloadFlops n cargo range wp).pax + (payloadFlops n cargo range wp).bag + (payloadFlops n cargo range wp).cargo := by
  simp only [payloadFlops, ne_eq, add_right_inj, lb]
  intro h
  apply hc
  rw [div_eq_iff (by norm_num)] at h
  linarith

/-- The total of the systems by FLOPS or Raymer is that of the items in pounds. -/
theorem C142_systems_flops (p : Sys) :
    let r := systemsOut p
    r.2 * lb = [r.1.control, r.1.apu, r.1.elec, r.1.avionics, r.1.hyd, r.1.furnish, r.1.ac, r.1.antiIce,
      r.1.instruments].sum := by
  intro r
  simp only [r, systemsOut, Sys.scale, List.sum_cons, List.sum_nil]; ring

/-- So it is not that of the items, which are in kilograms. -/
theorem C142_systems_flops_counterexample {p : Sys} (h : (systemsOut p).2 ≠ 0) :
    let r := systemsOut p
    r.2 ≠ [r.1.control, r.1.apu, r.1.elec, r.1.avionics, r.1.hyd, r.1.furnish, r.1.ac, r.1.antiIce,
      r.1.instruments].sum := by
  intro r
  rw [← C142_systems_flops p]
  intro h'
  have : (systemsOut p).2 * (1 - lb) = 0 := by linarith
  rcases mul_eq_zero.1 this with h1 | h1
  · exact h h1
  · norm_num [lb] at h1

example : (systemsOut ⟨1, 0, 0, 0, 0, 0, 0, 0, 0⟩).2 ≠ 0 := by norm_num [systemsOut]

/-! ### C143 Weights and seats -/

/-- The classes share the passengers, and none is negative while the coach seats are no more than the passengers. -/
theorem C143_classes_partial {n : ℝ} (hn : 0 ≤ n) (coach : Option ℝ) (hc : ∀ t ∈ coach, 0 ≤ t ∧ t ≤ n) :
    let c := classes n coach
    c.1 + c.2.1 + c.2.2 = n ∧ 0 ≤ c.1 ∧ 0 ≤ c.2.1 ∧ 0 ≤ c.2.2 := by
  cases coach with
  | none =>
    simp only [classes]
    refine ⟨by ring, by linarith, by linarith, by linarith⟩
  | some t =>
    obtain ⟨h1, h2⟩ := hc t rfl
    simp only [classes]
    refine ⟨by ring, by linarith, by linarith, h1⟩

/-- With fewer passengers than coach seats there are less than no passengers in the other classes. -/
theorem C143_coach_counterexample : classes 100 (some 120) = (-5, -15, 120) := by norm_num [classes]

/-- Baggage per passenger grows with range; galley crew and payload with passengers. -/
theorem C143_flops {n m r s : ℝ} (h0 : 0 ≤ n) (h : n ≤ m) (hr : r ≤ s) {cargo wp : ℝ} (hw : 0 ≤ wp) :
    baggageFlops r ≤ baggageFlops s ∧ galleyCrew n ≤ galleyCrew m
    ∧ (payloadFlops n cargo r wp).total ≤ (payloadFlops m cargo s wp).total := by
  have hlb := lb_pos
  have hb : ∀ {r s : ℝ}, r ≤ s → baggageFlops r ≤ baggageFlops s := by
    intro r s hr
    unfold baggageFlops
    split_ifs <;> linarith
  have hb0 : ∀ r, 0 ≤ baggageFlops r := by
    intro r; unfold baggageFlops; split_ifs <;> positivity
  refine ⟨hb hr, ?_, ?_⟩
  · unfold galleyCrew
    split_ifs with h1 h2 h2
    · have : (⌊n / 250⌋ : ℝ) ≤ (⌊m / 250⌋ : ℝ) := by exact_mod_cast Int.floor_le_floor (by linarith)
      linarith
    · exfalso; linarith
    · have : (0 : ℤ) ≤ ⌊m / 250⌋ := Int.floor_nonneg.2 (by linarith)
      have : (0 : ℝ) ≤ (⌊m / 250⌋ : ℤ) := by exact_mod_cast this
      linarith
    · exact le_rfl
  · have h3 := hb (show r / nmi ≤ s / nmi by have := nmi_pos; gcongr)
    have h4 := hb0 (s / nmi)
    simp only [payloadFlops]
    gcongr

/-- The operating items by FLOPS grow with the passengers. -/
theorem C143_operating_flops {n m neng thrust S zf range mach cargo : ℝ} (h : n ≤ m) (hr : 0 ≤ range) (hm : 0 ≤ mach)
    (coach : Option ℝ) (wt ft' : List ℕ) :
    (operatingItemsFlops n neng thrust S zf range mach cargo coach wt ft').total
      ≤ (operatingItemsFlops m neng thrust S zf range mach cargo coach wt ft').total := by
  have hlb := lb_pos
  have hnm := nmi_pos
  have h1 := attendants_mono h
  have h2 := flightCrew_mono h
  have h3 : galleyCrew n ≤ galleyCrew m := by
    unfold galleyCrew
    split_ifs with h1 h2 h2
    · have : (⌊n / 250⌋ : ℝ) ≤ (⌊m / 250⌋ : ℝ) := by exact_mod_cast Int.floor_le_floor (by linarith)
      linarith
    · exfalso; linarith
    · have : (0 : ℤ) ≤ ⌊m / 250⌋ := Int.floor_nonneg.2 (by linarith)
      have : (0 : ℝ) ≤ (⌊m / 250⌋ : ℤ) := by exact_mod_cast this
      linarith
    · exact le_rfl
  have h4 : 5.164 * (classes n coach).1 + 3.846 * (classes n coach).2.1 + 2.529 * (classes n coach).2.2
      ≤ 5.164 * (classes m coach).1 + 3.846 * (classes m coach).2.1 + 2.529 * (classes m coach).2.2 := by
    cases coach <;> simp only [classes] <;> linarith
  have h5 : 0 ≤ (range / nmi / mach) ^ (0.255 : ℝ) := by positivity
  simp only [operatingItemsFlops]
  gcongr

/-! ### C145 Engines -/

/-- The number of nacelles counted is that of the engines, and half a one more when odd. -/
theorem C145_nacelles (n : ℕ) : tnac n = n + (if n % 2 = 0 then 0 else 1 / 2) := by
  have h2 : (n : ℝ) = 2 * ((n / 2 : ℕ) : ℝ) + ((n % 2 : ℕ) : ℝ) := by
    exact_mod_cast (Nat.div_add_mod n 2).symm
  have h : ⌊(n : ℝ) / 2⌋ = ((n / 2 : ℕ) : ℤ) := by
    rw [Int.floor_eq_iff]
    rcases Nat.mod_two_eq_zero_or_one n with h0 | h0 <;> rw [h0] at h2 <;> rw [Int.cast_natCast] <;> push_cast [-Nat.cast_ofNat] at h2 <;>
      generalize ((n / 2 : ℕ) : ℝ) = q at * <;> constructor <;> linarith
  unfold tnac
  rw [h, Int.cast_natCast]
  generalize ((n / 2 : ℕ) : ℝ) = q at *
  rcases Nat.mod_two_eq_zero_or_one n with h0 | h0 <;> simp [h0] at h2 ⊢ <;> linarith

example : tnac (2 : ℕ) = 2 ∧ tnac (3 : ℕ) = 3.5 := by
  constructor <;> rw [C145_nacelles] <;> norm_num

/-- An engine's weight is in proportion to its thrust, and less for short ranges; reverser and nacelle grow with thrust. -/
theorem C145_flops (ac : String) {t t' : ℝ} (k : ℝ) (hk : 0 < k) (ht : 0 < t) (htt : t ≤ t') (n : ℕ) {D L : ℝ} (hD : 0 ≤ D)
    (hL : 0 ≤ L) :
    0 < engineFlops ac t ∧ engineFlops ac (k * t) = k * engineFlops ac t
    ∧ engineFlops "short-range" t < engineFlops "long-range" t
    ∧ reverserFlops n t ≤ reverserFlops n t' ∧ nacelleFlops n D L t ≤ nacelleFlops n D L t' := by
  have h1 := lb_pos
  have h2 := lbf_pos
  have h3 := ft_pos
  have e : ∀ ac {t : ℝ}, 0 < t → engineFlops ac t
      = (if ac = "short-range" ∨ ac = "commuter" then t / lbf / 10.5 else t / lbf / 5.5) * lb := by
    intro ac t ht
    unfold engineFlops
    have : 0 < t / lbf := by positivity
    simp only [div_self this.ne', Real.one_rpow]
    ring
  have hn : 0 ≤ tnac n := by rw [C145_nacelles]; split_ifs <;> positivity
  have hkt : 0 < k * t := by positivity
  refine ⟨?_, ?_, ?_, ?_, ?_⟩
  · rw [e ac ht]; split_ifs <;> positivity
  · rw [e ac ht, e ac hkt]; split_ifs <;> ring
  · rw [e _ ht, e _ ht, if_pos (Or.inl rfl), if_neg (by decide)]
    have : 0 < t / lbf := by positivity
    refine mul_lt_mul_of_pos_right ?_ h1
    rw [div_lt_div_iff₀ (by norm_num) (by norm_num)]
    linarith
  · unfold reverserFlops; gcongr
  · unfold nacelleFlops; gcongr

example : engineFlops "long-range" (2 * 100000) = 2 * engineFlops "long-range" 100000 :=
  (C145_flops "long-range" 2 (by norm_num) (by norm_num) le_rfl 0 le_rfl le_rfl).2.1

/-- Raymer's starter for engines of weight `w` in pounds. -/
noncomputable def starterSpec (n w : ℝ) : ℝ := 49.19 * (n * w / 1000) ^ (0.541 : ℝ) * lb

/-- The correlation wants pounds and is given kilograms, so the starter is too light. -/
theorem C145_starter_counterexample (ac : String) {n thrust length mach zf wnac : ℝ} (hn : 0 < n) (ht : 0 < thrust) :
    (totalPropRaymer ac n thrust length mach zf wnac).starter
      < starterSpec n (engineFlops ac thrust / lb) := by
  have h1 := lb_pos
  have hw := (C145_flops ac 1 one_pos ht le_rfl 0 le_rfl le_rfl).1
  have hl : engineFlops ac thrust < engineFlops ac thrust / lb := by
    rw [lt_div_iff₀ h1]
    have : lb < 1 := by norm_num [lb]
    nlinarith
  simp only [totalPropRaymer, totalProp, starterSpec]
  gcongr

/-- In Raymer's vertical tail the answer "no" counts as a T-tail. -/
theorem C145_flag_raymer_counterexample {S AR tc sweep nult tow arm : ℝ} (hS : 0 < S) (hAR : 0 < AR) (htc : 0 < tc)
    (hs : 0 < cos sweep) (hn : 0 < nult) (ht : 0 < tow) (ha : 0 < arm) :
    tailVerticalRaymer S AR tc sweep nult tow arm (.str "no") = tailVerticalRaymer S AR tc sweep nult tow arm (.bool true)
    ∧ tailVerticalRaymer S AR tc sweep nult tow arm (.bool false)
      < tailVerticalRaymer S AR tc sweep nult tow arm (.str "no") := by
  have h1 := lb_pos
  have h2 := ft_pos
  constructor
  · simp [tailVerticalRaymer, Flag.truthy]
  · have hno : (Flag.str "no").truthy = true := by decide
    simp only [tailVerticalRaymer, hno]
    simp only [Flag.truthy]
    norm_num
    have : (1 : ℝ) < 2 ^ (9 / 40 : ℝ) := Real.one_lt_rpow (by norm_num) (by norm_num)
    gcongr
    linarith

/-! ### C146 The FLOPS wing -/

/-- The bending material is the load factor times the gross weight relieved by engines and by the wing itself. -/
theorem C146_relief {DG caye w1nir w2 w3 : ℝ} (h : 0 ≤ w1nir) :
    wwing DG caye w1nir w2 w3 - w2 - w3 = w1nir * (DG * caye - wwing DG caye w1nir w2 w3) := by
  have : 1 + w1nir ≠ 0 := by positivity
  unfold wwing
  field_simp
  ring

/-- So the wing weighs at least its shear and other material and at most the gross weight, and grows with the load, when
the gross weight exceeds that material. -/
theorem C146_bounds {DG caye w w' w2 w3 : ℝ} (h : 0 ≤ w) (hw : w ≤ w') (hd : w2 + w3 ≤ DG * caye) :
    w2 + w3 ≤ wwing DG caye w w2 w3 ∧ wwing DG caye w w2 w3 ≤ DG * caye
    ∧ wwing DG caye w w2 w3 ≤ wwing DG caye w' w2 w3 := by
  have h1 : 0 < 1 + w := by positivity
  have h2 : 0 < 1 + w' := by linarith
  have e : ∀ x, wwing DG caye x w2 w3 = (DG * caye * x + w2 + w3) / (1 + x) := by intro x; unfold wwing; ring
  rw [e, e]
  refine ⟨?_, ?_, ?_⟩
  · rw [le_div_iff₀ h1]; nlinarith
  · rw [div_le_iff₀ h1]; nlinarith
  · rw [div_le_div_iff₀ h1 h2]; nlinarith

example : wwing 100000 1 0.1 3000 5000 = 180000 / 11 := by norm_num [wwing]

/-- The constants of a short-range aircraft, spelt as everywhere else, are those of a large transport. -/
theorem C146_type_counterexample : wingConstants "short-range" = wingConstants "long-range"
    ∧ wingConstants "commuter" ≠ wingConstants "long-range" := by
  constructor
  · simp [wingConstants]
  · simp [wingConstants]; norm_num

/-- A vehicle with two fuselages has no wing weight. -/
theorem C146_fuselages_counterexample (ac : String) (S b tr sweep tc flap nult tow new faert fstrt fcomp nwings : ℝ) :
    wingFlopsSimple ac S b tr sweep tc flap nult tow new faert fstrt fcomp nwings 2 = none := rfl

/-- With one fuselage it has one, and the engines on the wing reduce it. -/
theorem C146_engines_partial (ac : String) {S b tr sweep tc flap nult tow new new' faert fstrt fcomp nwings : ℝ}
    (htow : 0 ≤ tow) (hn : new ≤ new')
    (hw : 0 ≤ (wingParts (wingConstants ac) (btSimple ((b / ft) ^ 2 / (S / ft ^ 2)) tr sweep tc faert fstrt) (b / ft) nult
      fcomp faert 1 nwings (flap * (S / ft ^ 2)) (S / ft ^ 2) (tow / lb)).1) :
    ∃ w w', wingFlopsSimple ac S b tr sweep tc flap nult tow new faert fstrt fcomp nwings 1 = some w
      ∧ wingFlopsSimple ac S b tr sweep tc flap nult tow new' faert fstrt fcomp nwings 1 = some w' ∧ w' ≤ w := by
  have h1 := lb_pos
  refine ⟨_, _, rfl, rfl, ?_⟩
  refine mul_le_mul_of_nonneg_right ?_ h1.le
  have e : ∀ D c x y z, wwing D c x y z = (D * c * x + y + z) / (1 + x) := by intros; unfold wwing; ring
  rw [e, e]
  have hd : 0 ≤ tow / lb := by positivity
  gcongr

/-- What the complex method divides by, as in the manual. -/
noncomputable def denSpec (AR faert fstrt sa : ℝ) : ℝ :=
  AR ^ (0.25 * fstrt) * (1 + (0.5 * faert - 0.16 * fstrt) * sa ^ 2 + 0.03 * caya AR * (1 - 0.5 * faert) * sa)

/-- For a wing with neither tailoring nor struts the denominator is one: sweep has no effect, though it should for every
swept wing of aspect ratio above five. -/
theorem C146_sweep_counterexample {AR sa : ℝ} (hAR : 5 < AR) (hs : 0 < sa) :
    denComplex AR 0 0 sa = some 1 ∧ 1 < denSpec AR 0 0 sa := by
  constructor
  · norm_num [denComplex]
  · have : caya AR = AR - 5 := by unfold caya; rw [if_neg (by linarith)]
    simp only [denSpec, this]
    norm_num
    have : 0 < AR - 5 := by linarith
    positivity

/-- The chord at the side of the fuselage by linear interpolation between the first two stations. -/
noncomputable def sideChord (root semispan c1 y1 c2 y2 width : ℝ) : ℝ :=
  root * (c1 + (c2 - c1) * (width / 2) / ((y2 - y1) * semispan))

/-- The chord the code finds there is too small by the same amount again, for every tapered wing. -/
theorem C146_chord_counterexample {root semispan c1 y1 c2 y2 width : ℝ} (hr : root ≠ 0) (hc : c1 ≠ 0) :
    fuselageChord root semispan c1 y1 c2 y2 width
      = sideChord root semispan c1 y1 c2 y2 width - (root * c1 - sideChord root semispan c1 y1 c2 y2 width) := by
  unfold fuselageChord sideChord
  dsimp only
  generalize (y2 - y1) * semispan = b
  by_cases hb : b = 0
  · subst hb; simp
  field_simp
  ring

example : fuselageChord 10 20 1 0 0.5 0.5 4 = 8 ∧ sideChord 10 20 1 0 0.5 0.5 4 = 9 := by
  norm_num [fuselageChord, sideChord]

theorem addPoints_length (y step : ℝ) (n : ℕ) : (addPoints y step n).length = n := by
  induction n generalizing y with
  | zero => rfl
  | succ n ih => simp [addPoints, ih]

theorem addPoints_last (y step : ℝ) (n : ℕ) : (addPoints y step n).getLastD y = y + n * step := by
  induction n generalizing y with
  | zero => simp [addPoints]
  | succ n ih =>
    have h := ih (y + step)
    simp only [addPoints, List.getLastD_cons]
    rw [h]; push_cast; ring

theorem npoints_pos (a b d : ℝ) : 1 ≤ npoints a b d := le_max_left _ _

theorem intLoop_last (d : ℝ) (l : List ℝ) : ∀ a : ℝ, (intLoop d a l a).getLastD a = l.getLastD a := by
  induction l with
  | nil => intro a; rfl
  | cons e es ih =>
    intro a
    have hn := npoints_pos a e d
    have hlast : (addPoints a ((e - a) / npoints a e d) (npoints a e d)).getLastD a = e := by
      rw [addPoints_last]
      have : (npoints a e d : ℝ) ≠ 0 := by positivity
      field_simp
      ring
    simp only [intLoop]
    rw [hlast, List.getLastD_cons]
    cases hes : es with
    | nil => simp only [intLoop, List.append_nil, List.getLastD_nil]; exact hlast
    | cons x xs =>
      have h := ih e
      rw [hes] at h
      have hne : intLoop d e (x :: xs) e ≠ [] := by
        simp only [intLoop]
        intro h0
        have := congrArg List.length h0
        have h1 := npoints_pos e x d
        simp [addPoints_length] at this
        omega
      rw [← h, List.getLastD_eq_getLast?, List.getLastD_eq_getLast?, List.getLast?_append_of_ne_nil _ hne]
      rw [List.getLast?_eq_some_getLast hne]; rfl

/-- The stations run from the side of the fuselage to the tip. -/
theorem C146_stations (nsd e1 : ℝ) (rest : List ℝ) :
    (intStations nsd e1 rest).1.head? = some e1
    ∧ (intStations nsd e1 rest).1.getLastD e1 = rest.getLastD e1
    ∧ (intStations nsd e1 rest).1.length = (intStations nsd e1 rest).2 + 1 := by
  refine ⟨rfl, ?_, by simp [intStations]⟩
  simp only [intStations, List.getLastD_cons]
  exact intLoop_last _ _ _

/-- Widths of the intervals between successive points. -/
def gaps : List ℝ → List ℝ
  | a :: b :: l => (b - a) :: gaps (b :: l)
  | _ => []

theorem gaps_sum (l : List ℝ) : ∀ a : ℝ, (gaps (a :: l)).sum = l.getLastD a - a := by
  induction l with
  | nil => intro a; simp [gaps]
  | cons b l ih =>
    intro a
    simp only [gaps, List.sum_cons, ih b, List.getLastD_cons]; ring

theorem zip_gaps (l : List ℝ) : l.zipWith (fun a b => b - a) l.tail = gaps l := by
  induction l with
  | nil => rfl
  | cons a l ih =>
    cases l with
    | nil => rfl
    | cons b l => simp only [List.tail_cons, List.zipWith_cons_cons, gaps] at ih ⊢; rw [ih]

theorem gaps_append (l : List ℝ) (x y : ℝ) : gaps (l ++ [x, y]) = gaps (l ++ [x]) ++ [y - x] := by
  induction l with
  | nil => rfl
  | cons a l ih =>
    cases l with
    | nil => rfl
    | cons b l => simp only [List.cons_append, gaps] at ih ⊢; rw [ih]

theorem gaps_dropLast (l : List ℝ) (x : ℝ) : (gaps (l ++ [x])).dropLast = gaps l := by
  rcases List.eq_nil_or_concat l with rfl | ⟨l', y, rfl⟩
  · rfl
  · simp only [List.concat_eq_append, List.append_assoc, List.cons_append, List.nil_append]
    rw [gaps_append, List.dropLast_concat]

/-- The area found for a wing of constant chord is that outboard of the third station: the two innermost intervals are left
out. -/
theorem C146_area_partial (c a b d : ℝ) (l : List ℝ) :
    areaComplex c (a :: b :: d :: l) = c * (l.getLastD d - d) := by
  have h : (usedStations (a :: b :: d :: l)).2 = (gaps ((d :: l).reverse)).map fun x => -x := by
    simp only [usedStations, zip_gaps]
    rw [show (a :: b :: d :: l).reverse = ((d :: l).reverse ++ [b]) ++ [a] by simp, gaps_dropLast, gaps_dropLast]
  unfold areaComplex
  rw [h, List.map_map]
  have hs : ∀ xs : List ℝ, (xs.map ((fun d => (c + c) * d / 2) ∘ fun x => -x)).sum = -c * xs.sum := by
    intro xs
    induction xs with
    | nil => simp
    | cons x xs ih => simp only [List.map_cons, List.sum_cons, ih, Function.comp]; ring
  rw [hs]
  cases hr : (d :: l).reverse with
  | nil => simp at hr
  | cons t r =>
    rw [gaps_sum]
    have h1 : l.getLastD d = t := by
      have := congrArg List.head? hr
      rw [List.head?_reverse] at this
      simp only [List.head?_cons, List.getLast?_cons] at this
      have := Option.some_injective _ this
      rw [← this, List.getLastD_eq_getLast?]
    have h2 : r.getLastD t = d := by
      have := congrArg List.getLast? hr
      rw [List.getLast?_reverse] at this
      simp only [List.head?_cons, List.getLast?_cons] at this
      have := Option.some_injective _ this
      rw [this, List.getLastD_eq_getLast?]
    rw [h1, h2]; ring

/-- So the area is not that of the wing, nor the aspect ratio derived from it. -/
theorem C146_area_counterexample : areaComplex 1 [0.1, 0.4, 0.7, 1] ≠ 1 * (1 - 0.1) := by
  rw [C146_area_partial]; norm_num

/-! ### C147 Gear, fuselage, tails and anti-icing of FLOPS -/

/-- The manual's strut length, all in inches. -/
noncomputable def strutSpec (d dih y width : ℝ) : ℝ :=
  12 * (d / ft) + (0.26 - tan dih) * (12 * (y / ft) - 6 * (width / ft))

/-- The distance of the engine from the centre line is taken in feet where inches are meant: the strut is too short
whenever the dihedral is below 14.5 degrees. -/
theorem C147_strut_counterexample {d dih y width length : ℝ} (hd : tan dih < 0.26) (hy : 0 < y) :
    strut (some (d, dih, y)) width length < strutSpec d dih y width := by
  have h2 := ft_pos
  unfold strut strutSpec
  dsimp only
  have : 0 < (0.26 - tan dih) * (11 * (y / ft)) := mul_pos (by linarith) (by positivity)
  linarith

/-- And for small nacelles its length is negative, so the gear has no weight. -/
theorem C147_gear_counterexample : gearFlops "medium-range" 50000 3000000 (some (0.3048, 0, 3.048)) 3.048 30 = none
    ∧ 0 < strutSpec 0.3048 0 3.048 3.048 := by
  constructor
  · unfold gearFlops
    dsimp only
    rw [if_pos]
    right
    norm_num [strut, ft]
  · norm_num [strutSpec, ft]

/-- Where the gear has a weight, it grows with the take-off weight and falls with the design range. -/
theorem C147_gear_partial {ac : String} {tow tow' r r' width length : ℝ} {eng : Option (ℝ × ℝ × ℝ)} {g g' : ℝ × ℝ}
    (ht : 0 ≤ tow) (htt : tow ≤ tow') (hr : r' ≤ r) (h : gearFlops ac tow r eng width length = some g)
    (h' : gearFlops ac tow' r' eng width length = some g') : 0 ≤ g.1 ∧ 0 ≤ g.2 ∧ g.1 ≤ g'.1 ∧ g.2 ≤ g'.2 := by
  have h1 := lb_pos
  have h2 := nmi_pos
  unfold gearFlops at h h'
  dsimp only at h h'
  split_ifs at h h' with c c'
  push Not at c c'
  obtain rfl := Option.some_injective _ h
  obtain rfl := Option.some_injective _ h'
  have hx := c.2
  have hw := c.1
  have hrf : 0 ≤ rfact ac := by unfold rfact; split_ifs <;> norm_num
  have hww : landingWeight ac tow r ≤ landingWeight ac tow' r' := by
    rcases eq_or_lt_of_le ht with h0 | h0
    · subst h0
      have : landingWeight ac 0 r = 0 := by simp [landingWeight]
      rw [this]; exact c'.1
    · have h3 : 0 ≤ 1 - rfact ac * (r / nmi) := by
        by_contra hc
        push Not at hc
        have : landingWeight ac tow r < 0 := mul_neg_of_pos_of_neg (by positivity) hc
        linarith
      have h4 : rfact ac * (r' / nmi) ≤ rfact ac * (r / nmi) := by gcongr
      unfold landingWeight
      have h5 : 0 ≤ tow' / lb := by have := ht.trans htt; positivity
      have h6 : tow / lb ≤ tow' / lb := by gcongr
      have h7 : 1 - rfact ac * (r / nmi) ≤ 1 - rfact ac * (r' / nmi) := by linarith
      exact mul_le_mul h6 h7 h3 h5
  have hw' := hw.trans hww
  refine ⟨by positivity, by positivity, ?_, ?_⟩ <;> dsimp only <;> gcongr

example : ∃ g, gearFlops "medium-range" 50000 3000000 (some (2, 0, 5)) 3 30 = some g := by
  unfold gearFlops
  dsimp only
  rw [if_neg]
  · exact ⟨_, rfl⟩
  · have : rfact "medium-range" = 0.00004 := by simp [rfact]
    norm_num [landingWeight, strut, this, lb, nmi, ft]

/-- Fuselage and tails grow with their dimensions and the take-off weight. -/
theorem C147_structures {L L' w w' h h' fnef S S' tr tow tow' : ℝ} {c : Bool} (hL : 0 ≤ L) (hLL : L ≤ L') (hw : 0 ≤ w)
    (hww : w ≤ w') (hh : 0 ≤ h) (hhh : h ≤ h') (hf : 0 ≤ fnef) (hS : 0 ≤ S) (hSS : S ≤ S') (htr : 0 ≤ tr) (ht : 0 ≤ tow)
    (htt : tow ≤ tow') :
    fuselageFlops c L w h fnef ≤ fuselageFlops c L' w' h' fnef
    ∧ fuselageFlops false L w h fnef ≤ fuselageFlops true L w h fnef
    ∧ tailVerticalFlops S tr tow ≤ tailVerticalFlops S' tr tow'
    ∧ tailHorizontalFlops S tr tow ≤ tailHorizontalFlops S' tr tow' := by
  have h1 := lb_pos
  have h2 := ft_pos
  have hS' := hS.trans hSS
  have hL' := hL.trans hLL
  have ht' := ht.trans htt
  refine ⟨?_, ?_, ?_, ?_⟩
  · unfold fuselageFlops
    dsimp only
    have : (0 : ℝ) ≤ if c then 1 else 0 := by split_ifs <;> norm_num
    gcongr
  · unfold fuselageFlops
    dsimp only
    gcongr
    norm_num
  · unfold tailVerticalFlops; gcongr
  · unfold tailHorizontalFlops; gcongr

example : fuselageFlops false 30 4 4 0 ≤ fuselageFlops true 30 4 4 0 :=
  (C147_structures (c := true) (L := 30) (w := 4) (h := 4) (fnef := 0) (S := 1) (tr := 1) (tow := 1) (by norm_num) le_rfl
    (by norm_num) le_rfl (by norm_num) le_rfl le_rfl (by norm_num) le_rfl (by norm_num) (by norm_num) le_rfl).2.1

/-- Anti-icing for nacelles of diameter `d`. -/
noncomputable def antiIceSpec (span sweep neng width d : ℝ) : ℝ := antiIceFlops span sweep neng width (some d)

/-- The nacelles of a vehicle get no anti-icing: the entry asked for is one that vehicles do not have. -/
theorem C147_antiIce_counterexample {span sweep neng width d : ℝ} (hn : 0 < neng) (hd : 0 < d) :
    antiIceFlops span sweep neng width (nacelleEntry [] d) < antiIceSpec span sweep neng width d := by
  have h2 := ft_pos
  have : nacelleEntry [] d = none := by simp [nacelleEntry, vehicleKeys]
  rw [this]
  unfold antiIceSpec antiIceFlops
  simp only [Option.map_none, Option.getD_none, Option.map_some, Option.getD_some]
  have : 0 < 3.8 * (d / ft) * neng := by positivity
  linarith

end Verif.Weights
