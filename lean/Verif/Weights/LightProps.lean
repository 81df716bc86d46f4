import Verif.Weights.Light
import Verif.Weights.CommonProps

/-!
C148 (light aircraft), C149 (component masses of light aircraft and blended wing bodies), C150 (blended wing bodies,
human-powered aircraft and UAVs).
-/

namespace Verif.Weights
open Real Verif.Vehicle

theorem inch_pos : 0 < inch := by norm_num [inch]
theorem gallon_pos : 0 < gallon := by norm_num [gallon, inch]

/-! ### C148 Light aircraft -/

/-- A light aircraft has a weight statement exactly when it has a wing, a horizontal tail, and fuel in tanks of some
volume. -/
theorem C148_defined_partial (v : GaIn) :
    (gaEmpty v).isSome ↔ ∃ m n int dens w h, v.fuel = some (.tank m n int dens) ∧ v.wing = some w ∧ v.hor = some h
      ∧ m / dens / gallon + int / gallon ≠ 0 := by
  constructor
  · intro h
    unfold gaEmpty at h
    split at h
    · rename_i m n int dens w hh h1 h2 h3
      refine ⟨m, n, int, dens, w, hh, h1, h2, h3, fun h0 => ?_⟩
      simp [gaSystems, h0] at h
    · simp at h
  · rintro ⟨m, n, int, dens, w, h, h1, h2, h3, h0⟩
    unfold gaEmpty
    rw [h1, h2, h3]
    simp [gaSystems, h0]

/-- An aircraft for the examples. -/
noncomputable def exLight : GaIn :=
  { Sref := 16, nult := 5.7, tow := 1100, pax := 4, cargo := 0, q := 2400, mach := 0.2, net := .combustion 134000 1,
    fuel := some (.tank 150 2 0 720), wing := some ⟨16, 11, 0.7, 0.12, 0, 2⟩, hor := some ⟨3, 3.5, 0.6, 0.1, 0, 7⟩,
    vert := some (⟨1.7, 1.5, 0.5, 0.1, 0.4, 7⟩, .bool false), fuseWet := 30, dp := 0, width := 1.1, height := 1.5,
    length := 8, volume := 5, seats := 4, strutMain := 0.3, strutNose := 0.3, avionics := some 15, hasAc := false }

example : (gaEmpty exLight).isSome := by
  rw [C148_defined_partial]
  refine ⟨_, _, _, _, _, _, rfl, rfl, rfl, ?_⟩
  have := gallon_pos
  positivity

/-- Electric aircraft, which have no fuel, tailless ones and canards have none. -/
theorem C148_undefined_counterexample (v : GaIn) :
    gaEmpty { v with fuel := none } = none ∧ gaEmpty { v with hor := none } = none
    ∧ gaEmpty { v with wing := none } = none := by
  refine ⟨rfl, ?_, ?_⟩
  · unfold gaEmpty; split <;> simp_all
  · unfold gaEmpty; split <;> simp_all

/-- Structures and systems are those of their items, and empty weight, payload and fuel make the take-off weight. -/
theorem C148_totals (v : GaIn) {o : GaOut} (h : gaEmpty v = some o) :
    o.structures = [o.wing, o.hor, o.vert, o.fuselage, o.gearMain, o.gearNose].sum
    ∧ o.systems = [o.control, o.hyd, o.avionics, o.elec, o.ac, o.furnish].sum
    ∧ o.payload.total = o.payload.pax + o.payload.bag + o.payload.cargo
    ∧ o.empty = o.structures + o.propulsion + o.systems ∧ o.zeroFuel + o.fuel = v.tow
    ∧ o.zeroFuel = o.empty + o.payload.total := by
  unfold gaEmpty at h
  split at h
  · simp only [Option.map_eq_some_iff] at h
    obtain ⟨s, -, rfl⟩ := h
    simp only [List.sum_cons, List.sum_nil, gaPayload]
    refine ⟨by ring, by ring, trivial, trivial, by ring, by ring⟩
  · simp at h

theorem gaSystems_total {uav Vfuel Vint tanks neng length span tow nult seats mach ac : ℝ} {s : GaSys}
    (hs : gaSystems uav Vfuel Vint tanks neng length span tow nult seats mach ac = some s) :
    s.total = s.control + s.hyd + s.ac + s.avionics + s.elec + s.furnish + s.fuelSys := by
  unfold gaSystems at hs
  dsimp only at hs
  split_ifs at hs
  obtain rfl := Option.some_injective _ hs
  rfl

/-- The fuel system is computed but left out of the empty weight reported, which is less than the sum of the component
weights by it. -/
theorem C148_fuel_system_counterexample (v : GaIn) {o : GaOut} (h : gaEmpty v = some o) :
    o.empty = o.wtEmpty - o.fuelSystem := by
  unfold gaEmpty at h
  split at h
  · simp only [Option.map_eq_some_iff] at h
    obtain ⟨s, hs, rfl⟩ := h
    simp only [gaSystems_total hs]; ring
  · simp at h

/-- And that weight is positive. -/
theorem C148_fuel_system_pos {uav Vfuel Vint tanks neng length span tow nult seats mach ac : ℝ} (hV : 0 < Vfuel)
    (hi : 0 ≤ Vint) (ht : 0 < tanks) (hn : 0 < neng) {s : GaSys}
    (hs : gaSystems uav Vfuel Vint tanks neng length span tow nult seats mach ac = some s) : 0 < s.fuelSys := by
  have h1 := lb_pos
  have h2 := gallon_pos
  unfold gaSystems at hs
  dsimp only at hs
  split_ifs at hs
  obtain rfl := Option.some_injective _ hs
  dsimp only
  positivity

/-- A second evaluation of the same vehicle fails: its fuel has been replaced. -/
theorem C148_repeat_counterexample (v : GaIn) (o : GaOut) : gaEmpty (gaAfter v o) = none := rfl

/-- The taper ratio of the horizontal tail has no effect (the span is passed in its place). -/
theorem C148_taper_counterexample (v : GaIn) {h : GaSurf} (hv : v.hor = some h) (t : ℝ) :
    gaEmpty { v with hor := some { h with tr := t } } = gaEmpty v := by
  unfold gaEmpty
  rw [hv]
  dsimp only
  rcases v.fuel with _ | (_ | _) <;> rcases v.wing with _ | _ <;> rfl

/-- Wing, tails, fuselage and gear grow with load and take-off weight. -/
theorem C148_monotone {S AR q tr tc fuel nult nult' tow tow' sweep w h l arm V dp strutM strutN : ℝ} (hS : 0 ≤ S) (hAR : 0 ≤ AR)
    (hq : 0 ≤ q) (htr : 0 ≤ tr) (htc : 0 ≤ tc) (hc : 0 ≤ cos sweep) (hf : 0 ≤ fuel) (hn : 0 ≤ nult) (hnn : nult ≤ nult')
    (ht : 0 ≤ tow) (htt : tow ≤ tow') (hw : 0 ≤ w) (hh : 0 ≤ h) (hl : 0 ≤ l)
    (hsM : 0 ≤ strutM) (hsN : 0 ≤ strutN) (f : Flag) :
    gaWing S fuel AR sweep q tr tc nult tow ≤ gaWing S fuel AR sweep q tr tc nult' tow'
    ∧ gaHorizontal S AR sweep q tr tc nult tow ≤ gaHorizontal S AR sweep q tr tc nult' tow'
    ∧ gaVertical S AR sweep q tr tc nult tow f ≤ gaVertical S AR sweep q tr tc nult' tow' f
    ∧ gaFuselage S nult tow w h l arm q V dp ≤ gaFuselage S nult' tow' w h l arm q V dp
    ∧ (gaGear tow nult strutM strutN).1 ≤ (gaGear tow' nult' strutM strutN).1
    ∧ (gaGear tow nult strutM strutN).2 ≤ (gaGear tow' nult' strutM strutN).2 := by
  have h1 := lb_pos
  have h2 := ft_pos
  have h3 := lbf_pos
  have h4 := inch_pos
  have hx : nult * (tow / lb) ≤ nult' * (tow' / lb) := by
    have := hn.trans hnn
    gcongr
  have hx0 : 0 ≤ nult * (tow / lb) := by positivity
  have hfl : (0 : ℝ) ≤ if f.isYes then 1 else 0 := by split_ifs <;> norm_num
  refine ⟨?_, ?_, ?_, ?_, ?_, ?_⟩
  · unfold gaWing; gcongr
  · unfold gaHorizontal; gcongr
  · unfold gaVertical; gcongr
  · unfold gaFuselage; dsimp only; gcongr
  · unfold gaGear; dsimp only; gcongr
  · unfold gaGear; dsimp only; gcongr

example : (gaGear 1000 5.7 0.3 0.3).1 ≤ (gaGear 1100 5.7 0.3 0.3).1 :=
  (C148_monotone (S := 1) (AR := 1) (q := 1) (tr := 1) (tc := 1) (fuel := 1) (sweep := 0) (w := 1) (h := 1) (l := 1)
    (arm := 1) (V := 1) (dp := 1) (by norm_num) (by norm_num) (by norm_num) (by norm_num) (by norm_num) (by norm_num)
    (by norm_num) (by norm_num) le_rfl (by norm_num) (by norm_num) (by norm_num) (by norm_num) (by norm_num) (by norm_num)
    (by norm_num) (.bool true)).2.2.2.2.1

/-- Without fuel the wing weighs nothing, whatever its size. -/
theorem C148_wing_counterexample (S AR sweep q tr tc nult tow : ℝ) : gaWing S 0 AR sweep q tr tc nult tow = 0 := by
  have : (0 : ℝ) ^ (0.0035 : ℝ) = 0 := Real.zero_rpow (by norm_num)
  simp only [gaWing, zero_div, this, mul_zero, zero_mul]

/-- The furnishings of an aircraft below 506 kilograms have negative weight. -/
theorem C148_furnish_counterexample {uav Vfuel Vint tanks neng length span tow nult seats mach ac : ℝ} (h : tow ≤ 506)
    {s : GaSys} (hs : gaSystems uav Vfuel Vint tanks neng length span tow nult seats mach ac = some s) :
    s.furnish < 0 := by
  unfold gaSystems at hs
  dsimp only at hs
  split_ifs at hs
  obtain rfl := Option.some_injective _ hs
  dsimp only
  refine mul_neg_of_neg_of_pos ?_ lb_pos
  have : tow / lb ≤ 506 / lb := by have := lb_pos; gcongr
  norm_num [lb] at this ⊢
  linarith

/-- Doubling the take-off weight raises the flight controls by less than a hundredth of a percent: the scale factor 10⁻⁴ of
the weight is applied as an exponent. -/
theorem C148_control_counterexample {uav Vfuel Vint tanks neng length span tow nult seats mach ac : ℝ} (ht : 0 < tow)
    (hn : 0 < nult) (hl : 0 < length) (hb : 0 < span) {s s' : GaSys}
    (hs : gaSystems uav Vfuel Vint tanks neng length span tow nult seats mach ac = some s)
    (hs' : gaSystems uav Vfuel Vint tanks neng length span (2 * tow) nult seats mach ac = some s') :
    s'.control < 1.0001 * s.control := by
  have h1 := lb_pos
  have h2 := ft_pos
  unfold gaSystems at hs hs'
  dsimp only at hs hs'
  split_ifs at hs hs'
  obtain rfl := Option.some_injective _ hs
  obtain rfl := Option.some_injective _ hs'
  dsimp only
  have hp : (10 : ℝ) ^ (-4 : ℝ) = 0.0001 := by
    rw [show (-4 : ℝ) = ((-4 : ℤ) : ℝ) by norm_num, Real.rpow_intCast]; norm_num
  rw [hp]
  have hW : 0 < tow / lb := by positivity
  have e : (nult * (2 * tow / lb) ^ (0.0001 : ℝ)) ^ (0.8 : ℝ)
      = (2 : ℝ) ^ (0.00008 : ℝ) * (nult * (tow / lb) ^ (0.0001 : ℝ)) ^ (0.8 : ℝ) := by
    rw [mul_div_assoc, Real.mul_rpow (by norm_num) hW.le, mul_left_comm, Real.mul_rpow (by positivity) (by positivity),
      ← Real.rpow_mul (by norm_num)]
    norm_num
  rw [e]
  have hk : (2 : ℝ) ^ (0.00008 : ℝ) < 1.0001 := by
    have := rpow_one_add_le_one_add_mul_self (s := (1 : ℝ)) (p := (0.00008 : ℝ)) (by norm_num) (by norm_num) (by norm_num)
    norm_num at this ⊢
    linarith
  have hpos : 0 < 0.053 * (length / ft) ^ (1.536 : ℝ) * (span / ft) ^ (0.371 : ℝ)
      * (nult * (tow / lb) ^ (0.0001 : ℝ)) ^ (0.8 : ℝ) * lb := by positivity
  nlinarith

/-- The pressurized fuselage with the volume in cubic feet, as the correlation wants. -/
noncomputable def gaFuselageSpec (S nult tow w h l arm q V dp : ℝ) : ℝ :=
  (0.052 * (S / ft ^ 2) ^ (1.086 : ℝ) * (nult * (tow / lb)) ^ (0.177 : ℝ) * (|arm| / ft) ^ (-0.051 : ℝ)
    * (l / (0.025 * ((h + w) / 2) + 1 * inch)) ^ (-0.072 : ℝ) * (q / (lbf / ft ^ 2)) ^ (0.241 : ℝ)
    + 11.9 * (V / ft ^ 3 * (dp / (lbf / ft ^ 2))) ^ (0.271 : ℝ)) * lb

/-- A pressurized fuselage is too light: the volume enters in cubic metres. -/
theorem C148_volume_counterexample {S nult tow w h l arm q V dp : ℝ} (hV : 0 < V) (hdp : 0 < dp) :
    gaFuselage S nult tow w h l arm q V dp < gaFuselageSpec S nult tow w h l arm q V dp := by
  have h1 := lb_pos
  have h2 := ft_pos
  have h3 := lbf_pos
  have hv : V < V / ft ^ 3 := by
    rw [lt_div_iff₀ (by positivity)]
    have : ft ^ 3 < 1 := by norm_num [ft]
    nlinarith
  unfold gaFuselageSpec gaFuselage
  dsimp only
  gcongr

/-- Of two results of the gear correlation, the first changes when the second is computed. -/
theorem C148_alias_counterexample : ∃ a b : ℝ × ℝ × ℝ × ℝ, gaGearRead [a] 0 ≠ gaGearRead [a, b] 0 := by
  refine ⟨(1, 1, 1, 1), (0, 1, 1, 1), ?_⟩
  have h1 := lb_pos
  have h4 := inch_pos
  simp only [gaGearRead, List.length_cons, List.length_nil]
  norm_num
  intro h
  have h := congrArg Prod.fst h
  simp only [gaGear, zero_div, mul_zero] at h
  rw [Real.zero_rpow (by norm_num)] at h
  have : 0 < 0.095 * (1 * (1 / lb)) ^ (0.768 : ℝ) * (1 / inch / 12) ^ (0.409 : ℝ) * lb := by positivity
  linarith

/-! ### C149 Component masses -/

/-- The masses of the vehicle's containers are structures, propulsion and payload: systems and fuel do not count. -/
theorem C149_light_partial (v : GaIn) {o : GaOut} (h : gaEmpty v = some o) :
    vehicleMass (gaWritten o) = v.tow - o.systems - o.fuel
    ∧ vehicleMass (gaWritten o) = o.structures + o.propulsion + o.payload.total := by
  obtain ⟨h1, h2, h3, h4, h5, h6⟩ := C148_totals v h
  have hm : vehicleMass (gaWritten o) = o.structures + o.propulsion + o.payload.total := by
    simp only [gaWritten, vehicleMass, sumMass, massNode, itemMass]
    simp only [List.sum_cons, List.sum_nil] at h1
    rw [h1, h3]; ring
  exact ⟨by linarith, hm⟩

/-- So they fall short of the take-off mass of any aircraft whose systems and fuel have weight. -/
theorem C149_light_counterexample (v : GaIn) {o : GaOut} (h : gaEmpty v = some o) (hp : 0 < o.systems + o.fuel) :
    vehicleMass (gaWritten o) < v.tow := by
  rw [(C149_light_partial v h).1]; linarith

/-- The same for blended wing bodies, where gear, aft body, and operating items are left out as well. -/
theorem C149_bwb_partial (v : BwbIn) (hp : v.payload.total = v.payload.pax + v.payload.bag + v.payload.cargo) :
    let o := bwbEmpty v
    vehicleMass (bwbWritten o)
      = v.tow - o.aft - (o.gearMain + o.gearNose) - o.systems - o.oper.total - o.fuel := by
  intro o
  simp only [o, bwbEmpty, bwbWritten, vehicleMass, sumMass, massNode, itemMass, hp]
  ring

/-- An example. -/
noncomputable def exBwb : BwbIn :=
  { wing := some 20000, cabinArea := 200, aftArea := 50, aftTaper := 0.5, engines := 2, prop := 10000,
    sys := ⟨700, 500, 700, 400, 500, 5000, 1000, 0, 360⟩, payload := ⟨20000, 3000, 0, 23000⟩,
    oper := ⟨1500, 200, 300, 2000⟩, tow := 150000 }

theorem C149_bwb_counterexample : vehicleMass (bwbWritten (bwbEmpty exBwb)) ≠ exBwb.tow := by
  have h1 := lb_pos
  have h2 := ft_pos
  have hm : vehicleMass (bwbWritten (bwbEmpty exBwb)) = 20000 + cabin 200 150000 + 10000 + 23000 := by
    simp only [bwbEmpty, bwbWritten, vehicleMass, sumMass, massNode, itemMass, exBwb, Option.getD_some]; norm_num; ring
  have hc : cabin 200 150000 < 97000 := by
    have hx : (150000 / lb : ℝ) ^ (0.166552 : ℝ) ≤ 10 := by
      have h3 : (150000 / lb : ℝ) ≤ 10 ^ 6 := by norm_num [lb]
      calc (150000 / lb : ℝ) ^ (0.166552 : ℝ) ≤ ((10 : ℝ) ^ 6) ^ (0.166552 : ℝ) := by gcongr
        _ ≤ ((10 : ℝ) ^ 6) ^ (1 / 6 : ℝ) := by
            refine Real.rpow_le_rpow_of_exponent_le (by norm_num) (by norm_num)
        _ = 10 := by rw [← Real.rpow_natCast, ← Real.rpow_mul (by norm_num)]; norm_num
    have hy : (200 / ft ^ 2 : ℝ) ^ (1.061158 : ℝ) ≤ 3600 := by
      have h3 : (200 / ft ^ 2 : ℝ) ≤ 2153 := by norm_num [ft]
      have h5 : (200 / ft ^ 2 : ℝ) ^ (0.061158 : ℝ) ≤ 1.66 := by
        calc (200 / ft ^ 2 : ℝ) ^ (0.061158 : ℝ) ≤ (2153 : ℝ) ^ (0.061158 : ℝ) := by gcongr
          _ ≤ ((1.66 : ℝ) ^ (16 : ℕ)) ^ (0.061158 : ℝ) := by gcongr; norm_num
          _ ≤ ((1.66 : ℝ) ^ (16 : ℕ)) ^ (1 / 16 : ℝ) :=
              Real.rpow_le_rpow_of_exponent_le (by norm_num) (by norm_num)
          _ = 1.66 := by rw [← Real.rpow_natCast, ← Real.rpow_mul (by norm_num)]; norm_num
      have h6 : (200 / ft ^ 2 : ℝ) ^ (1.061158 : ℝ) = 200 / ft ^ 2 * (200 / ft ^ 2) ^ (0.061158 : ℝ) := by
        rw [show (1.061158 : ℝ) = 1 + 0.061158 by norm_num, Real.rpow_add (by positivity), Real.rpow_one]
      rw [h6]
      have : 0 ≤ (200 / ft ^ 2 : ℝ) ^ (0.061158 : ℝ) := by positivity
      nlinarith
    have hl : lb ≤ 0.46 := by norm_num [lb]
    calc cabin 200 150000 = 5.698865 * 0.316422 * (150000 / lb) ^ (0.166552 : ℝ) * (200 / ft ^ 2) ^ (1.061158 : ℝ) * lb := rfl
      _ ≤ 5.698865 * 0.316422 * 10 * 3600 * 0.46 := by gcongr
      _ < 97000 := by norm_num
  rw [hm]
  simp only [exBwb]
  intro h
  linarith

/-! ### C150 Blended wing bodies, human-powered aircraft, UAVs -/

/-- The statement of a blended wing body adds up to its take-off weight. -/
theorem C150_bwb (v : BwbIn) (hp : v.payload.total = v.payload.pax + v.payload.bag + v.payload.cargo)
    (ho : v.oper.total = v.oper.less + v.oper.crew + v.oper.attendants) :
    let o := bwbEmpty v
    [o.wing, o.aft, o.cabin, o.gearMain, o.gearNose, o.prop, o.sys.control, o.sys.apu, o.sys.elec, o.sys.avionics, o.sys.hyd,
      o.sys.furnish, o.sys.ac, o.sys.instruments, o.oper.less, o.oper.crew, o.oper.attendants, o.payload.pax,
      o.payload.bag, o.payload.cargo, o.fuel].sum = v.tow
    ∧ o.zeroFuel + o.fuel = v.tow ∧ o.operatingEmpty = o.empty + o.oper.total := by
  intro o
  simp only [o, bwbEmpty, List.sum_cons, List.sum_nil, hp, ho]
  refine ⟨by ring, by ring, trivial⟩

/-- Cabin and aft body grow with area, take-off weight and number of engines. -/
theorem C150_bodies {S S' tow tow' n n' taper : ℝ} (hS : 0 ≤ S) (hSS : S ≤ S') (ht : 0 ≤ tow) (htt : tow ≤ tow') (hn : 0 ≤ n)
    (hnn : n ≤ n') (htp : 0 ≤ taper) :
    cabin S tow ≤ cabin S' tow' ∧ aftBody n S taper tow ≤ aftBody n' S' taper tow' := by
  have h1 := lb_pos
  have h2 := ft_pos
  have hS' := hS.trans hSS
  have ht' := ht.trans htt
  have hn' := hn.trans hnn
  constructor
  · unfold cabin; gcongr
  · unfold aftBody; gcongr

example : cabin 200 150000 ≤ cabin 220 150000 :=
  (C150_bodies (n := 2) (taper := 0.5) (by norm_num) (by norm_num) (by norm_num) le_rfl (by norm_num) le_rfl
    (by norm_num)).1

/-- The component stored as nose gear is a main gear and the other way round. -/
theorem C150_gear_counterexample : bwbGearKinds ≠ (.nose, .main) := by decide

/-- A human-powered aircraft without a fuselage weighs what its parts do. -/
theorem C150_human_partial (nult gw qm : ℝ) (w h t : Option HpSurf) :
    ∃ o, hpEmpty nult gw qm w h t false = some o ∧ o.2.2.2.2 = o.1 + o.2.1 + o.2.2.1 + o.2.2.2.1 := by
  refine ⟨_, rfl, ?_⟩
  simp only; ring

/-- With one it has no weight. -/
theorem C150_human_counterexample (nult gw qm : ℝ) (w h t : Option HpSurf) : hpEmpty nult gw qm w h t true = none := rfl

/-- Its wing grows with load and gross weight, its tail with the dynamic pressure; both have positive weight. -/
theorem C150_human_parts {S b c ribs tc e nult nult' gw gw' qm qm' : ℝ} (hS : 0 < S) (hb : 0 < b) (hc : 0 ≤ c) (hr : 0 < ribs)
    (htc : 0 ≤ tc) (he : 0 ≤ e) (hn : 0 ≤ nult) (hnn : nult ≤ nult') (hg : 0 ≤ gw) (hgg : gw ≤ gw') (hq : 0 ≤ qm)
    (hqq : qm ≤ qm') :
    0 < hpWing S b c ribs tc e nult gw ∧ hpWing S b c ribs tc e nult gw ≤ hpWing S b c ribs tc e nult' gw'
    ∧ 0 < hpTail S b c ribs tc qm ∧ hpTail S b c ribs tc qm ≤ hpTail S b c ribs tc qm' := by
  have hn' := hn.trans hnn
  have hng : nult * gw ≤ nult' * gw' := by gcongr
  have hng0 : 0 ≤ nult * gw := by positivity
  have hqs : qm * S ≤ qm' * S := by gcongr
  have hqs0 : 0 ≤ qm * S := by positivity
  unfold hpWing hpTail
  dsimp only
  refine ⟨?_, ?_, ?_, ?_⟩
  · have : 0 < 1 + (nult * gw / 100 - 2) / 4 := by linarith
    positivity
  · gcongr
  · have : 0 < 1 + (qm * S / 78.5 - 1) / 12 := by
      have : 0 ≤ qm * S / 78.5 := by positivity
      linarith
    positivity
  · gcongr

example : 0 < hpWing 30 34 0.9 100 0.12 2 2 105 :=
  (C150_human_parts (qm := 1) (by norm_num) (by norm_num) (by norm_num) (by norm_num) (by norm_num) (by norm_num)
    (by norm_num) le_rfl (by norm_num) le_rfl (by norm_num) le_rfl).1

/-- The UAV's empty weight grows with area and aspect ratio, and its weight force does not depend on gravity. -/
theorem C150_uav {S S' AR AR' g g' : ℝ} (hS : 0 ≤ S) (hSS : S ≤ S') (hA : 0 ≤ AR) (hAA : AR ≤ AR') (hg : 0 < g) (hg' : 0 < g') :
    uavEmpty S AR g ≤ uavEmpty S' AR' g ∧ uavEmpty S AR g * g = uavEmpty S AR g' * g' := by
  have hS' := hS.trans hSS
  have hA' := hA.trans hAA
  constructor
  · unfold uavEmpty; gcongr
  · unfold uavEmpty; field_simp

example : uavEmpty 1 1 9.80665 * 9.80665 = 5.58 := by norm_num [uavEmpty]


/-- **C148, thickness of the tails.** A thicker tail of the same area weighs less: as the minus 0.12th power of the relative
thickness for the horizontal and as the minus 0.49th power for the vertical one. -/
theorem C148_thickness (S AR sweep q tr tc nult tow k : ℝ) (f : Flag) (hk : 0 ≤ k) (htc : 0 ≤ tc) (hc : 0 ≤ cos sweep) :
    gaHorizontal S AR sweep q tr (k * tc) nult tow = k ^ (-0.12 : ℝ) * gaHorizontal S AR sweep q tr tc nult tow
    ∧ gaVertical S AR sweep q tr (k * tc) nult tow f = k ^ (-0.49 : ℝ) * gaVertical S AR sweep q tr tc nult tow f := by
  have e : 100 * (k * tc) / cos sweep = k * (100 * tc / cos sweep) := by ring
  have h0 : 0 ≤ 100 * tc / cos sweep := by positivity
  unfold gaHorizontal gaVertical
  rw [e, mul_rpow hk h0, mul_rpow hk h0]
  constructor <;> ring

example : (0 : ℝ) ≤ 2 ∧ (0 : ℝ) ≤ 0.12 ∧ 0 ≤ cos (0 : ℝ) := by norm_num

end Verif.Weights
