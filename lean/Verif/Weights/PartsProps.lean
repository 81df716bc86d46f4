import Verif.Weights.TransportProps
import Verif.Weights.CommonProps
import Verif.Weights.FlopsProps
import Verif.Weights.LightProps
import Verif.Weights.BuildupProps

/-!
Further statements about the parts of the weight statements: each part is reported under its own name and reacts to its own inputs.
-/

namespace Verif.Weights
open Real Finset

/-- Main wings. -/
def WingC.isMain : WingC → Bool
  | .main _ => true
  | _ => false
/-- Horizontal tails. -/
def WingC.isHor : WingC → Bool
  | .hor _ => true
  | _ => false
/-- Vertical tails. -/
def WingC.isVert : WingC → Bool
  | .vert _ => true
  | _ => false

theorem wingLoop_kinds (f : Factors) (ws : List WingC) : ∀ s : ℝ × ℝ × ℝ,
    ws.foldl (wingStep f) s = (s.1 + ((ws.filter WingC.isMain).map (wingMass f)).sum,
      s.2.1 + ((ws.filter WingC.isHor).map (wingMass f)).sum, s.2.2 + ((ws.filter WingC.isVert).map (wingMass f)).sum) := by
  induction ws with
  | nil => intro s; simp
  | cons w ws ih =>
    intro s
    rw [List.foldl_cons, ih]
    cases w with
    | main x =>
      rw [List.filter_cons_of_pos rfl, List.filter_cons_of_neg (by simp [WingC.isHor]), List.filter_cons_of_neg (by simp [WingC.isVert])]
      simp only [wingStep, List.map_cons, List.sum_cons, add_assoc]
    | hor x =>
      rw [List.filter_cons_of_neg (by simp [WingC.isMain]), List.filter_cons_of_pos rfl, List.filter_cons_of_neg (by simp [WingC.isVert])]
      simp only [wingStep, List.map_cons, List.sum_cons, add_assoc]
    | vert x =>
      rw [List.filter_cons_of_neg (by simp [WingC.isMain]), List.filter_cons_of_neg (by simp [WingC.isHor]), List.filter_cons_of_pos rfl]
      simp only [wingStep, List.map_cons, List.sum_cons, add_assoc]
    | other x =>
      rw [List.filter_cons_of_neg (by simp [WingC.isMain]), List.filter_cons_of_neg (by simp [WingC.isHor]),
        List.filter_cons_of_neg (by simp [WingC.isVert])]
      simp only [wingStep]

/-- Wing, horizontal and vertical tail of the statement are the sums of the masses written to the surfaces of that kind. -/
theorem C138_surfaces (m : Method) (fs : Option Factors) (v : VehicleIn) :
    (emptyWeight m fs v).wing = ((v.wings.filter WingC.isMain).map (wingMass (effective fs))).sum ∧
    (emptyWeight m fs v).hor = ((v.wings.filter WingC.isHor).map (wingMass (effective fs))).sum ∧
    (emptyWeight m fs v).vert = ((v.wings.filter WingC.isVert).map (wingMass (effective fs))).sum := by
  simp only [emptyWeight, wingLoop, wingLoop_kinds, zero_add, and_self]

/-- The systems of the statement are all the systems, anti-icing included. -/
theorem C138_systems (m : Method) (fs : Option Factors) (v : VehicleIn) :
    (emptyWeight m fs v).systems = [v.sys.control, v.sys.apu, v.sys.elec, v.sys.avionics, v.sys.hyd, v.sys.furnish, v.sys.ac,
      v.sys.antiIce, v.sys.instruments].sum := by
  have h : keep (effective fs).systems = 1 := by
    rcases fs with _ | f
    · simp [effective, keep]
    · simp only [effective]
      split
      · split_ifs <;> simp [keep]
      · simp [keep]
  simp only [emptyWeight, h, Sys.scale, List.sum_cons, List.sum_nil]
  ring

/-- The more powered the controls, the heavier. -/
theorem C143_powered (ac c : String) (n S : ℝ) (ws : List (WKind × ℝ)) (ht : 0 < tailArea ws) (h1 : c ≠ "fully powered")
    (h2 : c ≠ "partially powered") :
    (systems ac c n S ws).1.control < (systems ac "partially powered" n S ws).1.control ∧
    (systems ac "partially powered" n S ws).1.control < (systems ac "fully powered" n S ws).1.control := by
  have hl := lb_pos
  have hf := ft_pos
  simp only [systems, ctrlScaler, h1, h2, if_false, if_true, show ("partially powered" : String) ≠ "fully powered" by decide]
  constructor <;> gcongr <;> norm_num

example : 0 < tailArea [(.tail, 10), (.main, 50)] := by 
  have : (WKind.main == WKind.tail) = false := by decide
  simp [tailArea, this]

/-- An aircraft without entries for tanks is taken to have five. -/
theorem C142_tanks (ws fs : List ℕ) : tanks [] [] = 5 ∧ (0 < ws.sum + fs.sum → tanks ws fs = ((ws.sum + fs.sum : ℕ) : ℝ)) := by
  constructor
  · simp [tanks]
  · intro h; simp only [tanks, h.ne', if_false]

theorem tnac_nonneg {n : ℝ} (h : 0 ≤ n) : 0 ≤ tnac n := by
  unfold tnac
  have := Int.floor_le (n / 2)
  have : (0 : ℝ) ≤ n - 2 * (⌊n / 2⌋ : ℤ) := by linarith
  linarith

/-- Larger nacelles and fuel systems for more fuel are heavier. -/
theorem C145_sizes {n D D' L L' thrust zf zf' mach : ℝ} (hn : 0 ≤ n) (hD : 0 ≤ D) (hDD : D ≤ D') (hL : 0 ≤ L) (hLL : L ≤ L')
    (ht : 0 ≤ thrust) (hz : 0 ≤ zf) (hzz : zf ≤ zf') (hm : 0 ≤ mach) :
    nacelleFlops n D L thrust ≤ nacelleFlops n D' L' thrust ∧ fuelSystemFlops n zf mach ≤ fuelSystemFlops n zf' mach := by
  have h1 := lb_pos
  have h2 := ft_pos
  have h3 := lbf_pos
  have h4 := tnac_nonneg hn
  have h5 : 0 ≤ D' := hD.trans hDD
  constructor
  · unfold nacelleFlops; gcongr
  · unfold fuelSystemFlops; gcongr

/-- Twice as long a nacelle weighs twice as much, and the starter alone depends on the diameter, the controls alone on thrust. -/
theorem C145_own_inputs (ac : String) (n places thrust thrust' D D' L mach zf k : ℝ) :
    nacelleFlops n D (k * L) thrust = k * nacelleFlops n D L thrust ∧
    (totalPropFlops ac n places thrust D L mach zf).controls = (totalPropFlops ac n places thrust D' L mach zf).controls ∧
    (totalPropFlops ac n places thrust D L mach zf).starter = (totalPropFlops ac n places thrust' D L mach zf).starter := by
  refine ⟨?_, rfl, rfl⟩
  unfold nacelleFlops; ring

/-- Composites, aeroelastic tailoring and more wings to share the load make the parts of the wing lighter, and a thicker wing needs less
bending material in proportion. -/
theorem C146_composite (A : List ℝ) (hA : ∀ i, 0 ≤ A.getD i 0) {BT span ulf fc fc' fa fa' cf nw sflap SW DG : ℝ} (hB : 0 ≤ BT) (hs : 0 ≤ span)
    (hu : 0 ≤ ulf) (hc : fc ≤ fc') (hc1 : fc' ≤ 1) (ha : fa ≤ fa') (ha1 : fa' ≤ 1) (hf : 0 ≤ cf) (hn : 0 < nw)
    (hfl : 0 ≤ sflap) (hS : 0 ≤ SW) (hD : 0 ≤ DG) :
    (wingParts A BT span ulf fc' fa' cf nw sflap SW DG).1 ≤ (wingParts A BT span ulf fc fa cf nw sflap SW DG).1 ∧
    (wingParts A BT span ulf fc' fa' cf nw sflap SW DG).2.1 ≤ (wingParts A BT span ulf fc fa cf nw sflap SW DG).2.1 ∧
    (wingParts A BT span ulf fc' fa' cf nw sflap SW DG).2.2 ≤ (wingParts A BT span ulf fc fa cf nw sflap SW DG).2.2 := by
  have a0 := hA 0
  have a2 := hA 2
  have a5 := hA 5
  have c1 : 1 - 0.4 * fc' ≤ 1 - 0.4 * fc := by linarith
  have c1' : 0 ≤ 1 - 0.4 * fc := by linarith
  have c2 : 1 - 0.17 * fc' ≤ 1 - 0.17 * fc := by linarith
  have c3 : 1 - 0.3 * fc' ≤ 1 - 0.3 * fc := by linarith
  have c4 : 1 - 0.1 * fa' ≤ 1 - 0.1 * fa := by linarith
  have c4' : 0 ≤ 1 - 0.1 * fa' := by linarith
  unfold wingParts
  refine ⟨?_, ?_, ?_⟩ <;> dsimp only <;> gcongr

example : ∀ i, (0 : ℝ) ≤ (wingConstants "long-range").getD i 0 := by
  intro i
  have : wingConstants "long-range" = [8.8, 6.25, 0.68, 0.34, 0.6, 0.035, 1.5] := by simp [wingConstants]
  rw [this]
  rcases i with _ | _ | _ | _ | _ | _ | _ | i <;> norm_num

/-- See `C146_composite`. -/
theorem C146_thickness (AR tr sweep tc fa fs k : ℝ) :
    btSimple AR tr sweep (k * tc) fa fs = btSimple AR tr sweep tc fa fs / k := by
  unfold btSimple
  dsimp only
  rw [div_div]; congr 1; ring

/-- With aeroelastic tailoring the slip of the division is large: a wing of aspect ratio six gets more than six times the divisor of
the manual. -/
theorem C146_tailored_counterexample : ∃ d, denComplex 6 1 0 1 = some d ∧ 6 * denSpec 6 1 0 1 < d := by
  have h : caya 6 = 1 := by norm_num [caya]
  refine ⟨28 / 3, ?_, ?_⟩
  · simp only [denComplex, h]; norm_num
  · simp only [denSpec, h]; norm_num

/-- A supersonic transport lands lighter from the same flight. -/
theorem C147_sst (ac : String) (h : ac ≠ "sst") {tow range : ℝ} (ht : 0 < tow) (hr : 0 < range) :
    landingWeight "sst" tow range < landingWeight ac tow range := by
  have h1 := lb_pos
  have h2 := nmi_pos
  simp only [landingWeight, rfact, h, if_false, if_true]
  have h3 : 0 < range / nmi := by positivity
  have h4 : 0 < tow / lb := by positivity
  apply mul_lt_mul_of_pos_left _ h4
  linarith

/-- Raymer's wing of a supersonic transport does not depend on sweep; that of others grows with it. -/
theorem C146_raymer (ac : String) (h : ac ≠ "sst") {S AR tr s s' tc nult tow : ℝ} (hS : 0 < S) (hA : 0 < AR) (htr : 0 ≤ tr) (htc : 0 < tc)
    (hn : 0 < nult) (ht : 0 < tow) (hs : 0 ≤ s) (hss : s < s') (hs' : s' < π / 2) :
    wingRaymer "sst" S AR tr s tc nult tow = wingRaymer "sst" S AR tr s' tc nult tow ∧
    wingRaymer ac S AR tr s tc nult tow < wingRaymer ac S AR tr s' tc nult tow := by
  have h1 := lb_pos
  have h2 := ft_pos
  have hc : cos s' < cos s := cos_lt_cos_of_nonneg_of_le_pi_div_two hs hs'.le hss
  have hc0 : 0 < cos s' := cos_pos_of_mem_Ioo ⟨by linarith, hs'⟩
  constructor
  · simp [wingRaymer]
  · simp only [wingRaymer, h, if_false]
    have : (cos s)⁻¹ < (cos s')⁻¹ := by
      rw [inv_lt_inv₀ (hc0.trans hc) hc0]; exact hc
    gcongr

/-- The light aircraft's fuselage grows strictly with take-off weight. -/
theorem C148_strict {S nult tow tow' w h l arm q V dp : ℝ} (hS : 0 < S) (hn : 0 < nult) (ht : 0 ≤ tow) (htt : tow < tow') (hw : 0 ≤ w)
    (hh : 0 ≤ h) (hl : 0 < l) (ha : arm ≠ 0) (hq : 0 < q) :
    gaFuselage S nult tow w h l arm q V dp < gaFuselage S nult tow' w h l arm q V dp := by
  have h1 := lb_pos
  have h2 := ft_pos
  have h3 := lbf_pos
  have h4 := inch_pos
  have h5 : 0 < |arm| := abs_pos.2 ha
  have h6 : nult * (tow / lb) < nult * (tow' / lb) := by gcongr
  have h7 : 0 ≤ nult * (tow / lb) := by positivity
  unfold gaFuselage
  dsimp only
  gcongr

/-- The thrust carried at a station is that of the motors at or outboard of it: all of it at the root, less and less towards the tip,
none beyond the last motor. -/
theorem C151_thrust (x : ℕ → ℝ) (hx : Monotone x) (motors : List ℝ) {T : ℝ} (hT : 0 ≤ T) :
    ((∀ y ∈ motors, x 0 ≤ y) → thrustShear x motors T 0 = motors.length * T) ∧ Antitone (thrustShear x motors T) ∧
    (∀ i, (∀ y ∈ motors, y < x i) → thrustShear x motors T i = 0) := by
  refine ⟨?_, ?_, ?_⟩
  · intro h
    induction motors with
    | nil => simp [thrustShear]
    | cons a l ih =>
      have h1 := ih fun y hy => h y (List.mem_cons_of_mem _ hy)
      have h2 := h a List.mem_cons_self
      unfold thrustShear at h1 ⊢
      rw [List.map_cons, List.sum_cons, h1, if_pos h2, List.length_cons]
      push_cast; ring
  · intro i j hij
    unfold thrustShear
    induction motors with
    | nil => simp
    | cons a l ih =>
      rw [List.map_cons, List.sum_cons, List.map_cons, List.sum_cons]
      refine add_le_add ?_ ih
      have := hx hij
      split_ifs with h1 h2
      · exact le_rfl
      · exact absurd (this.trans h1) h2
      · exact hT
      · exact le_rfl
  · intro i h
    unfold thrustShear
    apply List.sum_eq_zero
    intro z hz
    obtain ⟨y, hy, rfl⟩ := List.mem_map.1 hz
    rw [if_neg (not_le.2 (h y hy))]

example : ∃ x : ℕ → ℝ, Monotone x ∧ ∀ y ∈ ([1, 2] : List ℝ), x 0 ≤ y :=
  ⟨fun i => i, fun a b h => by simpa using h, by intro y hy; simp at hy ⊢; rcases hy with rfl | rfl <;> norm_num⟩

/-- Every further motor brings its own cable through the fuselage and along the wing. -/
theorem C152_motor (l h span power y z : ℝ) (ms : List ℝ) :
    wiring (some (y :: z :: ms)) l h span power - wiring (some (z :: ms)) l h span power
      = (5.7e-6 * power + 2 * 460e-5 * 6) * ((l + h) / 2 + |y| * span / 2) := by
  simp only [wiring, List.length_cons, List.map_cons, List.sum_cons]
  have e1 : max (ms.length + 1 + 1) 1 = ms.length + 2 := by omega
  have e2 : max (ms.length + 1) 1 = ms.length + 1 := by omega
  rw [e1, e2]
  push_cast
  ring

/-- Symbolic wings weigh nothing, all others count. -/
theorem C154_wings {p : EvPar} {pax : ℝ} {nets : List (EvNet × ℝ × ℝ)} {wings : List EvWing} {fus : Option ℝ} {o : EvOut}
    (h : evEmpty p pax nets wings fus = some o) : o.wings = ((wings.filter fun w => !w.symbolic).map EvWing.mass).sum := by
  unfold evEmpty at h
  simp only [Option.bind_eq_some_iff, Option.map_eq_some_iff] at h
  obtain ⟨s, -, w, -, f, -, rfl⟩ := h
  dsimp only
  clear * -
  induction wings with
  | nil => simp
  | cons a l ih =>
    rw [List.map_cons, List.sum_cons, ih]
    cases ha : a.symbolic <;> simp [ha]

end Verif.Weights
