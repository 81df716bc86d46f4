import Verif.Weights.Transport
import Mathlib.Tactic.Ring
import Mathlib.Tactic.Linarith
import Mathlib.Tactic.NormNum
import Mathlib.Tactic.FieldSimp
import Mathlib.Algebra.BigOperators.Group.List.Basic
import Mathlib.Algebra.BigOperators.Ring.List

/-!
C138 (the weight statement adds up), C139 (component masses add up to the take-off mass), C140 (weight reduction factors),
C141 (what the weight analyses store).
-/

namespace Verif.Weights
open Verif.Vehicle

/-! ### Specification -/

/-- Structural items of a statement. -/
def structItems (s : Statement) : List ℝ :=
  [s.wing, s.hor, s.vert, s.fuselage, s.gearMain, s.gearNose, s.nacelle, s.paint]

/-- Systems items of a statement. -/
def sysItems (s : Statement) : List ℝ :=
  [s.control, s.apu, s.elec, s.avionics, s.hyd, s.furnish, s.ac, s.instruments]

/-- Propulsion items of a statement; the nacelle is listed among the structures. -/
def propItems (s : Statement) : List ℝ := [s.engines, s.reversers, s.misc, s.fuelSystem]

/-- Items carried: operating items, payload and fuel. -/
def carriedItems (s : Statement) : List ℝ :=
  [s.oper.less, s.oper.crew, s.oper.attendants, s.payload.pax, s.payload.bag, s.payload.cargo, s.fuel]

/-- The totals of payload and operating items are those of their parts. -/
def Consistent (v : VehicleIn) : Prop :=
  v.payload.total = v.payload.pax + v.payload.bag + v.payload.cargo
    ∧ v.oper.total = v.oper.less + v.oper.crew + v.oper.attendants

/-! ### The loops as sums -/

open Classical in
/-- The mass the loop gives a jet network. -/
noncomputable def jetMass (m : Method) (n : Net) : ℝ :=
  if n.engines = 0 then 0 else
    match n.given with
    | some g => g
    | none => if m.detailed then n.detail.wtProp else n.simple

theorem netLoop_aux (m : Method) (ns : List Net) : ∀ s : ℝ × Option PropData × List ℝ,
    (ns.foldl (netStep m) s).1 = s.1 + ((ns.filter (·.jet)).map (jetMass m)).sum
    ∧ (ns.foldl (netStep m) s).2.2 = s.2.2 ++ ns.map fun n => if n.jet then jetMass m n else n.mass := by
  induction ns with
  | nil => intro s; simp
  | cons n ns ih =>
    intro s
    rw [List.foldl_cons]
    obtain ⟨h1, h2⟩ := ih (netStep m s n)
    rw [h1, h2]
    cases hj : n.jet <;> simp [netStep, hj, jetMass, add_assoc]; split_ifs <;> rfl

theorem netLoop_sum (m : Method) (ns : List Net) :
    (netLoop m ns).1 = ((ns.filter (·.jet)).map (jetMass m)).sum
    ∧ (netLoop m ns).2.2 = ns.map fun n => if n.jet then jetMass m n else n.mass := by
  have := netLoop_aux m ns (0, none, [])
  simpa [netLoop] using this

/-- Without a detailed method there are no detailed weights. -/
theorem netLoop_simple {m : Method} (hm : m.detailed = false) (ns : List Net) : (netLoop m ns).2.1 = none := by
  have : ∀ s : ℝ × Option PropData × List ℝ, (ns.foldl (netStep m) s).2.1 = s.2.1 := by
    induction ns with
    | nil => intro s; rfl
    | cons n ns ih =>
      intro s
      rw [List.foldl_cons, ih]
      cases hj : n.jet <;> simp [netStep, hj, hm]
  exact this _

theorem wingLoop_aux (f : Factors) (ws : List WingC) : ∀ s : ℝ × ℝ × ℝ,
    (ws.foldl (wingStep f) s).1 + (ws.foldl (wingStep f) s).2.1 + (ws.foldl (wingStep f) s).2.2
      = s.1 + s.2.1 + s.2.2 + ((ws.filter fun w => match w with | .other _ => false | _ => true).map (wingMass f)).sum := by
  induction ws with
  | nil => intro s; simp
  | cons w ws ih =>
    intro s
    rw [List.foldl_cons, ih]
    cases w <;> simp [wingStep] <;> ring

theorem wingLoop_sum (f : Factors) (ws : List WingC) :
    (wingLoop f ws).1 + (wingLoop f ws).2.1 + (wingLoop f ws).2.2
      = ((ws.filter fun w => match w with | .other _ => false | _ => true).map (wingMass f)).sum := by
  have := wingLoop_aux f ws (0, 0, 0)
  simpa [wingLoop] using this

theorem sumMass_map (l : List ℝ) : sumMass (l.map massNode) = l.sum := by
  induction l with
  | nil => rfl
  | cons a l ih =>
    simp only [List.map_cons, List.sum_cons]
    unfold sumMass
    rw [ih]
    simp [massNode, itemMass]

/-! ### C138 The weight statement adds up -/

/-- Totals are those of the items, take-off weight is zero-fuel weight and fuel, and the weights of wings, fuselages and
networks in the statement are the masses written to them. -/
theorem C138_totals (m : Method) (fs : Option Factors) (v : VehicleIn)
    (hw : ∀ w ∈ v.wings, ∀ x, w ≠ WingC.other x) (hn : ∀ n ∈ v.nets, n.jet = true) :
    let s := emptyWeight m fs v
    s.structures = (structItems s).sum ∧ s.systems = (sysItems s).sum
    ∧ s.wing + s.hor + s.vert = s.wingMasses.sum ∧ s.fuselage = s.fuseMasses.sum ∧ s.propulsion = s.netMasses.sum
    ∧ s.zeroFuel + s.fuel = s.maxTakeoff ∧ s.maxTakeoff = v.mtow := by
  intro s
  refine ⟨?_, ?_, ?_, rfl, ?_, ?_, rfl⟩
  · simp only [s, emptyWeight, structItems, List.sum_cons, List.sum_nil]; ring
  · simp only [s, emptyWeight, sysItems, List.sum_cons, List.sum_nil]; ring
  · change (wingLoop (effective fs) v.wings).1 + (wingLoop (effective fs) v.wings).2.1
      + (wingLoop (effective fs) v.wings).2.2 = _
    rw [wingLoop_sum]
    have : v.wings.filter (fun w => match w with | .other _ => false | _ => true) = v.wings := by
      rw [List.filter_eq_self]
      intro w hw'
      cases w with
      | other x => exact absurd rfl (hw _ hw' x)
      | _ => rfl
    rw [this]
    rfl
  · change (netLoop m v.nets).1 = (netLoop m v.nets).2.2.sum
    rw [(netLoop_sum m v.nets).1, (netLoop_sum m v.nets).2]
    rw [List.filter_eq_self.2 hn]
    congr 1
    refine List.map_congr_left fun n hn' => ?_
    rw [hn n hn']; rfl
  · simp only [s, emptyWeight]; ring

/-- With a method that weighs the propulsion as a whole, structures, propulsion, systems, operating items, payload and fuel
add up to the take-off weight, each once. -/
theorem C138_once_partial {m : Method} (hm : m.detailed = false) (fs : Option Factors) (v : VehicleIn)
    (hc : Consistent v) :
    let s := emptyWeight m fs v
    (structItems s).sum + s.propulsion + (sysItems s).sum + (carriedItems s).sum = v.mtow ∧ s.nacelle = 0 := by
  intro s
  have hn : s.nacelle = 0 := by
    simp only [s, emptyWeight, netLoop_simple hm]
  refine ⟨?_, hn⟩
  simp only [s, emptyWeight, structItems, sysItems, carriedItems, List.sum_cons, List.sum_nil, hc.1, hc.2]
  ring

/-- An example vehicle: one network of two engines, a wing, two tails, one fuselage. -/
noncomputable def exNet : Net := ⟨true, 2, none, 4000, totalProp 2 1500 100 40 60 200 600, 0⟩
noncomputable def exVehicle : VehicleIn :=
  { nets := [exNet], wings := [.main (some 7000), .hor 600, .vert 500], fuses := [fun w p => 5000 + 0 * (w + p)],
    gearMain := 2700, gearNose := 300, sys := ⟨700, 500, 700, 400, 500, 5000, 1000, 0, 360⟩,
    payload := ⟨8000, 1000, 500, 9500⟩, oper := ⟨1500, 200, 300, 2000⟩, mtow := 60000 }

theorem exVehicle_consistent : Consistent exVehicle := by
  constructor <;> norm_num [exVehicle]

example : (emptyWeight .suave none exVehicle).fuel = 19240 := by
  norm_num [emptyWeight, exVehicle, exNet, netLoop, netStep, wingLoop, wingStep, wingMass, effective, keep, Sys.scale,
    Method.detailed]

/-- With a detailed method and one network, the empty weight counts the nacelle twice: the propulsion total contains it and
the structures contain it again. -/
theorem C138_detailed {m : Method} (hm : m.detailed = true) (fs : Option Factors) (v : VehicleIn) (hc : Consistent v)
    {n : Net} (hv : v.nets = [n]) (hj : n.jet = true) (hg : n.given = none) (he : n.engines ≠ 0)
    {weng wfsys wec wstart wthr wnac : ℝ} (hd : n.detail = totalProp n.engines weng wfsys wec wstart wthr wnac) :
    let s := emptyWeight m fs v
    (structItems s).sum + (propItems s).sum + (sysItems s).sum + (carriedItems s).sum = v.mtow - wnac
    ∧ s.propulsion = (propItems s).sum + s.nacelle := by
  intro s
  have hl : netLoop m v.nets = (n.detail.wtProp, some n.detail, [n.detail.wtProp]) := by
    simp [netLoop, hv, netStep, hj, hg, he, hm]
  constructor
  · simp only [s, emptyWeight, structItems, sysItems, propItems, carriedItems, List.sum_cons, List.sum_nil, hc.1, hc.2,
      hl, hd, totalProp]
    ring
  · simp only [s, emptyWeight, propItems, List.sum_cons, List.sum_nil, hl, hd, totalProp]
    ring

example : let s := emptyWeight .flopsSimple none exVehicle
    (structItems s).sum + (propItems s).sum + (sysItems s).sum + (carriedItems s).sum = 60000 - 600 :=
  (C138_detailed rfl none exVehicle exVehicle_consistent (n := exNet) rfl rfl rfl (by norm_num [exNet])
    (weng := 1500) (wfsys := 100) (wec := 40) (wstart := 60) (wthr := 200) (wnac := 600) rfl).1

/-- The items of a statement by a detailed method do not add up to the take-off weight. -/
theorem C138_nacelle_counterexample : ∃ v : VehicleIn, Consistent v ∧
    let s := emptyWeight .flopsSimple none v
    (structItems s).sum + (propItems s).sum + (sysItems s).sum + (carriedItems s).sum ≠ s.maxTakeoff := by
  refine ⟨exVehicle, exVehicle_consistent, ?_⟩
  intro s
  rw [(C138_detailed rfl none exVehicle exVehicle_consistent (n := exNet) rfl rfl rfl (by norm_num [exNet])
    (weng := 1500) (wfsys := 100) (wec := 40) (wstart := 60) (wthr := 200) (wnac := 600) rfl).1]
  norm_num [s, emptyWeight, exVehicle]

/-- With two networks the propulsion items are those of the last one only, while the total is that of both. -/
theorem C138_networks_counterexample : ∃ v : VehicleIn,
    let s := emptyWeight .raymer none v
    s.propulsion = 2 * ((propItems s).sum + s.nacelle) ∧ s.propulsion ≠ 0 := by
  refine ⟨{ exVehicle with nets := [exNet, exNet] }, ?_⟩
  norm_num [emptyWeight, exVehicle, exNet, netLoop, netStep, Method.detailed, totalProp, propItems]

/-- A network without engines has no mass, but its nacelle and engine controls stay in the statement. -/
theorem C138_no_engines_counterexample : ∃ v : VehicleIn, (∀ n ∈ v.nets, n.engines = 0) ∧
    (emptyWeight .flopsSimple none v).propulsion = 0 ∧ 0 < (emptyWeight .flopsSimple none v).nacelle := by
  refine ⟨{ exVehicle with nets := [{ exNet with engines := 0 }] }, ?_, ?_, ?_⟩
  · simp
  · norm_num [emptyWeight, netLoop, netStep, exNet]
  · norm_num [emptyWeight, netLoop, netStep, exNet, Method.detailed, totalProp]

/-! ### C139 Component masses add up to the take-off mass -/

/-- The masses left in the vehicle are those of the statement but for landing gear, crew and nacelles: gear and nacelles keep
the mass they had. -/
theorem C139_masses_partial (m : Method) (fs : Option Factors) (v : VehicleIn) (hc : Consistent v)
    (hw : ∀ w ∈ v.wings, ∀ x, w ≠ WingC.other x) (hn : ∀ n ∈ v.nets, n.jet = true) (gear nac : List ℝ) :
    let s := emptyWeight m fs v
    vehicleMass (written s gear nac) = s.maxTakeoff - (s.gearMain + s.gearNose - gear.sum) - (s.nacelle - nac.sum)
      - (s.oper.crew + s.oper.attendants) := by
  intro s
  obtain ⟨h1, h2, h3, h4, h5, h6, h7⟩ := C138_totals m fs v hw hn
  change s.structures = _ at h1
  change s.systems = _ at h2
  change s.wing + s.hor + s.vert = _ at h3
  change s.fuselage = _ at h4
  change s.propulsion = _ at h5
  change s.zeroFuel + s.fuel = _ at h6
  have he : s.zeroFuel = s.structures + s.propulsion + s.systems + s.oper.total + s.payload.total := rfl
  have ho : s.oper.total = s.oper.less + s.oper.crew + s.oper.attendants := hc.2
  have hp : s.payload.total = s.payload.pax + s.payload.bag + s.payload.cargo := hc.1
  have hpaint : s.paint = 0 := rfl
  simp only [written, vehicleMass, sumMass_map]
  simp only [sumMass, massNode, itemMass]
  simp only [structItems, List.sum_cons, List.sum_nil] at h1
  simp only [sysItems, List.sum_cons, List.sum_nil] at h2
  linarith

/-- So after the analysis of a fresh vehicle the component masses do not add up to the take-off mass. -/
theorem C139_gear_counterexample : ∃ v : VehicleIn, Consistent v ∧
    vehicleMass (written (emptyWeight .suave none v) [0, 0] []) = v.mtow - 3500 := by
  refine ⟨exVehicle, exVehicle_consistent, ?_⟩
  rw [C139_masses_partial .suave none exVehicle exVehicle_consistent (by simp [exVehicle])
    (by simp [exVehicle, exNet])]
  norm_num [emptyWeight, exVehicle, exNet, netLoop, netStep, Method.detailed]

/-! ### C140 Weight reduction factors -/

/-- A structural factor replaces the others and takes its share off every wing, tail and fuselage whose weight does not
depend on the others'. -/
theorem C140_structural (m : Method) (v : VehicleIn) (f : Factors) {x : ℝ} (hx : x ≠ 0) (hf : f.structural = some x)
    (hw : ∀ w ∈ v.wings, ∀ y, w ≠ WingC.other y) (hfu : ∀ g ∈ v.fuses, ∀ a b c d, g a b = g c d) :
    (emptyWeight m (some f) v).wingMasses = (emptyWeight m none v).wingMasses.map (· * (1 - x))
    ∧ (emptyWeight m (some f) v).fuseMasses = (emptyWeight m none v).fuseMasses.map (· * (1 - x)) := by
  have he : effective (some f) = ⟨0, 0, 0, some x, some 0⟩ := by simp [effective, hf, hx]
  constructor
  · change v.wings.map (wingMass (effective (some f))) = (v.wings.map (wingMass (effective none))).map _
    rw [List.map_map]
    refine List.map_congr_left fun w hw' => ?_
    rw [he]
    cases w with
    | main w => cases w <;> simp [wingMass, effective, keep]
    | hor w => simp [wingMass, effective, keep]
    | vert w => simp [wingMass, effective, keep]
    | other y => exact absurd rfl (hw _ hw' y)
  · simp only [emptyWeight]
    rw [List.map_map]
    refine List.map_congr_left fun g hg => ?_
    rw [he]
    simp only [Function.comp, effective, keep, Option.getD_some]
    rw [hfu g hg _ _ (wingLoop ⟨0, 0, 0, some 0, some 0⟩ v.wings).1 (netLoop m v.nets).1]
    ring

/-- The masses with individual factors: main wings by the wing's factor, tails by the empennage's. -/
theorem C140_individual (m : Method) (v : VehicleIn) (f : Factors) (hf : f.structural = none ∨ f.structural = some 0) :
    (emptyWeight m (some f) v).wingMasses = v.wings.map fun w => match w with
      | .main (some w) => w * (1 - f.mainWing)
      | .main none => 0
      | .hor w => w * (1 - f.empennage)
      | .vert w => w * (1 - f.empennage)
      | .other m => m := by
  have he : effective (some f) = ⟨f.mainWing, f.empennage, f.fuselage, some 0, some 0⟩ := by
    rcases hf with h | h <;> simp [effective, h]
  change v.wings.map (wingMass (effective (some f))) = _
  refine List.map_congr_left fun w _ => ?_
  rw [he]
  cases w with
  | main w => cases w <;> simp [wingMass, keep]
  | hor w => simp [wingMass, keep]
  | vert w => simp [wingMass, keep]
  | other y => rfl

example : (emptyWeight .suave (some ⟨0.1, 0.2, 0, none, none⟩) exVehicle).wingMasses = [6300, 480, 400] := by
  rw [C140_individual _ _ _ (Or.inl rfl)]; norm_num [exVehicle]
example : (emptyWeight .suave (some ⟨0.3, 0.2, 0, some 0.1, none⟩) exVehicle).wingMasses = [6300, 540, 450] := by
  rw [(C140_structural .suave exVehicle _ (x := 0.1) (by norm_num) rfl (by simp [exVehicle])
    (by simp [exVehicle])).1]
  norm_num [emptyWeight, exVehicle, wingMass, effective, keep]

/-- The settings the analysis leaves behind give the same statement again. -/
theorem C140_repeat (m : Method) (fs : Option Factors) (v : VehicleIn) :
    emptyWeight m (some (effective fs)) v = emptyWeight m fs v := by
  have : effective (some (effective fs)) = effective fs := by
    cases fs with
    | none => simp [effective]
    | some f =>
      cases h : f.structural with
      | none => simp [effective, h]
      | some s =>
        by_cases hs : s = 0
        · simp [effective, h, hs]
        · simp [effective, h, hs]
  unfold emptyWeight
  rw [this]

/-- The factor for systems changes nothing: whatever it is, the statement is the one without it. -/
theorem C140_systems_counterexample (m : Method) (f : Factors) (v : VehicleIn) (x : ℝ) :
    emptyWeight m (some { f with systems := some x }) v = emptyWeight m (some { f with systems := none }) v := rfl

/-- The settings are overwritten: after one evaluation with a structural factor, removing that factor does not bring the
individual ones back. -/
theorem C140_settings_counterexample : ∃ f : Factors,
    emptyWeight .suave (some { effective (some f) with structural := some 0 }) exVehicle
      ≠ emptyWeight .suave (some { f with structural := some 0 }) exVehicle := by
  refine ⟨⟨0.1, 0, 0, some 0.2, none⟩, fun h => ?_⟩
  have h := congrArg Statement.wing h
  norm_num [emptyWeight, exVehicle, effective, wingLoop, wingStep, wingMass, keep] at h

/-- The structural factor leaves the landing gear, and so does not take its share off the structures. -/
theorem C140_gear_counterexample : ∃ f : Factors, f.structural = some 0.1 ∧
    (emptyWeight .suave (some f) exVehicle).structures ≠ (emptyWeight .suave none exVehicle).structures * (1 - 0.1) := by
  refine ⟨⟨0, 0, 0, some 0.1, none⟩, rfl, ?_⟩
  norm_num [emptyWeight, exVehicle, exNet, netLoop, netStep, effective, wingLoop, wingStep, wingMass, keep,
    Method.detailed]

/-! ### C141 What the weight analyses store -/

/-- The operating empty weight stored is that of the statement less the operating items. -/
theorem C141_stored_partial (m : Method) (fs : Option Factors) (v : VehicleIn) :
    storedOperatingEmpty (emptyWeight m fs v) = (emptyWeight m fs v).operatingEmpty - v.oper.total := by
  simp [storedOperatingEmpty, emptyWeight]

/-- So it is not the operating empty weight of the statement. -/
theorem C141_counterexample : storedOperatingEmpty (emptyWeight .suave none exVehicle)
    = (emptyWeight .suave none exVehicle).operatingEmpty - 2000 := by
  rw [C141_stored_partial]; rfl

/-- The analyses for UAVs and eVTOLs call their method; that for blended wing bodies fails on every vehicle. -/
theorem C141_bwb_counterexample {α : Type} (r : α) :
    callEmpty .uav r = some r ∧ callEmpty .evtol r = some r ∧ callEmpty .bwb r = none := by
  refine ⟨rfl, rfl, rfl⟩

end Verif.Weights
