import Verif.Energy.Deck
import Verif.Num.BlendProps
import Mathlib.Tactic.Linarith
import Mathlib.Tactic.FieldSimp
import Mathlib.Tactic.Positivity
/-
Properties C247-C250: sums over networks, engine decks, motor sizing, emissions.
-/

namespace Verif.Energy.Deck

open Verif.Num

/-- **C247.** Thrust, mass rate and rotation of a set of networks are the sums over the networks. -/
theorem C247_sums (ns : List Net) (r : Acc) (h : evaluateNets ns = some r) :
    r.thrust = (ns.map fun n => n.out.thrust).sum ∧ r.mass = (ns.map fun n => n.out.mass).sum ∧
      ∃ rs : List ℝ, ns.map (fun n => n.out.rotation) = rs.map some ∧ r.rotation = rs.sum := by
  have main : ∀ (ns : List Net) (a r : Acc), ns.foldlM netStep a = some r →
      r.thrust = a.thrust + (ns.map fun n => n.out.thrust).sum ∧ r.mass = a.mass + (ns.map fun n => n.out.mass).sum ∧
        ∃ rs : List ℝ, ns.map (fun n => n.out.rotation) = rs.map some ∧ r.rotation = a.rotation + rs.sum := by
    intro ns
    induction ns with
    | nil => intro a r h; simp at h; subst h; simp
    | cons n ns ih =>
      intro a r h
      rw [List.foldlM_cons] at h
      obtain ⟨b, hb, h⟩ := Option.bind_eq_some_iff.mp h
      obtain ⟨h1, h2, rs, h3, h4⟩ := ih b r h
      have hb' : ∃ ρ, n.out.rotation = some ρ ∧ b.thrust = a.thrust + n.out.thrust ∧ b.mass = a.mass + n.out.mass ∧ b.rotation = a.rotation + ρ := by
        unfold netStep at hb
        simp only at hb
        obtain ⟨ρ, hρ, hb⟩ := Option.bind_eq_some_iff.mp hb
        split at hb
        · simp only [Option.some.injEq] at hb; subst hb; exact ⟨ρ, hρ, rfl, rfl, rfl⟩
        · simp at hb
        · simp only [Option.some.injEq] at hb; subst hb; exact ⟨ρ, hρ, rfl, rfl, rfl⟩
      obtain ⟨ρ, e0, e1, e2, e3⟩ := hb'
      refine ⟨?_, ?_, ρ :: rs, ?_, ?_⟩
      · rw [h1, e1]; simp; ring
      · rw [h2, e2]; simp; ring
      · simp [h3, e0]
      · rw [h4, e3]; simp; ring
  simpa using main ns _ r h

/-- **C247, two fuels.** If the only network with a second fuel comes last, the rates of both fuels are those it returns
(so are they when earlier networks burn a second fuel too, see `C247_reset_counterexample`). -/
theorem C247_second_fuel_partial (ns : List Net) (n : Net) (x y : ℝ) (r : Acc) (hf : n.flag = true)
    (hx : n.out.extra = some (x, y)) (h : evaluateNets (ns ++ [n]) = some r) : r.extra = some (x, y) := by
  unfold evaluateNets at h
  rw [List.foldlM_append] at h
  obtain ⟨a, ha, h⟩ := Option.bind_eq_some_iff.mp h
  simp only [List.foldlM_cons, List.foldlM_nil] at h
  obtain ⟨b, hb, h⟩ := Option.bind_eq_some_iff.mp h
  simp at h
  subst h
  unfold netStep at hb
  simp only [hf, if_true, hx] at hb
  obtain ⟨ρ, hρ, hb⟩ := Option.bind_eq_some_iff.mp hb
  simp only [Option.some.injEq] at hb
  subst hb
  simp

/-- Such a pair: a turbofan and a network that burns two fuels. -/
example : ∃ r, evaluateNets [⟨false, ⟨1, 2, some 0, none⟩⟩, ⟨true, ⟨3, 4, some 0, some (5, 6)⟩⟩] = some r ∧ r.extra = some (5, 6) := by
  refine ⟨⟨0 + 1 + 3, 0 + 2 + 4, 0 + 0 + 0, some (0 + 5, 0 + 6)⟩, rfl, by simp⟩

/-- **C247 fails for two networks with a second fuel.** The rates of the first are forgotten. -/
theorem C247_reset_counterexample (a b : NetOut) (ρ ρ' x y x' y' : ℝ) (ha : a.rotation = some ρ) (hb : b.rotation = some ρ')
    (hxa : a.extra = some (x, y)) (hxb : b.extra = some (x', y')) :
    ∃ r, evaluateNets [⟨true, a⟩, ⟨true, b⟩] = some r ∧ r.extra = some (x', y') := by
  refine ⟨⟨0 + a.thrust + b.thrust, 0 + a.mass + b.mass, 0 + ρ + ρ', some (0 + x', 0 + y')⟩, ?_, by simp⟩
  simp [evaluateNets, netStep, ha, hb, hxa, hxb, List.foldlM_cons]

/-- **C247 fails for other orders and networks.** A network without second fuel after one with it is an exception, and so is any
network whose results carry no rotation (ramjet, scramjet, rocket and low fidelity solar networks). -/
theorem C247_missing_counterexample (a b : NetOut) (hb : b.extra = none) (ns ms : List Net) (fl : Bool) (c : NetOut)
    (hc : c.rotation = none) :
    evaluateNets [⟨true, a⟩, ⟨false, b⟩] = none ∧ evaluateNets (ns ++ ⟨fl, c⟩ :: ms) = none := by
  constructor
  · unfold evaluateNets
    simp only [List.foldlM_cons, List.foldlM_nil]
    cases ha : a.rotation with
    | none => simp [netStep, ha]
    | some ρ =>
      cases hx : a.extra with
      | none => simp [netStep, ha, hx]
      | some p =>
        cases hr : b.rotation with
        | none => simp [netStep, ha, hx, hb, hr]
        | some ρ' => simp [netStep, ha, hx, hb, hr]
  · unfold evaluateNets
    rw [List.foldlM_append]
    cases ns.foldlM netStep (⟨0, 0, 0, none⟩ : Acc) with
    | none => rfl
    | some s =>
      simp [List.foldlM_cons, netStep, hc]

/-- Specification: the deck inside, straight lines outside, joined by the two blends. -/
noncomputable def joined (f : ℝ → ℝ) (below above : ℝ → ℝ) (η : ℝ) : ℝ :=
  blend 0 0.01 η * below η + (1 - blend 0 0.01 η) * (blend 0.99 1 η * f η + (1 - blend 0.99 1 η) * above η)

theorem blends (η : ℝ) :
    (η ≤ 0 → blend 0 0.01 η = 1) ∧ (0.01 ≤ η → blend 0 0.01 η = 0) ∧ (η ≤ 0.99 → blend 0.99 1 η = 1) ∧ (1 ≤ η → blend 0.99 1 η = 0) := by
  have h1 := C29_outside (xs := 0) (xe := 0.01) (x := η) (by norm_num)
  have h2 := C29_outside (xs := 0.99) (xe := 1) (x := η) (by norm_num)
  exact ⟨h1.1, h1.2, h2.1, h2.2⟩

theorem extThrust_joined (f : ℝ → ℝ) (η : ℝ) :
    extThrust f η = joined f (fun η => f 0 + η * (f 1 - f 0)) (fun η => f 1 + (η - 1) * (f 1 - f 0)) η := by
  obtain ⟨b1, b2, b3, b4⟩ := blends η
  unfold extThrust joined
  simp only
  split_ifs with h1 h2 h3 h4
  · rw [b1 h1.le]; ring
  · rw [b3 (by linarith)]; ring
  · rw [b2 (not_lt.mp h2), b3 h3.le]; ring
  · rw [b2 (by linarith)]; ring
  · rw [b2 (by linarith [not_lt.mp h4]), b4 (not_lt.mp h4)]; ring

theorem extSfc_joined (f : ℝ → ℝ) (η : ℝ) : extSfc f η = joined f (fun _ => f 0) (fun _ => f 1) η := by
  obtain ⟨b1, b2, b3, b4⟩ := blends η
  unfold extSfc joined
  split_ifs with h1 h2 h3 h4
  · rw [b1 h1.le]; ring
  · rw [b3 (by linarith)]; ring
  · rw [b2 (not_lt.mp h2), b3 h3.le]; ring
  · rw [b2 (by linarith)]; ring
  · rw [b2 (by linarith [not_lt.mp h4]), b4 (not_lt.mp h4)]; ring

theorem joined_continuous (f below above : ℝ → ℝ) (hf : Continuous f) (hb : Continuous below) (ha : Continuous above) :
    Continuous (joined f below above) := by
  have c1 : Continuous (blend 0 0.01) := C29_continuous (by norm_num)
  have c2 : Continuous (blend 0.99 1) := C29_continuous (by norm_num)
  unfold joined
  fun_prop

/-- **C248.** The extended deck is the deck between 1 % and 99 % throttle, has its values at zero and full throttle, continues along
straight lines beyond, and has no jump in throttle where the deck has none. -/
theorem C248_extension (f : ℝ → ℝ) (hf : Continuous f) :
    (∀ η, 0.01 ≤ η → η ≤ 0.99 → extThrust f η = f η ∧ extSfc f η = f η) ∧
      (extThrust f 0 = f 0 ∧ extThrust f 1 = f 1 ∧ extSfc f 0 = f 0 ∧ extSfc f 1 = f 1) ∧
      (∀ η, η ≤ 0 → extThrust f η = f 0 + η * (f 1 - f 0) ∧ extSfc f η = f 0) ∧
      (∀ η, 1 ≤ η → extThrust f η = f 1 + (η - 1) * (f 1 - f 0) ∧ extSfc f η = f 1) ∧
      Continuous (extThrust f) ∧ Continuous (extSfc f) := by
  have hmid : ∀ η, 0.01 ≤ η → η ≤ 0.99 → extThrust f η = f η ∧ extSfc f η = f η := by
    intro η h1 h2
    obtain ⟨-, b2, b3, -⟩ := blends η
    rw [extThrust_joined, extSfc_joined]
    unfold joined
    rw [b2 h1, b3 h2]
    constructor <;> ring
  have hlo : ∀ η, η ≤ 0 → extThrust f η = f 0 + η * (f 1 - f 0) ∧ extSfc f η = f 0 := by
    intro η h1
    obtain ⟨b1, -, -, -⟩ := blends η
    rw [extThrust_joined, extSfc_joined]
    unfold joined
    rw [b1 h1]
    constructor <;> ring
  have hhi : ∀ η, 1 ≤ η → extThrust f η = f 1 + (η - 1) * (f 1 - f 0) ∧ extSfc f η = f 1 := by
    intro η h1
    obtain ⟨-, b2, -, b4⟩ := blends η
    rw [extThrust_joined, extSfc_joined]
    unfold joined
    rw [b2 (by linarith), b4 h1]
    constructor <;> ring
  refine ⟨hmid, ⟨?_, ?_, (hlo 0 (le_refl _)).2, (hhi 1 (le_refl _)).2⟩, hlo, hhi, ?_, ?_⟩
  · rw [(hlo 0 (le_refl _)).1]; ring
  · rw [(hhi 1 (le_refl _)).1]; ring
  · rw [show extThrust f = _ from funext (extThrust_joined f)]
    exact joined_continuous _ _ _ hf (by fun_prop) (by fun_prop)
  · rw [show extSfc f = _ from funext (extSfc_joined f)]
    exact joined_continuous _ _ _ hf (by fun_prop) (by fun_prop)

example : Continuous fun η : ℝ => 0.2 + η := by fun_prop

/-- **C248, anchors.** An anchored deck gives the anchored thrust at the anchor point (extended or not, in the middle or at full
throttle), and the fuel flow of one engine is anchored thrust times anchored specific consumption. -/
theorem C248_anchor_partial (thr sfc : ℝ → ℝ → ℝ → ℝ) (as ts ss h M η F c n : ℝ) (ext neg : Bool) (hη : η = 1 ∨ (0.01 ≤ η ∧ η ≤ 0.99))
    (ht : thr (h / as) M η * ts ≠ 0) (hs : sfc (h / as) M η * ss ≠ 0) :
    let d : Deck := ⟨thr, sfc, as, ts, ss, anchorScale (some F) (thr (h / as) M η) ts, anchorScale (some c) (sfc (h / as) M η) ss, n, ext, neg⟩
    d.evaluate h M η = (F, F * c * n) := by
  have h1 : extThrust (thr (h / as) M) η = thr (h / as) M η ∧ extSfc (sfc (h / as) M) η = sfc (h / as) M η := by
    obtain ⟨-, b2, b3, b4⟩ := blends η
    rw [extThrust_joined, extSfc_joined]
    unfold joined
    rcases hη with h | ⟨h, h'⟩
    · subst h
      rw [b2 (by norm_num), b4 (le_refl _)]
      constructor <;> ring
    · rw [b2 h, b3 h']
      constructor <;> ring
  have hpos : ¬ (neg = false ∧ η ≤ 0) := by
    rintro ⟨-, h0⟩
    rcases hη with h | ⟨h, -⟩ <;> linarith
  have ha : ∀ a p s : ℝ, p * s ≠ 0 → p * s * (a / (p * s)) = a := by
    intro a p s h; rw [mul_comm, div_mul_cancel₀ _ h]
  simp only [Deck.evaluate, h1.1, h1.2, ite_self, anchorScale, if_neg hpos, ha F _ _ ht, ha c _ _ hs]

/-- **C248, idle.** Unless negative throttle is allowed, no thrust and no fuel flow is given at zero throttle or below. -/
theorem C248_idle (d : Deck) (h M η : ℝ) (hn : d.negative = false) (hη : η ≤ 0) : d.evaluate h M η = (0, 0) := by
  simp [Deck.evaluate, hn, hη]

/-- **C248 fails for several engines.** The fuel flow is that of all engines, the thrust that of one: the specific consumption of the
network is the number of engines times that of the deck. -/
theorem C248_engines_counterexample (d : Deck) (h M η : ℝ) (hη : 0 < η) (hx : d.extended = false) :
    (d.evaluate h M η).2 = d.engines * (d.sfc (h / d.altScale) M η * d.sfcScale * d.sfcAnchor) * (d.evaluate h M η).1 ∧
      ∀ n, ({ d with engines := n }.evaluate h M η).1 = (d.evaluate h M η).1 := by
  have hpos : ∀ b : Bool, ¬ (b = false ∧ η ≤ 0) := by
    rintro b ⟨-, h0⟩; linarith
  constructor
  · simp only [Deck.evaluate, if_neg (hpos _), hx, Bool.false_eq_true, if_false]
    ring
  · intro n
    simp only [Deck.evaluate, if_neg (hpos _)]

/-- **C249, fits.** Sizing a motor from its speed constant and from the mass that results give the same motor. -/
theorem C249_fit (b : MotorFit) (kv : ℝ) (hb : b.kv ≠ 0) (hk : kv ≠ 0) :
    sizeFromMass b (sizeFromKv b kv).2.2 = ((sizeFromKv b kv).1, (sizeFromKv b kv).2.1, kv) := by
  have : b.kv / (b.kv / kv) = kv := by field_simp
  simp only [sizeFromMass, sizeFromKv, this]

/-- **C249, design point.** If the hard constraints are met and the motor drives the propeller without gear, it gives the design
torque at the design speed and nominal voltage, with the efficiency asked for. -/
theorem C249_design_partial (v ω η Q io R : ℝ) (first second : Option (ℝ × ℝ)) (x : ℝ × ℝ)
    (hc : ∀ y, first = some y → hard1 y.1 y.2 v (designSpeed ω 1) η io = 0 ∧ hard2 y.1 y.2 v (designSpeed ω 1) Q io = 0)
    (hf : first.isSome) (hx : optimizeKv first second = some x)
    (hk : x.1 ≠ 0) (hr : x.2 ≠ 0) (hv : v ≠ 0) (hd : v - ω / x.1 ≠ 0) (m : Verif.Electric.Motor)
    (hm : m = ⟨x.2, io, x.1, 1, 1, 0, R⟩) :
    m.torque v ω = Q ∧ m.efficiency v ((v - ω / x.1) / x.2) = some η := by
  subst hm
  obtain ⟨h1, h2⟩ := hc x (by
    cases first with
    | none => simp at hf
    | some y => simpa [optimizeKv] using hx)
  unfold designSpeed at h1 h2
  simp only [div_one] at h1 h2
  constructor
  · unfold hard2 at h2
    simp only [Verif.Electric.Motor.torque, Verif.Electric.Motor.Kv, Verif.Electric.Motor.io, div_one, zero_mul, add_zero]
    linarith
  · unfold hard1 at h1
    unfold Verif.Electric.Motor.efficiency
    have hi : (v - ω / x.1) / x.2 ≠ 0 := div_ne_zero hd hr
    rw [if_neg (by push Not; exact ⟨hi, hv⟩)]
    congr 1
    simp only [Verif.Electric.Motor.io]
    have e1 : (io + 0 * (1 - 1)) / ((v - ω / x.1) / x.2) = io * x.2 / (v - ω / x.1) := by
      rw [div_div_eq_mul_div]; ring
    have e2 : 1 - (v - ω / x.1) / x.2 * x.2 / v = ω / (v * x.1) := by
      field_simp
      ring
    rw [e1, e2]
    linarith

/-- A motor that meets the hard constraints: 10 V at 5 rad/s, unit speed constant and resistance. -/
example : hard1 1 1 10 (designSpeed 5 1) (2 / 5) 1 = 0 ∧ hard2 1 1 10 (designSpeed 5 1) 4 1 = 0 := by
  unfold hard1 hard2 designSpeed; norm_num

/-- **C249 fails with a gear.** The speed of the propeller is divided by the gear ratio for sizing and multiplied by it in operation:
a motor that meets the torque constraint exactly gives another torque at its design point. -/
theorem C249_gear_counterexample :
    ∃ (m : Verif.Electric.Motor) (v ω Q : ℝ), hard2 m.speedConstant m.res v (designSpeed ω m.gear) Q m.io = 0 ∧ m.gear = 2 ∧
      m.torque v ω ≠ Q ∧ m.torque v ω * ω ≠ Q * ω := by
  refine ⟨⟨1, 1, 1, 2, 1, 0, 1⟩, 10, 2, 8, ?_, rfl, ?_, ?_⟩ <;>
    norm_num [hard2, designSpeed, Verif.Electric.Motor.torque, Verif.Electric.Motor.Kv, Verif.Electric.Motor.io]

/-- **C249 fails with slack.** The relaxed constraints are equations: a motor that meets them misses the efficiency by exactly 0.2 and
the torque by exactly 200; when they fail as well, nothing is returned. -/
theorem C249_slack_counterexample (kv res v ω η Q io : ℝ) (h1 : |hard1 kv res v ω η io| - 0.2 = 0) (h2 : |hard2 kv res v ω Q io| - 200 = 0) :
    (hard1 kv res v ω η io = 0.2 ∨ hard1 kv res v ω η io = -0.2) ∧ (hard2 kv res v ω Q io = 200 ∨ hard2 kv res v ω Q io = -200) ∧
      hard2 kv res v ω Q io ≠ 0 ∧ optimizeKv none none = none := by
  have e1 : |hard1 kv res v ω η io| = 0.2 := by linarith
  have e2 : |hard2 kv res v ω Q io| = 200 := by linarith
  refine ⟨(abs_eq (by norm_num)).mp e1, (abs_eq (by norm_num)).mp e2, ?_, rfl⟩
  intro h
  rw [h] at e2
  norm_num at e2

/-- **C250.** Emitted carbon dioxide, water and sulphur dioxide are fixed multiples of the fuel burned, whatever the integration rule
and the flow history. -/
theorem C250_products {n : ℕ} (I mdot : Fin n → ℝ) (c : ℝ) : emitted I mdot (fun _ => c) = c * ∑ j, I j * mdot j := by
  unfold emitted
  rw [Finset.mul_sum]
  apply Finset.sum_congr rfl
  intro j _
  ring

/-- **C250, nitrogen oxides.** Their index is positive and grows with turbine inlet temperature, combustor pressure and combustor inlet
temperature; with non-negative weights and flows more of each never means less emitted. -/
theorem C250_nox {n : ℕ} (I mdot T4 T4' p3 p3' T3 T3' : Fin n → ℝ) (hI : ∀ j, 0 ≤ I j) (hm : ∀ j, 0 ≤ mdot j) (h4 : ∀ j, 0 < T4 j ∧ T4 j ≤ T4' j)
    (hp : ∀ j, 0 < p3 j ∧ p3 j ≤ p3' j) (h3 : ∀ j, T3 j ≤ T3' j) :
    0 ≤ emitted I mdot (fun j => noxIndex (T4 j) (p3 j) (T3 j)) ∧
      emitted I mdot (fun j => noxIndex (T4 j) (p3 j) (T3 j)) ≤ emitted I mdot (fun j => noxIndex (T4' j) (p3' j) (T3' j)) := by
  have hpos : ∀ j, 0 < noxIndex (T4 j) (p3 j) (T3 j) := by
    intro j
    unfold noxIndex
    have := (h4 j).1
    have := Real.rpow_pos_of_pos (div_pos (hp j).1 (by norm_num : (0 : ℝ) < 439)) 0.37
    positivity
  have hmono : ∀ j, noxIndex (T4 j) (p3 j) (T3 j) ≤ noxIndex (T4' j) (p3' j) (T3' j) := by
    intro j
    unfold noxIndex
    have h1 : (p3 j / 439) ^ (0.37 : ℝ) ≤ (p3' j / 439) ^ (0.37 : ℝ) := by
      apply Real.rpow_le_rpow
      · have := (hp j).1; positivity
      · exact div_le_div_of_nonneg_right (hp j).2 (by norm_num)
      · norm_num
    have h2 : Real.exp ((T3 j - 1471) / 345) ≤ Real.exp ((T3' j - 1471) / 345) := by
      apply Real.exp_le_exp.mpr
      have := h3 j
      apply div_le_div_of_nonneg_right _ (by norm_num)
      linarith
    have h0 : 0 ≤ (p3 j / 439) ^ (0.37 : ℝ) := by
      apply Real.rpow_nonneg
      have := (hp j).1; positivity
    have h4j := (h4 j).1.le
    have h4' := (h4 j).2
    have h4p : 0 ≤ T4' j := le_trans h4j h4'
    have h0' : 0 ≤ (p3' j / 439) ^ (0.37 : ℝ) := le_trans h0 h1
    gcongr
  constructor
  · unfold emitted
    apply Finset.sum_nonneg
    intro j _
    exact mul_nonneg (hI j) (mul_nonneg (hm j) (hpos j).le)
  · unfold emitted
    apply Finset.sum_le_sum
    intro j _
    exact mul_le_mul_of_nonneg_left (mul_le_mul_of_nonneg_left (hmono j) (hm j)) (hI j)

example : ∀ j : Fin 2, (0 : ℝ) ≤ (fun _ => 1) j ∧ (0 : ℝ) < (fun _ => 2500) j := by intro j; norm_num

end Verif.Energy.Deck
