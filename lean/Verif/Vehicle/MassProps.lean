import Verif.Vehicle.Mass
import Mathlib.Tactic.Linarith
import Mathlib.Tactic.FieldSimp
import Mathlib.Tactic.Ring
import Mathlib.Tactic.NormNum
import Mathlib.Tactic.Positivity

/-!
# Properties of mass roll-up and centres of gravity (C41, C42, C82, C83)
-/

namespace Verif.Vehicle

/-! ### C42 -/

/-- A component as it occurs somewhere in a tree: mass and position. -/
structure Leaf where
  mass : ℝ
  pos : P

mutual
/-- All components of an item, at any depth, whether inside a container or inside another component. -/
noncomputable def itemLeaves : Node → List Leaf
  | .box l => leaves l
  | .comp m o c inner => ⟨m, position o c⟩ :: leaves inner
  | .other => []
/-- All components below these items. -/
noncomputable def leaves : List Node → List Leaf
  | [] => []
  | a :: l => itemLeaves a ++ leaves l
end

mutual
/-- No component is stored inside another component. -/
def ItemFlat : Node → Prop
  | .box l => Flat l
  | .comp _ _ _ inner => leaves inner = []
  | .other => True
/-- No component is stored inside another component. -/
def Flat : List Node → Prop
  | [] => True
  | a :: l => ItemFlat a ∧ Flat l
end

/-- Total mass of a list of components. -/
noncomputable def mass (l : List Leaf) : ℝ := (l.map Leaf.mass).sum
/-- Mass times a coordinate, summed. -/
noncomputable def moment (f : P → ℝ) (l : List Leaf) : ℝ := (l.map fun a => a.mass * f a.pos).sum

theorem mass_append (a b : List Leaf) : mass (a ++ b) = mass a + mass b := by simp [mass]
theorem moment_append (f : P → ℝ) (a b : List Leaf) : moment f (a ++ b) = moment f a + moment f b := by simp [moment]

mutual
theorem itemMass_eq : ∀ n : Node, ItemFlat n → itemMass n = mass (itemLeaves n)
  | .box l, h => by
    rw [itemMass, itemLeaves]; exact sumMass_eq l (by rwa [ItemFlat] at h)
  | .comp m o c inner, h => by
    rw [ItemFlat] at h
    rw [itemMass, itemLeaves, h]; simp [mass]
  | .other, _ => by rw [itemMass, itemLeaves]; rfl
theorem sumMass_eq : ∀ l : List Node, Flat l → sumMass l = mass (leaves l)
  | [], _ => by rw [sumMass, leaves]; rfl
  | a :: l, h => by
    rw [Flat] at h
    rw [sumMass, leaves, mass_append, itemMass_eq a h.1, sumMass_eq l h.2]
end

/-- The three coordinates. -/
def IsCoord (f : P → ℝ) : Prop := f = P.x ∨ f = P.y ∨ f = P.z

theorem IsCoord.add {f : P → ℝ} (h : IsCoord f) (a b : P) : f (a.add b) = f a + f b := by
  rcases h with rfl | rfl | rfl <;> rfl
theorem IsCoord.smul {f : P → ℝ} (h : IsCoord f) (k : ℝ) (a : P) : f (P.smul k a) = k * f a := by
  rcases h with rfl | rfl | rfl <;> rfl
theorem IsCoord.div {f : P → ℝ} (h : IsCoord f) (k : ℝ) (a : P) : f (a.div k) = f a / k := by
  rcases h with rfl | rfl | rfl <;> rfl
theorem IsCoord.zero {f : P → ℝ} (h : IsCoord f) : f P.zero = 0 := by
  rcases h with rfl | rfl | rfl <;> rfl

mutual
theorem itemMoment_eq {f : P → ℝ} (hf : IsCoord f) : ∀ n : Node, ItemFlat n → f (itemMoment n) = moment f (itemLeaves n)
  | .box l, h => by
    rw [itemMoment, itemLeaves]; exact totalMoment_eq hf l (by rwa [ItemFlat] at h)
  | .comp m o c inner, h => by
    rw [ItemFlat] at h
    rw [itemMoment, itemLeaves, h, hf.smul]; simp [moment]
  | .other, _ => by rw [itemMoment, itemLeaves, hf.zero]; rfl
theorem totalMoment_eq {f : P → ℝ} (hf : IsCoord f) : ∀ l : List Node, Flat l → f (totalMoment l) = moment f (leaves l)
  | [], _ => by rw [totalMoment, leaves, hf.zero]; rfl
  | a :: l, h => by
    rw [Flat] at h
    rw [totalMoment, leaves, moment_append, hf.add, itemMoment_eq hf a h.1, totalMoment_eq hf l h.2]
end

/-- The components of a vehicle: those below its containers. -/
noncomputable def vehicleLeaves : List Node → List Leaf
  | [] => []
  | .box l :: r => leaves l ++ vehicleLeaves r
  | _ :: r => vehicleLeaves r

/-- **C42, mass.** The mass of a container is the sum of the masses of all components below it,
however containers are nested; the mass of a vehicle that over its containers.
Missing: components stored inside other components (`C42_nested_counterexample`). -/
theorem C42_mass_partial (l : List Node) (h : Flat l) : sumMass l = mass (leaves l) ∧ vehicleMass l = mass (vehicleLeaves l) := by
  refine ⟨sumMass_eq l h, ?_⟩
  induction l with
  | nil => rfl
  | cons a r ih =>
    rw [Flat] at h
    cases a with
    | box l =>
      rw [vehicleMass, vehicleLeaves, mass_append, ih h.2, sumMass_eq l (by have := h.1; rwa [ItemFlat] at this)]
    | comp m o c inner => rw [vehicleMass, vehicleLeaves] <;> first | exact ih h.2 | simp
    | other => rw [vehicleMass, vehicleLeaves] <;> first | exact ih h.2 | simp

theorem vehicleMoment_eq {f : P → ℝ} (hf : IsCoord f) (l : List Node) (h : Flat l) : f (vehicleMoment l) = moment f (vehicleLeaves l) := by
  induction l with
  | nil => rw [vehicleMoment, vehicleLeaves, hf.zero]; rfl
  | cons a r ih =>
    rw [Flat] at h
    cases a with
    | box l =>
      rw [vehicleMoment, vehicleLeaves, moment_append, hf.add, ih h.2, totalMoment_eq hf l (by have := h.1; rwa [ItemFlat] at this)]
    | comp m o c inner => rw [vehicleMoment, vehicleLeaves] <;> first | exact ih h.2 | simp
    | other => rw [vehicleMoment, vehicleLeaves] <;> first | exact ih h.2 | simp

/-- **C42, centre of gravity.** Mass times each coordinate of the centre of gravity is the sum of
mass times coordinate over all components, if the total mass is not zero. -/
theorem C42_cg_partial (v : List Node) (h : Flat v) {f : P → ℝ} (hf : IsCoord f) (hm : mass (vehicleLeaves v) ≠ 0) :
    mass (vehicleLeaves v) * f (vehicleCg v) = moment f (vehicleLeaves v) := by
  have h1 := (C42_mass_partial v h).2
  unfold vehicleCg
  rw [hf.div, h1, if_neg hm, vehicleMoment_eq hf v h]
  field_simp

/-- **C42, range.** With non-negative masses, not all zero, each coordinate of the centre of
gravity lies between any bounds that hold for all components of positive mass. -/
theorem C42_range_partial (v : List Node) (h : Flat v) {f : P → ℝ} (hf : IsCoord f) (hpos : ∀ a ∈ vehicleLeaves v, 0 ≤ a.mass)
    (hm : mass (vehicleLeaves v) ≠ 0) (lo hi : ℝ) (hb : ∀ a ∈ vehicleLeaves v, 0 < a.mass → lo ≤ f a.pos ∧ f a.pos ≤ hi) :
    lo ≤ f (vehicleCg v) ∧ f (vehicleCg v) ≤ hi := by
  have hcg := C42_cg_partial v h hf hm
  have key : ∀ l : List Leaf, (∀ a ∈ l, 0 ≤ a.mass) → (∀ a ∈ l, 0 < a.mass → lo ≤ f a.pos ∧ f a.pos ≤ hi) →
      0 ≤ mass l ∧ mass l * lo ≤ moment f l ∧ moment f l ≤ mass l * hi := by
    intro l
    induction l with
    | nil => intro _ _; simp [mass, moment]
    | cons a r ih =>
      intro h1 h2
      obtain ⟨i1, i2, i3⟩ := ih (fun b hb => h1 b (by simp [hb])) (fun b hb => h2 b (by simp [hb]))
      have ha := h1 a (by simp)
      have e1 : mass (a :: r) = a.mass + mass r := by simp [mass]
      have e2 : moment f (a :: r) = a.mass * f a.pos + moment f r := by simp [moment]
      rw [e1, e2]
      rcases ha.lt_or_eq with hlt | heq
      · obtain ⟨b1, b2⟩ := h2 a (by simp) hlt
        refine ⟨by linarith, by nlinarith, by nlinarith⟩
      · rw [← heq]; refine ⟨by linarith, by linarith, by linarith⟩
  obtain ⟨k1, k2, k3⟩ := key _ hpos hb
  have hmp : 0 < mass (vehicleLeaves v) := lt_of_le_of_ne k1 (Ne.symm hm)
  constructor
  · have : mass (vehicleLeaves v) * lo ≤ mass (vehicleLeaves v) * f (vehicleCg v) := by linarith
    exact le_of_mul_le_mul_left this hmp
  · have : mass (vehicleLeaves v) * f (vehicleCg v) ≤ mass (vehicleLeaves v) * hi := by linarith
    exact le_of_mul_le_mul_left this hmp

/-- The position of a component is the mean of its origins plus its own centre of gravity. -/
theorem C42_position (o : List P) (c : P) {f : P → ℝ} (hf : IsCoord f) (ho : o ≠ []) :
    f (position o c) * o.length = (o.map f).sum + f c * o.length := by
  have hl : (o.length : ℝ) ≠ 0 := by
    simp only [ne_eq, Nat.cast_eq_zero, List.length_eq_zero_iff]; exact ho
  have hs : ∀ (l : List P) (z : P), f (l.foldl P.add z) = f z + (l.map f).sum := by
    intro l
    induction l with
    | nil => intro z; simp
    | cons a r ih => intro z; rw [List.foldl_cons, ih, hf.add]; simp; ring
  unfold position
  rw [hf.add, hf.div, P.sum, hs, hf.zero]
  field_simp; ring

example : Flat [.box [.comp 3 [⟨1, 0, 0⟩] ⟨0, 0, 0⟩ [], .box [.comp 5 [⟨4, 2, 0⟩, ⟨4, -2, 0⟩] ⟨1, 0, 0⟩ [.other]], .other], .other] := by
  simp [Flat, ItemFlat, leaves, itemLeaves]

/-- C42 is false for components stored inside other components: the mass of a battery inside a
network is not counted. -/
theorem C42_nested_counterexample :
    ∃ v : List Node, vehicleMass v = 10 ∧ mass (vehicleLeaves v) = 30 := by
  refine ⟨[.box [.comp 10 [⟨0, 0, 0⟩] ⟨0, 0, 0⟩ [.comp 20 [⟨5, 0, 0⟩] ⟨0, 0, 0⟩ []]]], ?_, ?_⟩
  · simp [vehicleMass, sumMass, itemMass]
  · simp [vehicleLeaves, leaves, itemLeaves, mass]; norm_num

/-! ### C82 -/

/-- The container meant for a kind. -/
def home : Kind → Option Root
  | .fuselage => some .fuselages
  | .wing => some .wings
  | .system => some .systems
  | .network => some .networks
  | .nacelle => some .nacelles
  | .envelope => some .envelope
  | .landingGear => some .landingGear
  | .massProperties => some .massProperties
  | .payload => some .payload
  | .otherData => none

/-- **C82.** Every kind except payloads is put into its container, behind what is there, and no
other container changes; foreign objects are refused.  Missing: payloads, see
`C82_counterexample`. -/
theorem C82_placed_partial {α : Type} (contents : Root → List α) (k : Kind) (c : α) (hk : k ≠ .payload) :
    match home k with
    | some r => ∃ after, appendComponent contents k c = some after ∧ after r = contents r ++ [c] ∧ ∀ r', r' ≠ r → after r' = contents r'
    | none => appendComponent contents k c = none := by
  cases k <;> simp_all [home, appendComponent, findRoot, rootMap]

/-- C82 is false for payloads: they are refused although the vehicle has a container for them. -/
theorem C82_counterexample {α : Type} (contents : Root → List α) (c : α) :
    home .payload = some .payload ∧ appendComponent contents .payload c = none := by
  simp [home, appendComponent, findRoot, rootMap]

/-! ### C41 -/

/-- A distribution of fuel: tanks with the mass put into each, within the capacities. -/
structure Distribution (tanks : List Tank) (m : ℝ) (d : List (Tank × ℝ)) : Prop where
  tanks : (d.map Prod.fst).Perm tanks
  within : ∀ p ∈ d, 0 ≤ p.2 ∧ p.2 ≤ p.1.cap
  total : (d.map Prod.snd).sum = m

/-- Moment of a distribution. -/
noncomputable def fuelMoment (d : List (Tank × ℝ)) : ℝ := (d.map fun p => p.1.cg * p.2).sum

/-- Moment saved by filling all tanks ahead of `c`. -/
noncomputable def ahead (c : ℝ) (l : List Tank) : ℝ := (l.map fun t => min 0 (t.cg - c) * t.cap).sum

theorem fill_zero (l : List Tank) : fill l 0 = 0 := by cases l <;> simp [fill]

theorem fill_dual : ∀ (l : List Tank) (m : ℝ), l ≠ [] → l.Pairwise (fun a b => a.cg ≤ b.cg) → (∀ t ∈ l, 0 ≤ t.cap) →
    0 ≤ m → m ≤ capacity l → ∃ c, (∃ t ∈ l, c = t.cg) ∧ fill l m = c * m + ahead c l
  | [], _, h, _, _, _, _ => absurd rfl h
  | t :: ts, m, _, hs, hc, hm, hle => by
    have hs' := List.pairwise_cons.1 hs
    have hahead : ahead t.cg (t :: ts) = 0 := by
      have : ∀ u ∈ t :: ts, min 0 (u.cg - t.cg) * u.cap = 0 := by
        intro u hu
        rcases List.mem_cons.1 hu with rfl | hu
        · simp
        · rw [min_eq_left (by linarith [hs'.1 u hu]), zero_mul]
      unfold ahead
      rw [List.map_congr_left this]; simp
    by_cases h0 : m = 0
    · exact ⟨t.cg, ⟨t, by simp, rfl⟩, by rw [h0, fill_zero, hahead]; ring⟩
    by_cases h1 : m > t.cap
    · have hcap : capacity (t :: ts) = t.cap + capacity ts := by simp [capacity]
      have hne : ts ≠ [] := by
        rintro rfl
        simp [capacity] at hle; linarith
      obtain ⟨c, ⟨u, hu, rfl⟩, hf⟩ := fill_dual ts (m - t.cap) hne hs'.2 (fun u hu => hc u (by simp [hu])) (by linarith) (by linarith)
      refine ⟨u.cg, ⟨u, by simp [hu], rfl⟩, ?_⟩
      have : fill (t :: ts) m = t.cg * t.cap + fill ts (m - t.cap) := by simp only [fill, if_neg h0, if_pos h1]
      rw [this, hf]
      have e : ahead u.cg (t :: ts) = min 0 (t.cg - u.cg) * t.cap + ahead u.cg ts := by simp [ahead]
      rw [e, min_eq_right (by linarith [hs'.1 u hu])]; ring
    · have : fill (t :: ts) m = t.cg * m := by simp only [fill, if_neg h0, if_neg h1, fill_zero]; ring
      exact ⟨t.cg, ⟨t, by simp, rfl⟩, by rw [this, hahead]; ring⟩

theorem moment_ge (c : ℝ) (d : List (Tank × ℝ)) (h : ∀ p ∈ d, 0 ≤ p.2 ∧ p.2 ≤ p.1.cap) :
    c * (d.map Prod.snd).sum + ahead c (d.map Prod.fst) ≤ fuelMoment d := by
  induction d with
  | nil => simp [ahead, fuelMoment]
  | cons p r ih =>
    have ih' := ih fun q hq => h q (by simp [hq])
    obtain ⟨h1, h2⟩ := h p (by simp)
    have key : c * p.2 + min 0 (p.1.cg - c) * p.1.cap ≤ p.1.cg * p.2 := by
      rcases le_total 0 (p.1.cg - c) with h | h
      · rw [min_eq_left h]; nlinarith
      · rw [min_eq_right h]; nlinarith
    simp only [ahead, fuelMoment, List.map_cons, List.sum_cons] at ih' ⊢
    linarith

theorem ahead_perm {l l' : List Tank} (h : l.Perm l') (c : ℝ) : ahead c l = ahead c l' := (h.map _).sum_eq

theorem fill_reach : ∀ (l : List Tank) (m : ℝ), (∀ t ∈ l, 0 ≤ t.cap) → 0 ≤ m → m ≤ capacity l →
    ∃ d : List (Tank × ℝ), d.map Prod.fst = l ∧ (∀ p ∈ d, 0 ≤ p.2 ∧ p.2 ≤ p.1.cap) ∧ (d.map Prod.snd).sum = m ∧ fuelMoment d = fill l m
  | [], m, _, h0, h1 => ⟨[], rfl, by simp, by simp [capacity] at h1 ⊢; linarith, by simp [fuelMoment, fill]⟩
  | t :: ts, m, hc, h0, h1 => by
    have hcap : capacity (t :: ts) = t.cap + capacity ts := by simp [capacity]
    have hts : 0 ≤ capacity ts := List.sum_nonneg (by
      intro x hx; obtain ⟨u, hu, rfl⟩ := List.mem_map.1 hx; exact hc u (by simp [hu]))
    have ht := hc t (by simp)
    by_cases hgt : m > t.cap
    · obtain ⟨d, d1, d2, d3, d4⟩ := fill_reach ts (m - t.cap) (fun u hu => hc u (by simp [hu])) (by linarith) (by linarith)
      have hm0 : m ≠ 0 := by linarith
      refine ⟨(t, t.cap) :: d, by simp [d1], ?_, by simp [d3], ?_⟩
      · intro p hp
        rcases List.mem_cons.1 hp with rfl | hp
        · exact ⟨ht, le_refl _⟩
        · exact d2 p hp
      · simp only [fill, if_neg hm0, if_pos hgt, ← d4, fuelMoment, List.map_cons, List.sum_cons]
    · obtain ⟨d, d1, d2, d3, d4⟩ := fill_reach ts 0 (fun u hu => hc u (by simp [hu])) le_rfl hts
      refine ⟨(t, m) :: d, by simp [d1], ?_, by simp [d3], ?_⟩
      · intro p hp
        rcases List.mem_cons.1 hp with rfl | hp
        · exact ⟨h0, not_lt.1 hgt⟩
        · exact d2 p hp
      · have e : fuelMoment ((t, m) :: d) = t.cg * m + fuelMoment d := by simp [fuelMoment]
        rw [e, d4, fill_zero]
        by_cases hm0 : m = 0
        · simp [fill, hm0]
        · simp only [fill, if_neg hm0, if_neg hgt, fill_zero]

theorem sortTanks_perm (l : List Tank) : (sortTanks l).Perm l := by
  classical exact List.perm_insertionSort _ l

theorem sortTanks_sorted (l : List Tank) : (sortTanks l).Pairwise (fun a b => a.cg ≤ b.cg) := by
  classical
  have : Std.Total (fun a b : Tank => a.cg ≤ b.cg) := ⟨fun a b => le_total _ _⟩
  have : IsTrans Tank (fun a b : Tank => a.cg ≤ b.cg) := ⟨fun a b c h1 h2 => le_trans h1 h2⟩
  exact List.pairwise_insertionSort _ l

/-- Mirror a tank in the origin. -/
def Tank.mirror (t : Tank) : Tank := ⟨-t.cg, t.cap⟩

theorem fill_mirror : ∀ (l : List Tank) (m : ℝ), fill (l.map Tank.mirror) m = -fill l m
  | [], _ => by simp [fill]
  | t :: ts, m => by
    simp only [List.map_cons, fill, Tank.mirror, fill_mirror ts]
    split_ifs <;> ring

/-- **C41.** For every list of tanks and every fuel mass up to the total capacity, the forward limit
is the centre of gravity of some distribution of that mass and no distribution has a smaller one;
likewise the aft limit with greater. -/
theorem C41_extremes (tanks : List Tank) (m : ℝ) (hc : ∀ t ∈ tanks, 0 ≤ t.cap) (hm : 0 < m) (hle : m ≤ capacity tanks) :
    (∃ d, Distribution tanks m d ∧ fuelMoment d / m = minCg tanks m) ∧
    (∃ d, Distribution tanks m d ∧ fuelMoment d / m = maxCg tanks m) ∧
    ∀ d, Distribution tanks m d → minCg tanks m ≤ fuelMoment d / m ∧ fuelMoment d / m ≤ maxCg tanks m := by
  have hp := sortTanks_perm tanks
  have hs := sortTanks_sorted tanks
  have hc' : ∀ t ∈ sortTanks tanks, 0 ≤ t.cap := fun t ht => hc t (hp.mem_iff.1 ht)
  have hcap : capacity (sortTanks tanks) = capacity tanks := (hp.map _).sum_eq
  have hcapr : capacity (sortTanks tanks).reverse = capacity tanks := by
    rw [← hcap]; exact ((List.reverse_perm _).map _).sum_eq
  have hne : sortTanks tanks ≠ [] := by
    intro h
    rw [h] at hcap; simp [capacity] at hcap
    have : capacity tanks = 0 := by unfold capacity; linarith
    linarith
  refine ⟨?_, ?_, ?_⟩
  · obtain ⟨d, d1, d2, d3, d4⟩ := fill_reach _ m hc' hm.le (by rw [hcap]; exact hle)
    exact ⟨d, ⟨by rw [d1]; exact hp, d2, d3⟩, by rw [d4]; rfl⟩
  · obtain ⟨d, d1, d2, d3, d4⟩ := fill_reach (sortTanks tanks).reverse m (fun t ht => hc' t (List.mem_reverse.1 ht)) hm.le (by rw [hcapr]; exact hle)
    exact ⟨d, ⟨by rw [d1]; exact (List.reverse_perm _).trans hp, d2, d3⟩, by rw [d4]; rfl⟩
  · intro d hd
    constructor
    · obtain ⟨c, -, hf⟩ := fill_dual _ m hne hs hc' hm.le (by rw [hcap]; exact hle)
      have h := moment_ge c d hd.within
      rw [hd.total, ahead_perm (hd.tanks.trans hp.symm), ← hf] at h
      exact div_le_div_of_nonneg_right h hm.le
    · set l := (sortTanks tanks).reverse.map Tank.mirror with hl
      have hsl : l.Pairwise (fun a b => a.cg ≤ b.cg) := by
        rw [hl, List.pairwise_map, List.pairwise_reverse]
        exact hs.imp fun h => neg_le_neg h
      have hcl : ∀ t ∈ l, 0 ≤ t.cap := by
        intro t ht
        obtain ⟨u, hu, rfl⟩ := List.mem_map.1 ht
        exact hc' u (List.mem_reverse.1 hu)
      have hcapl : capacity l = capacity tanks := by
        rw [← hcapr, hl]; simp [capacity, Tank.mirror, Function.comp_def]
      obtain ⟨c, -, hf⟩ := fill_dual l m (by rw [hl]; simpa using hne) hsl hcl hm.le (by rw [hcapl]; exact hle)
      rw [hl, fill_mirror] at hf
      set d' := d.map fun p => (p.1.mirror, p.2) with hd'
      have hw : ∀ p ∈ d', 0 ≤ p.2 ∧ p.2 ≤ p.1.cap := by
        intro p hp'
        obtain ⟨q, hq, rfl⟩ := List.mem_map.1 hp'
        exact hd.within q hq
      have h := moment_ge c d' hw
      have e1 : d'.map Prod.snd = d.map Prod.snd := by simp [hd', Function.comp_def]
      have e2 : (d'.map Prod.fst) = (d.map Prod.fst).map Tank.mirror := by simp [hd', Function.comp_def]
      have e3 : fuelMoment d' = -fuelMoment d := by
        rw [hd']
        clear hw h e1 e2 hd' d' hd
        induction d with
        | nil => simp [fuelMoment]
        | cons p r ih =>
          simp only [fuelMoment, List.map_cons, List.sum_cons, Tank.mirror] at ih ⊢
          linarith
      have hperm : ((d.map Prod.fst).map Tank.mirror).Perm ((sortTanks tanks).reverse.map Tank.mirror) :=
        (hd.tanks.trans (hp.symm.trans (List.reverse_perm _).symm)).map _
      rw [e1, e2, e3, hd.total, ahead_perm hperm, ← hf] at h
      exact div_le_div_of_nonneg_right (by linarith) hm.le

/-- The fifty masses lie between a millionth and the total capacity. -/
theorem C41_masses (tanks : List Tank) (h : 1e-6 ≤ capacity tanks) (j : Fin 50) : 0 < fuelMass tanks j ∧ fuelMass tanks j ≤ capacity tanks := by
  have h1 : (0 : ℝ) ≤ j := Nat.cast_nonneg _
  have h2 : (j : ℝ) ≤ 49 := by exact_mod_cast Nat.lt_succ_iff.1 j.2
  unfold fuelMass
  have h3 : 0 ≤ (capacity tanks - 1e-6) / 49 := by apply div_nonneg <;> linarith
  refine ⟨by positivity, ?_⟩
  have : (j : ℝ) * ((capacity tanks - 1e-6) / 49) ≤ 49 * ((capacity tanks - 1e-6) / 49) := mul_le_mul_of_nonneg_right h2 h3
  linarith

example : (0 : ℝ) < 150 ∧ 150 ≤ capacity [⟨12, 100⟩, ⟨8, 60⟩, ⟨10, 40⟩] := by norm_num [capacity]

/-! ### C83 -/

/-- Mass-weighted mean position of networks and their parts, each origin carrying the mass. -/
noncomputable def trueMoment (p : Part) : ℝ := p.mass * (p.originSum + p.origins * p.cg)
noncomputable def trueMass (p : Part) : ℝ := p.mass * p.origins
noncomputable def allParts (n : List NetMass) : List Part := n.flatMap fun a => a.self :: a.parts

/-- **C83, one network.** With one network whose own and whose parts' origins are single, the
propulsion centre is the mass-weighted mean.  Missing: several networks or several origins, see the
counterexamples. -/
theorem C83_single_partial (n : NetMass) (h1 : n.self.origins = 1) (h2 : ∀ p ∈ n.parts, p.origins = 1)
    (hm : ((allParts [n]).map trueMass).sum ≠ 0) :
    propulsionCg [n] = ((allParts [n]).map trueMoment).sum / ((allParts [n]).map trueMass).sum := by
  have key : ∀ (l : List Part) (b : ℝ × ℝ), (∀ p ∈ l, p.origins = 1) →
      l.foldl (fun (b : ℝ × ℝ) p => (b.1 + p.mass * (p.originSum + p.cg), b.2 + p.mass * p.origins)) b = (b.1 + (l.map trueMoment).sum, b.2 + (l.map trueMass).sum) := by
    intro l
    induction l with
    | nil => intro b _; simp
    | cons p r ih =>
      intro b h
      rw [List.foldl_cons, ih _ (fun q hq => h q (by simp [hq]))]
      have := h p (by simp)
      simp only [List.map_cons, List.sum_cons, trueMoment, trueMass, this]
      ext <;> simp <;> ring
  have e1 : ((allParts [n]).map trueMass).sum = n.self.mass + (n.parts.map trueMass).sum := by simp [allParts, trueMass, h1]
  have e2 : ((allParts [n]).map trueMoment).sum = n.self.mass * (n.self.originSum + n.self.cg) + (n.parts.map trueMoment).sum := by
    simp [allParts, trueMoment, h1]
  rw [e1] at hm
  have e3 : [n].foldl netStep (0, 0) = (((allParts [n]).map trueMoment).sum, ((allParts [n]).map trueMass).sum) := by
    simp only [List.foldl_cons, List.foldl_nil, netStep]
    rw [key _ _ h2, e1, e2]
    simp only [zero_add]
  have hm2 : ([n].foldl netStep (0, 0)).2 ≠ 0 := by rw [e3]; simpa only [e1] using hm
  unfold propulsionCg
  simp only [if_pos hm2]
  rw [e3]

example : ((allParts [⟨⟨2, 5, 1, 1⟩, [⟨3, 7, 1, 0⟩]⟩]).map trueMass).sum ≠ 0 := by
  simp [allParts, trueMass]; norm_num

/-- C83 is false for two networks: the mean of two equal masses at 0 and 10 comes out as 10. -/
theorem C83_two_networks_counterexample :
    ∃ nets : List NetMass, ((allParts nets).map trueMoment).sum / ((allParts nets).map trueMass).sum = 5 ∧ propulsionCg nets = 10 := by
  refine ⟨[⟨⟨1, 0, 1, 0⟩, []⟩, ⟨⟨1, 10, 1, 0⟩, []⟩], by simp [allParts, trueMoment, trueMass]; norm_num, ?_⟩
  simp only [propulsionCg, List.foldl_cons, List.foldl_nil, netStep]; norm_num

/-- The wings other than the main wing, and their place in the list, do not matter for the fuel and
the control systems; the hydraulics follow the main wing if it is last, in which case they sit
between the main wing's centre of gravity (weight 3/4) and the tail end.
Missing: main wing not last, see the counterexample. -/
theorem C83_main_wing_partial (m : WingPos) (hm : m.main = true) (before after : List WingPos) (L : ℝ)
    (hb : ∀ w ∈ before, w.main = false) :
    fuelX (before ++ m :: after) = some (m.origin + m.cg) ∧
    controlX (before ++ m :: after) = some (m.origin + m.cg + m.mac / 10) ∧
    hydraulicsX (before ++ [m]) L = some (3 / 4 * (m.origin + m.cg) + 1 / 4 * (19 / 20 * L)) := by
  have h : ∀ after, mainWing? (before ++ m :: after) = some m := by
    intro after
    unfold mainWing?
    rw [List.find?_append, List.find?_eq_none.2 (fun w hw => by simp [hb w hw])]
    simp [hm]
  refine ⟨by rw [fuelX, h]; rfl, ?_, ?_⟩
  · rw [controlX, h]; simp only [Option.map_some]; congr 1; norm_num; ring
  · unfold hydraulicsX
    rw [h []]; simp only [List.getLast?_append, List.getLast?_singleton]
    simp; norm_num; ring

/-- With the main wing first the hydraulics follow the centre of gravity of the last wing. -/
theorem C83_hydraulics_counterexample :
    ∃ (m tail tail' : WingPos) (L : ℝ), m.main = true ∧ tail.main = false ∧ tail'.main = false ∧
      hydraulicsX [m, tail] L ≠ hydraulicsX [m, tail'] L := by
  refine ⟨⟨true, 10, 5, 4⟩, ⟨false, 30, 1, 2⟩, ⟨false, 30, 2, 2⟩, 40, rfl, rfl, rfl, ?_⟩
  simp [hydraulicsX, mainWing?]; norm_num

end Verif.Vehicle
