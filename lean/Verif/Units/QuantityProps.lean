import Verif.Units.Quantity
import Mathlib.Analysis.SpecialFunctions.Pow.NNReal
import Mathlib.Tactic.Linarith
import Mathlib.Tactic.FieldSimp
import Mathlib.Tactic.NormNum
import Mathlib.Tactic.Ring

/-!
# Unit conversions (C45)
-/

namespace Verif.Units

variable {N : Type}

/-- A consistent registry: factors are positive, base units have factor one and are their own base,
everything resolves to base units. -/
structure Consistent (r : Reg N) : Prop where
  pos : ∀ n, 0 < (r n).scale
  base : ∀ n b, b ∈ (r n).dims.support → (r b).isBase = true ∧ (r b).scale = 1 ∧ (r b).dims = Finsupp.single b 1

/-- The factor of a composed unit: the product of the factors to their powers. -/
noncomputable def worth (r : Reg N) (u : N →₀ ℝ) : ℝ := ∏ n ∈ u.support, (r n).scale ^ (u n)

theorem base_support (r : Reg N) (h : Consistent r) (u : N →₀ ℝ) :
    ∀ b ∈ (baseUnits r u).support, (r b).isBase = true ∧ (r b).scale = 1 ∧ (r b).dims = Finsupp.single b 1 := by
  set B : Set N := {b | (r b).isBase = true ∧ (r b).scale = 1 ∧ (r b).dims = Finsupp.single b 1} with hB
  have : baseUnits r u ∈ Finsupp.supported ℝ ℝ B := by
    unfold baseUnits
    rw [Finsupp.linearCombination_apply]
    refine Submodule.sum_mem _ fun n _ => Submodule.smul_mem _ _ ?_
    rw [Finsupp.mem_supported]
    intro b hb
    exact h.base n b hb
  intro b hb
  exact (Finsupp.mem_supported ℝ _).1 this hb

theorem baseUnits_fix (r : Reg N) (v : N →₀ ℝ) (h : ∀ b ∈ v.support, (r b).dims = Finsupp.single b 1) : baseUnits r v = v := by
  unfold baseUnits
  rw [Finsupp.linearCombination_apply]
  have : v.sum (fun i a => a • (r i).dims) = v.sum fun i a => Finsupp.single i a := by
    refine Finsupp.sum_congr fun b hb => ?_
    rw [h b hb]; simp
  rw [this, Finsupp.sum_single]

theorem baseUnits_idem (r : Reg N) (h : Consistent r) (u : N →₀ ℝ) : baseUnits r (baseUnits r u) = baseUnits r u :=
  baseUnits_fix r _ fun b hb => (base_support r h u b hb).2.2

theorem baseUnits_sub (r : Reg N) (u v : N →₀ ℝ) : baseUnits r (u - v) = baseUnits r u - baseUnits r v := by
  unfold baseUnits; rw [map_sub]

theorem worth_add (r : Reg N) (h : Consistent r) (u v : N →₀ ℝ) : worth r (u + v) = worth r u * worth r v := by
  classical
  exact Finsupp.prod_add_index' (h := fun n e => (r n).scale ^ e) (fun n => Real.rpow_zero _) fun n a b => Real.rpow_add (h.pos n) a b

theorem worth_pos (r : Reg N) (h : Consistent r) (u : N →₀ ℝ) : 0 < worth r u :=
  Finset.prod_pos fun n _ => Real.rpow_pos_of_pos (h.pos n) _

theorem worth_sub (r : Reg N) (h : Consistent r) (u v : N →₀ ℝ) : worth r (u - v) = worth r u / worth r v := by
  have e := worth_add r h (u - v) v
  rw [sub_add_cancel] at e
  have := (worth_pos r h v).ne'
  field_simp; exact e.symm

theorem worth_base (r : Reg N) (h : Consistent r) (u : N →₀ ℝ) : worth r (baseUnits r u) = 1 :=
  Finset.prod_eq_one fun b hb => by rw [(base_support r h u b hb).2.1, Real.one_rpow]

/-- Offset units do not take part in the conversion between `u` and its base units: they cancel. -/
def Cancels (r : Reg N) (u : N →₀ ℝ) : Prop := ∀ n, (r n).offset ≠ none → u n = baseUnits r u n

/-- No offset unit is involved. -/
def Plain (r : Reg N) (u : N →₀ ℝ) : Prop := ∀ n, n ∈ u.support ∨ n ∈ (baseUnits r u).support → (r n).offset = none

theorem Plain.cancels {r : Reg N} {u : N →₀ ℝ} (h : Plain r u) : Cancels r u := by
  intro n hn
  have h1 : u n = 0 := by
    by_contra hne; exact hn (h n (Or.inl (Finsupp.mem_support_iff.2 hne)))
  have h2 : baseUnits r u n = 0 := by
    by_contra hne; exact hn (h n (Or.inr (Finsupp.mem_support_iff.2 hne)))
  rw [h1, h2]

theorem only_eq {u : N →₀ ℝ} {n : N} (h : only u = some n) : u.support = {n} := by
  unfold only at h
  split at h
  · rename_i m hm
    cases h
    exact Finset.toList_eq_singleton_iff.1 hm
  · simp at h

theorem only_single {n : N} {e : ℝ} (he : e ≠ 0) : only (Finsupp.single n e) = some n := by
  unfold only
  rw [Finsupp.support_single _ he, Finset.toList_singleton]

theorem convertScale_ok (r : Reg N) (x : ℝ) (a b : N →₀ ℝ) (h1 : baseUnits r (a - b) = 0)
    (h2 : ∀ n ∈ (a - b).support, (r n).offset = none) : convertScale r x a b = .ok (worth r (a - b) * x) := by
  unfold convertScale factor
  rw [if_neg (not_not.2 h1), if_pos h2]
  rfl

/-- Offset units in a product that take part in conversions are base units (kelvin). -/
def ProductOk (r : Reg N) (u : N →₀ ℝ) : Prop := (∃ n, only u = some n ∧ (r n).offset = none) ∨
  (only u = none ∧ ∀ n ∈ u.support, (r n).isBase = true ∨ (r n).offset = none)

theorem convert_scale (r : Reg N) (x : ℝ) (a b : N →₀ ℝ) (hne : a ≠ b) (ha : ProductOk r a) (hb : dimensionOk r b = true) :
    convert r x a b = convertScale r x a b := by
  unfold convert
  have hda : dimensionOk r a = true := by
    unfold dimensionOk
    rcases ha with ⟨n, hn, -⟩ | ⟨-, h⟩
    · simp [hn]
    · simp only [Bool.or_eq_true, decide_eq_true_eq]; exact Or.inr h
  rw [if_neg hne, if_neg (by simp [hda, hb])]
  rcases ha with ⟨n, hn, ho⟩ | ⟨hn, -⟩
  · simp [hn, ho]
  · simp [hn]

theorem base_dimensionOk (r : Reg N) (h : Consistent r) (u : N →₀ ℝ) : dimensionOk r (baseUnits r u) = true := by
  unfold dimensionOk
  simp only [Bool.or_eq_true, decide_eq_true_eq]
  exact Or.inr fun n hn => Or.inl (base_support r h u n hn).1

theorem rmul_units (r : Reg N) (h : Consistent r) (u : N →₀ ℝ) (hp : ProductOk r u ∨ u = baseUnits r u) (hc : Cancels r u) (m x : ℝ) :
    rmul r ⟨m, u⟩ x = .ok (worth r u * x, ⟨worth r u * x, baseUnits r u⟩) := by
  have hw : worth r (u - baseUnits r u) = worth r u := by rw [worth_sub r h, worth_base r h, div_one]
  have : convert r x u (baseUnits r u) = .ok (worth r u * x) := by
    by_cases he : u = baseUnits r u
    · unfold convert
      rw [if_pos he]
      have : worth r u = 1 := by rw [he]; exact worth_base r h u
      rw [this, one_mul]
    · rw [convert_scale r x u _ he (hp.resolve_right he) (base_dimensionOk r h u), convertScale_ok, hw]
      · rw [baseUnits_sub, baseUnits_idem r h, sub_self]
      · intro n hn
        by_contra hno
        rw [Finsupp.mem_support_iff, Finsupp.sub_apply, hc n hno, sub_self] at hn
        exact hn rfl
  unfold rmul
  dsimp only
  rw [this]; rfl

/-- **C45, multiplication.** A number times a freshly looked up unit is the number times the product
of the factors of its names to their powers; kelvin may occur in the product. -/
theorem C45_multiply (r : Reg N) (h : Consistent r) (u : N →₀ ℝ) (hp : ProductOk r u) (hc : Cancels r u) (x : ℝ) :
    ∃ q, rmul r (fresh u) x = .ok (worth r u * x, q) := ⟨_, rmul_units r h u (Or.inl hp) hc 1 x⟩

theorem plain_product {r : Reg N} {u : N →₀ ℝ} (h : Plain r u) : ProductOk r u := by
  rcases ho : only u with _ | n
  · exact Or.inr ⟨ho, fun n hn => Or.inr (h n (Or.inl hn))⟩
  · refine Or.inl ⟨n, ho, h n (Or.inl ?_)⟩
    rw [only_eq ho]; simp

theorem plain_base {r : Reg N} (hr : Consistent r) {u : N →₀ ℝ} (h : Plain r u) : Plain r (baseUnits r u) := by
  intro n hn
  rw [baseUnits_idem r hr, or_self] at hn
  exact h n (Or.inr hn)

theorem parseBack_plain {r : Reg N} {u : N →₀ ℝ} (h : Plain r u) : parseBack r u = u := by
  have : u.mapDomain (fun n => if (r n).offset.isSome then (r n).delta else n) = u := by
    conv_rhs => rw [← Finsupp.mapDomain_id (v := u)]
    apply Finsupp.mapDomain_congr
    intro n hn
    rw [h n (Or.inl hn)]; simp
  unfold parseBack
  split
  · split_ifs
    · exact this
    · rfl
  · exact this

theorem rdiv_plain (r : Reg N) (h : Consistent r) (u : N →₀ ℝ) (hp : Plain r u) (m x : ℝ) :
    rdiv r ⟨m, u⟩ x = .ok (x / worth r u, ⟨x / worth r u, u⟩) := by
  have h1 : ∃ y, convert r m u (baseUnits r u) = .ok y := by
    have := rmul_units r h u (Or.inl (plain_product hp)) hp.cancels m m
    unfold rmul at this
    dsimp only at this
    rcases hc : convert r m u (baseUnits r u) with e | y
    · rw [hc] at this; cases this
    · exact ⟨y, rfl⟩
  have h2 : convert r x (baseUnits r u) u = .ok (x / worth r u) := by
    by_cases he : baseUnits r u = u
    · unfold convert
      rw [if_pos he]
      have : worth r u = 1 := by rw [← he]; exact worth_base r h u
      rw [this, div_one]
    · have hd : dimensionOk r u = true := by
        unfold dimensionOk
        simp only [Bool.or_eq_true, decide_eq_true_eq]
        exact Or.inr fun n hn => Or.inr (hp n (Or.inl hn))
      rw [convert_scale r x _ u he (plain_product (plain_base h hp)) hd, convertScale_ok, worth_sub r h, worth_base r h]
      · congr 1; ring
      · rw [baseUnits_sub, baseUnits_idem r h, sub_self]
      · intro n hn
        by_cases hu : u n = 0
        · apply hp n (Or.inr _)
          rw [Finsupp.mem_support_iff, Finsupp.sub_apply, hu, sub_zero] at hn
          exact Finsupp.mem_support_iff.2 hn
        · exact hp n (Or.inl (Finsupp.mem_support_iff.2 hu))
  obtain ⟨y, hy⟩ := h1
  unfold rdiv
  dsimp only
  rw [hy, parseBack_plain hp, h2]; rfl

/-- **C45, round trip.** Multiplying by a unit and dividing the result by the same unit, both freshly
looked up, gives back the number.  Missing: units with kelvin in a product
(`C45_kelvin_counterexample`); offset units are in `C45_offset`. -/
theorem C45_round_trip_partial (r : Reg N) (h : Consistent r) (u : N →₀ ℝ) (hp : Plain r u) (x : ℝ) :
    ∃ y q q', rmul r (fresh u) x = .ok (y, q) ∧ rdiv r (fresh u) y = .ok (x, q') := by
  have hw := (worth_pos r h u).ne'
  refine ⟨_, _, ⟨x, u⟩, rmul_units r h u (Or.inl (plain_product hp)) hp.cancels 1 x, ?_⟩
  rw [fresh, rdiv_plain r h u hp, mul_div_cancel_left₀ _ hw]

/-- **C45, division.** Dividing leaves the unit object usable: a second division by the same object
is right. -/
theorem C45_divide_again (r : Reg N) (h : Consistent r) (u : N →₀ ℝ) (hp : Plain r u) (x y : ℝ) :
    ∃ q q', rdiv r (fresh u) x = .ok (x / worth r u, q) ∧ rdiv r q y = .ok (y / worth r u, q') :=
  ⟨_, _, rdiv_plain r h u hp 1 x, rdiv_plain r h u hp _ y⟩

theorem worth_smul (r : Reg N) (h : Consistent r) (u : N →₀ ℝ) (p : ℝ) : worth r (p • u) = worth r u ^ p := by
  by_cases hp : p = 0
  · subst hp; simp [worth]
  · unfold worth
    rw [Finsupp.support_smul_eq hp, ← Real.finsetProd_rpow]
    · refine Finset.prod_congr rfl fun n _ => ?_
      rw [Finsupp.smul_apply, smul_eq_mul, mul_comm, Real.rpow_mul (h.pos n).le]
    · exact fun n _ => (Real.rpow_pos_of_pos (h.pos n) _).le

/-- Products, quotients and powers of plain units are plain. -/
theorem plain_ops {r : Reg N} {u v : N →₀ ℝ} (hu : Plain r u) (hv : Plain r v) (p : ℝ) :
    Plain r (u + v) ∧ Plain r (u - v) ∧ Plain r (p • u) := by
  have h0 : ∀ w : N →₀ ℝ, Plain r w ↔ ∀ n, (r n).offset ≠ none → w n = 0 ∧ baseUnits r w n = 0 := by
    intro w
    constructor
    · intro hw n hn
      constructor
      · by_contra hne; exact hn (hw n (Or.inl (Finsupp.mem_support_iff.2 hne)))
      · by_contra hne; exact hn (hw n (Or.inr (Finsupp.mem_support_iff.2 hne)))
    · rintro hw n (hn | hn)
      · by_contra hno; exact Finsupp.mem_support_iff.1 hn (hw n hno).1
      · by_contra hno; exact Finsupp.mem_support_iff.1 hn (hw n hno).2
  rw [h0] at hu hv ⊢
  refine ⟨fun n hn => ?_, (h0 _).2 fun n hn => ?_, (h0 _).2 fun n hn => ?_⟩
  · obtain ⟨a, b⟩ := hu n hn; obtain ⟨c, d⟩ := hv n hn
    unfold baseUnits at *
    rw [map_add, Finsupp.add_apply, Finsupp.add_apply, a, b, c, d]; simp
  · obtain ⟨a, b⟩ := hu n hn; obtain ⟨c, d⟩ := hv n hn
    rw [baseUnits_sub, Finsupp.sub_apply, Finsupp.sub_apply, a, b, c, d]; simp
  · obtain ⟨a, b⟩ := hu n hn
    unfold baseUnits at *
    rw [map_smul, Finsupp.smul_apply, Finsupp.smul_apply, a, b]; simp

/-- **C45, composition.** Multiplying by a product, quotient or power of units multiplies by the
product, quotient or power of their factors. -/
theorem C45_compose (r : Reg N) (h : Consistent r) (u v : N →₀ ℝ) (hu : Plain r u) (hv : Plain r v) (p x : ℝ) :
    (∃ q, rmul r (qmul (fresh u) (fresh v)) x = .ok (worth r u * worth r v * x, q)) ∧
    (∃ q, rmul r (qdiv (fresh u) (fresh v)) x = .ok (worth r u / worth r v * x, q)) ∧
    (∃ q, rmul r (qpow (fresh u) p) x = .ok (worth r u ^ p * x, q)) := by
  obtain ⟨h1, h2, h3⟩ := plain_ops hu hv p
  rw [← worth_add r h, ← worth_sub r h, ← worth_smul r h]
  exact ⟨⟨_, rmul_units r h _ (Or.inl (plain_product h1)) h1.cancels _ x⟩, ⟨_, rmul_units r h _ (Or.inl (plain_product h2)) h2.cancels _ x⟩,
    ⟨_, rmul_units r h _ (Or.inl (plain_product h3)) h3.cancels _ x⟩⟩

theorem baseUnits_single (r : Reg N) (n : N) : baseUnits r (Finsupp.single n 1) = (r n).dims := by
  unfold baseUnits; simp

/-- **C45, temperatures.** For a temperature scale `t` given by `x ↦ x / s + o` over a base unit `k`
with zero offset: multiplying converts to the base unit, and dividing converts back. -/
theorem C45_offset (r : Reg N) (t k : N) (s o : ℝ) (hs : s ≠ 0) (htk : t ≠ k) (ht : (r t).scale = s) (hto : (r t).offset = some o)
    (htd : (r t).dims = Finsupp.single k 1) (hk : (r k).scale = 1) (hko : (r k).offset = some 0) (x : ℝ) :
    (∃ q, rmul r (fresh (Finsupp.single t 1)) x = .ok (x / s + o, q)) ∧
    ∃ q, rdiv r (fresh (Finsupp.single t 1)) (x / s + o) = .ok (x, q) := by
  have hne : (Finsupp.single t 1 : N →₀ ℝ) ≠ Finsupp.single k 1 := by
    intro he; exact htk ((Finsupp.single_left_inj one_ne_zero).1 he)
  have hto' : only (Finsupp.single t (1 : ℝ)) = some t := only_single one_ne_zero
  have hko' : only (Finsupp.single k (1 : ℝ)) = some k := only_single one_ne_zero
  have hdt : dimensionOk r (Finsupp.single t 1) = true := by simp [dimensionOk, hto']
  have hdk : dimensionOk r (Finsupp.single k 1) = true := by simp [dimensionOk, hko']
  have e1 : ∀ y, convert r y (Finsupp.single t 1) (Finsupp.single k 1) = .ok (y / s + o) := by
    intro y
    unfold convert
    rw [if_neg hne, if_neg (by simp [hdt, hdk]), hto', hko']
    simp only [Option.bind_some, hto, hko, Option.map_some, ht, hk]
    congr 1; ring
  have e2 : ∀ y, convert r y (Finsupp.single k 1) (Finsupp.single t 1) = .ok ((y - o) * s) := by
    intro y
    unfold convert
    rw [if_neg hne.symm, if_neg (by simp [hdt, hdk]), hto', hko']
    simp only [Option.bind_some, hto, hko, Option.map_some, ht, hk]
    congr 1; ring
  have hb : baseUnits r (Finsupp.single t 1) = Finsupp.single k 1 := by rw [baseUnits_single, htd]
  have hpb : parseBack r (Finsupp.single t 1) = Finsupp.single t 1 := by
    unfold parseBack
    rw [hto']; simp
  constructor
  · refine ⟨⟨x / s + o, Finsupp.single k 1⟩, ?_⟩
    unfold rmul fresh; dsimp only; rw [hb, e1]; rfl
  · refine ⟨⟨x, Finsupp.single t 1⟩, ?_⟩
    unfold rdiv fresh; dsimp only; rw [hb, hpb, e1, e2]
    have : (x / s + o - o) * s = x := by field_simp; ring
    rw [this]; rfl

/-! A small registry: 0 metre, 1 kelvin, 2 kilometre, 3 Fahrenheit, 4 Fahrenheit difference,
5 kelvin difference. -/

noncomputable def sample : Reg (Fin 6) := fun n =>
  if n = 0 then ⟨true, 1, Finsupp.single 0 1, none, 0⟩
  else if n = 1 then ⟨true, 1, Finsupp.single 1 1, some 0, 5⟩
  else if n = 2 then ⟨false, 1000, Finsupp.single 0 1, none, 0⟩
  else if n = 3 then ⟨false, 9 / 5, Finsupp.single 1 1, some 255.372222, 4⟩
  else if n = 4 then ⟨false, 9 / 5, Finsupp.single 5 1, none, 4⟩
  else ⟨true, 1, Finsupp.single 5 1, none, 5⟩

theorem sample_consistent : Consistent sample := by
  refine ⟨fun n => ?_, fun n b hb => ?_⟩
  · unfold sample; split_ifs <;> norm_num
  · have h0 : b = 0 ∨ b = 1 ∨ b = 5 := by
      unfold sample at hb
      split_ifs at hb <;> simp [Finsupp.support_single] at hb <;> simp [hb]
    rcases h0 with rfl | rfl | rfl <;> simp [sample]

example : Plain sample (Finsupp.single 2 1) := by
  intro n hn
  rw [baseUnits_single] at hn
  have h0 : n = 2 ∨ n = 0 := by
    rcases hn with hn | hn
    · left; simpa using hn
    · right; simpa [sample] using hn
  rcases h0 with rfl | rfl <;> simp [sample]

/-- C45 is false for a unit object that is used twice: `x * unit` turns the object into base units,
so the second use of the same kilometre multiplies by one. -/
theorem C45_reuse_counterexample :
    ∃ q q', rmul sample (fresh (Finsupp.single 2 1)) 3 = .ok (3000, q) ∧ rmul sample q 4 = .ok (4, q') := by
  have hb : baseUnits sample (Finsupp.single 2 1) = Finsupp.single 0 1 := by rw [baseUnits_single]; simp [sample]
  have hp : Plain sample (Finsupp.single 2 1) := by
    intro n hn
    rw [hb] at hn
    have h0 : n = 2 ∨ n = 0 := by
      rcases hn with hn | hn
      · left; simpa using hn
      · right; simpa using hn
    rcases h0 with rfl | rfl <;> simp [sample]
  have hw : worth sample (Finsupp.single 2 1) = 1000 := by
    unfold worth
    rw [Finsupp.support_single _ one_ne_zero]
    simp [sample]
  have e1 := rmul_units sample sample_consistent _ (Or.inl (plain_product hp)) hp.cancels 1 3
  rw [hw] at e1
  norm_num at e1
  have hpb := plain_base sample_consistent hp
  have := rmul_units sample sample_consistent (baseUnits sample (Finsupp.single 2 1)) (Or.inl (plain_product hpb)) hpb.cancels 3000 4
  rw [worth_base sample sample_consistent, one_mul] at this
  exact ⟨⟨3000, baseUnits sample (Finsupp.single 2 1)⟩, _, e1, this⟩

/-- C45 is false for products with kelvin: multiplying by metre per kelvin works, dividing raises a
`DimensionalityError`, because the unit is read back as metre per kelvin difference. -/
theorem C45_kelvin_counterexample (x : ℝ) :
    ∃ u : Fin 6 →₀ ℝ, (∃ q, rmul sample (fresh u) x = .ok (x, q)) ∧ rdiv sample (fresh u) x = .error .dimensionality := by
  set u : Fin 6 →₀ ℝ := Finsupp.single 0 1 - Finsupp.single 1 1 with hu
  have u0 : u 0 = 1 := by simp [hu]
  have u1 : u 1 = -1 := by simp [hu]
  have hb : baseUnits sample u = u := by
    rw [hu, baseUnits_sub, baseUnits_single, baseUnits_single]; simp [sample]
  have hon : only u = none := by
    rcases ho : only u with _ | n
    · rfl
    · have := only_eq ho
      have m0 : (0 : Fin 6) ∈ u.support := by rw [Finsupp.mem_support_iff, u0]; norm_num
      have m1 : (1 : Fin 6) ∈ u.support := by rw [Finsupp.mem_support_iff, u1]; norm_num
      rw [this, Finset.mem_singleton] at m0 m1
      exact absurd (m0.trans m1.symm) (by decide)
  have hpb : parseBack sample u = Finsupp.single 0 1 - Finsupp.single 5 1 := by
    unfold parseBack
    rw [hon]
    simp only
    rw [hu, sub_eq_add_neg, ← Finsupp.single_neg, Finsupp.mapDomain_add, Finsupp.mapDomain_single, Finsupp.mapDomain_single]
    simp [sample, sub_eq_add_neg]
  have hcc : ∀ y, convert sample y u u = .ok y := fun y => by unfold convert; rw [if_pos rfl]
  refine ⟨u, ⟨⟨x, baseUnits sample u⟩, ?_⟩, ?_⟩
  · unfold rmul fresh; dsimp only; rw [hb, hcc]; rfl
  · unfold rdiv fresh
    dsimp only
    rw [hb, hcc, hpb]
    have hne : u ≠ Finsupp.single 0 1 - Finsupp.single 5 1 := by
      intro he
      have := congrArg (fun f => f 1) he
      simp [u1] at this
    have hsupp : ∀ v : Fin 6 →₀ ℝ, (∀ n, v n ≠ 0 → n = 0 ∨ n = 1 ∨ n = 5) → dimensionOk sample v = true := by
      intro v hv
      unfold dimensionOk
      simp only [Bool.or_eq_true, decide_eq_true_eq]
      refine Or.inr fun n hn => Or.inl ?_
      rcases hv n (Finsupp.mem_support_iff.1 hn) with rfl | rfl | rfl <;> simp [sample]
    have hd1 : dimensionOk sample u = true := hsupp u (by
      intro n hn
      by_contra hc; push Not at hc
      apply hn; simp [hu, Ne.symm hc.1, Ne.symm hc.2.1])
    have hd2 : dimensionOk sample (Finsupp.single 0 1 - Finsupp.single 5 1) = true := hsupp _ (by
      intro n hn
      by_contra hc; push Not at hc
      apply hn; simp [Ne.symm hc.1, Ne.symm hc.2.2])
    have hsc : convertScale sample x u (Finsupp.single 0 1 - Finsupp.single 5 1) = .error .dimensionality := by
      unfold convertScale
      rw [if_pos]
      rw [baseUnits_sub, hb, baseUnits_sub, baseUnits_single, baseUnits_single]
      intro he
      have := congrArg (fun f => f 1) he
      simp [u1, sample] at this
    have hcv : convert sample x u (Finsupp.single 0 1 - Finsupp.single 5 1) = .error .dimensionality := by
      unfold convert
      rw [if_neg hne, if_neg (by simp [hd1, hd2]), hon]
      exact hsc
    rw [hcv]; rfl

/-- C45 is false for temperature differences: nine Fahrenheit degrees more are five kelvin more, but
nine units of the Fahrenheit difference convert to 16.2 kelvin. -/
theorem C45_delta_counterexample :
    sample 4 = deltaAtom sample 3 ∧
    (∀ x : ℝ, ∃ q q' y y', rmul sample (fresh (Finsupp.single 3 1)) x = .ok (y, q) ∧
      rmul sample (fresh (Finsupp.single 3 1)) (x + 9) = .ok (y', q') ∧ y' - y = 5) ∧
    ∃ q, rmul sample (fresh (Finsupp.single 4 1)) 9 = .ok (16.2, q) := by
  refine ⟨by simp [sample, deltaAtom], fun x => ?_, ?_⟩
  · have h : ∀ y, _ := fun y => (C45_offset sample 3 1 (9 / 5) 255.372222 (by norm_num) (by decide) (by simp [sample]) (by simp [sample])
      (by simp [sample]) (by simp [sample]) (by simp [sample]) y).1
    obtain ⟨q, hq⟩ := h x
    obtain ⟨q', hq'⟩ := h (x + 9)
    exact ⟨q, q', _, _, hq, hq', by ring⟩
  · have hb : baseUnits sample (Finsupp.single 4 1) = Finsupp.single 5 1 := by rw [baseUnits_single]; simp [sample]
    have hp : Plain sample (Finsupp.single 4 1) := by
      intro n hn
      rw [hb] at hn
      have h0 : n = 4 ∨ n = 5 := by
        rcases hn with hn | hn
        · left; simpa using hn
        · right; simpa using hn
      rcases h0 with rfl | rfl <;> simp [sample]
    have hw : worth sample (Finsupp.single 4 1) = 9 / 5 := by
      unfold worth
      rw [Finsupp.support_single _ one_ne_zero]
      simp [sample]
    have e1 := rmul_units sample sample_consistent _ (Or.inl (plain_product hp)) hp.cancels 1 9
    rw [hw] at e1
    refine ⟨⟨16.2, baseUnits sample (Finsupp.single 4 1)⟩, ?_⟩
    unfold fresh
    rw [e1]; norm_num

end Verif.Units
