import Mathlib.Algebra.Order.Field.Basic
import Mathlib.Logic.Equiv.Basic
import Mathlib.Tactic.Linarith
import Mathlib.Tactic.FieldSimp
import Mathlib.Tactic.Ring
import Mathlib.Tactic.NormNum
/-!
C24: Latin hypercube sampling
(trunk/SUAVE/Methods/Utilities/latin_hypercube_sampling.py:22-76).

Simplifications: exact arithmetic; the random numbers of line 56 are an arbitrary matrix `r`,
each in-place column shuffle (65-66) an arbitrary permutation.
-/

namespace Verif.Num

variable {K : Type} [Field K] [LinearOrder K]

/-- The `criterion` argument: the two known strings or anything else. -/
inductive Criterion where
  | random | center | other
deriving DecidableEq

/-- Errors of the function. -/
inductive LhsErr where
  | zeroDivision | notImplemented
deriving DecidableEq

/-- Lines 50-62: the unshuffled array. -/
def lhsBase (samples dims : Nat) (crit : Criterion) (r : Fin samples → Fin dims → K) :
    Except LhsErr (Fin samples → Fin dims → K) :=
  if samples = 0 then .error .zeroDivision
  else
    let segsize : K := 1 / samples
    match crit with
    | .random => .ok fun k j => (k : K) * segsize + r k j * segsize
    | .center => .ok fun k _ => (k : K) * segsize + 1 / 2 * segsize
    | .other => .error .notImplemented

/-- The whole function; `bounds` are per-dimension lower and upper bounds (71-74). -/
def lhs (samples dims : Nat) (crit : Criterion) (r : Fin samples → Fin dims → K)
    (shuffle : Fin dims → Equiv.Perm (Fin samples)) (bounds : Option ((Fin dims → K) × (Fin dims → K))) :
    Except LhsErr (Fin samples → Fin dims → K) :=
  match lhsBase samples dims crit r with
  | .error e => .error e
  | .ok b =>
    let a : Fin samples → Fin dims → K := fun k j => b (shuffle j k) j
    match bounds with
    | none => .ok a
    | some (lo, hi) => .ok fun k j => a k j * (hi j - lo j) + lo j

/-- Bounds actually in force: the unit cube when none are given. -/
def effBounds {dims : Nat} (bounds : Option ((Fin dims → K) × (Fin dims → K))) : (Fin dims → K) × (Fin dims → K) :=
  match bounds with
  | none => (fun _ => 0, fun _ => 1)
  | some b => b

/-- Slice `s` of `n` equal slices of [lo,hi), half open. -/
def InSlice (lo hi : K) (n s : Nat) (v : K) : Prop :=
  lo + s * ((hi - lo) / n) ≤ v ∧ v < lo + (s + 1) * ((hi - lo) / n)

variable [IsStrictOrderedRing K]

omit [LinearOrder K] [IsStrictOrderedRing K] in
theorem lhs_ok {samples dims : Nat} {crit : Criterion} {r : Fin samples → Fin dims → K}
    {shuffle : Fin dims → Equiv.Perm (Fin samples)} {bounds : Option ((Fin dims → K) × (Fin dims → K))}
    {a : Fin samples → Fin dims → K} (h : lhs samples dims crit r shuffle bounds = .ok a) :
    ∃ b, lhsBase samples dims crit r = .ok b ∧
      ∀ k j, a k j = b (shuffle j k) j * ((effBounds bounds).2 j - (effBounds bounds).1 j) + (effBounds bounds).1 j := by
  unfold lhs at h
  cases hb : lhsBase samples dims crit r with
  | error e => rw [hb] at h; cases h
  | ok b =>
    rw [hb] at h
    refine ⟨b, rfl, fun k j => ?_⟩
    cases bounds with
    | none =>
      simp only [Except.ok.injEq] at h
      subst h
      simp [effBounds]
    | some p =>
      simp only [Except.ok.injEq] at h
      subst h
      rfl

theorem slice_unique {lo hi v : K} {n s t : Nat} (hn : 0 < n) (hlt : lo < hi) (h1 : InSlice lo hi n s v)
    (h2 : InSlice lo hi n t v) : s = t := by
  have hd : 0 < (hi - lo) / n := div_pos (by linarith) (by exact_mod_cast hn)
  unfold InSlice at h1 h2
  have a1 : (s : K) * ((hi - lo) / n) < ((t : K) + 1) * ((hi - lo) / n) := by linarith [h1.1, h2.2]
  have a2 : (t : K) * ((hi - lo) / n) < ((s : K) + 1) * ((hi - lo) / n) := by linarith [h1.2, h2.1]
  have b1 := lt_of_mul_lt_mul_right a1 hd.le
  have b2 := lt_of_mul_lt_mul_right a2 hd.le
  have c1 : s < t + 1 := by exact_mod_cast b1
  have c2 : t < s + 1 := by exact_mod_cast b2
  omega

theorem base_slice {samples dims : Nat} {crit : Criterion} {r : Fin samples → Fin dims → K}
    (hr : ∀ k j, 0 ≤ r k j ∧ r k j < 1) {b : Fin samples → Fin dims → K}
    (h : lhsBase samples dims crit r = .ok b) (k : Fin samples) (j : Fin dims) (lo hi : K) (hlt : lo < hi) :
    InSlice lo hi samples k (b k j * (hi - lo) + lo) := by
  have hn : 0 < samples := k.pos
  have hnK : (0 : K) < samples := by exact_mod_cast hn
  unfold lhsBase at h
  rw [if_neg hn.ne'] at h
  have hd : 0 < (hi - lo) / samples := div_pos (by linarith) hnK
  have key : ∀ t : K, 0 ≤ t → t < 1 →
      InSlice lo hi samples k (((k : K) * (1 / samples) + t * (1 / samples)) * (hi - lo) + lo) := by
    intro t h0 h1
    have e : ((k : K) * (1 / samples) + t * (1 / samples)) * (hi - lo) + lo
        = lo + (k : K) * ((hi - lo) / samples) + t * ((hi - lo) / samples) := by
      field_simp; ring
    rw [e]
    constructor
    · have := mul_nonneg h0 hd.le; linarith
    · have := mul_lt_mul_of_pos_right h1 hd; linarith
  cases crit with
  | random => simp only [Except.ok.injEq] at h; subst h; exact key _ (hr k j).1 (hr k j).2
  | center =>
    simp only [Except.ok.injEq] at h; subst h
    exact key _ (by norm_num) (by norm_num)
  | other => cases h

/-- **C24, stratification.** For every dimension and every slice there is exactly one sample in
that slice, whatever the random numbers and shuffles. -/
theorem C24_stratified {samples dims : Nat} (crit : Criterion) (r : Fin samples → Fin dims → K)
    (hr : ∀ k j, 0 ≤ r k j ∧ r k j < 1) (shuffle : Fin dims → Equiv.Perm (Fin samples))
    (bounds : Option ((Fin dims → K) × (Fin dims → K)))
    (hb : ∀ j, (effBounds bounds).1 j < (effBounds bounds).2 j) (a : Fin samples → Fin dims → K)
    (h : lhs samples dims crit r shuffle bounds = .ok a) (j : Fin dims) (s : Fin samples) :
    ∃! k, InSlice ((effBounds bounds).1 j) ((effBounds bounds).2 j) samples s (a k j) := by
  obtain ⟨b, hbase, ha⟩ := lhs_ok h
  have hs : ∀ k, InSlice ((effBounds bounds).1 j) ((effBounds bounds).2 j) samples (shuffle j k) (a k j) := by
    intro k
    rw [ha]
    exact base_slice hr hbase _ j _ _ (hb j)
  refine ⟨(shuffle j).symm s, ?_, ?_⟩
  · have := hs ((shuffle j).symm s)
    rwa [Equiv.apply_symm_apply] at this
  · intro k hk
    have := slice_unique s.pos (hb j) (hs k) hk
    rw [Equiv.eq_symm_apply]
    exact Fin.ext this

/-- **C24, bounds.** Every sample lies within the bounds. -/
theorem C24_within {samples dims : Nat} (crit : Criterion) (r : Fin samples → Fin dims → K)
    (hr : ∀ k j, 0 ≤ r k j ∧ r k j < 1) (shuffle : Fin dims → Equiv.Perm (Fin samples))
    (bounds : Option ((Fin dims → K) × (Fin dims → K)))
    (hb : ∀ j, (effBounds bounds).1 j < (effBounds bounds).2 j) (a : Fin samples → Fin dims → K)
    (h : lhs samples dims crit r shuffle bounds = .ok a) (k : Fin samples) (j : Fin dims) :
    (effBounds bounds).1 j ≤ a k j ∧ a k j < (effBounds bounds).2 j := by
  obtain ⟨b, hbase, ha⟩ := lhs_ok h
  have hs := base_slice hr hbase (shuffle j k) j _ _ (hb j)
  rw [← ha] at hs
  have hn : (0 : K) < samples := by exact_mod_cast k.pos
  have hd : 0 < ((effBounds bounds).2 j - (effBounds bounds).1 j) / samples := div_pos (by linarith [hb j]) hn
  have hk : ((shuffle j k : Nat) : K) + 1 ≤ samples := by exact_mod_cast (shuffle j k).isLt
  have hfull : (samples : K) * (((effBounds bounds).2 j - (effBounds bounds).1 j) / samples)
      = (effBounds bounds).2 j - (effBounds bounds).1 j := by field_simp
  constructor
  · have : (0:K) ≤ ((shuffle j k : Nat) : K) * (((effBounds bounds).2 j - (effBounds bounds).1 j) / samples) :=
      mul_nonneg (Nat.cast_nonneg _) hd.le
    linarith [hs.1]
  · have := mul_le_mul_of_nonneg_right hk hd.le
    linarith [hs.2]

omit [LinearOrder K] [IsStrictOrderedRing K] in
/-- **C24, centre criterion.** The coordinates of the samples in a dimension are exactly the
slice mid-points: sample `k` is the mid-point of slice `shuffle k`. -/
theorem C24_center [CharZero K] {samples dims : Nat} (r : Fin samples → Fin dims → K)
    (shuffle : Fin dims → Equiv.Perm (Fin samples))
    (bounds : Option ((Fin dims → K) × (Fin dims → K))) (a : Fin samples → Fin dims → K)
    (h : lhs samples dims .center r shuffle bounds = .ok a) (j : Fin dims) (s : Fin samples) :
    ∃ k, a k j = (effBounds bounds).1 j + (s + 1 / 2) * (((effBounds bounds).2 j - (effBounds bounds).1 j) / samples) := by
  obtain ⟨b, hbase, ha⟩ := lhs_ok h
  refine ⟨(shuffle j).symm s, ?_⟩
  rw [ha, Equiv.apply_symm_apply]
  unfold lhsBase at hbase
  rw [if_neg s.pos.ne'] at hbase
  simp only [Except.ok.injEq] at hbase
  subst hbase
  have hn : (samples : K) ≠ 0 := by exact_mod_cast s.pos.ne'
  field_simp
  ring

omit [LinearOrder K] [IsStrictOrderedRing K] in
/-- **C24, errors.** The call fails exactly for zero samples or an unknown criterion. -/
theorem C24_errors {samples dims : Nat} (crit : Criterion) (r : Fin samples → Fin dims → K)
    (shuffle : Fin dims → Equiv.Perm (Fin samples)) (bounds : Option ((Fin dims → K) × (Fin dims → K))) :
    (∃ e, lhs samples dims crit r shuffle bounds = .error e) ↔ samples = 0 ∨ crit = .other := by
  unfold lhs lhsBase
  by_cases hs : samples = 0
  · simp [hs]
  · cases crit <;> cases bounds <;> simp [hs]

/-- Three samples in [10,16) at the centres, shuffled by a swap. -/
example : ∃ a, lhs (K := ℚ) 3 1 .center (fun _ _ => 0) (fun _ => Equiv.swap 0 2) (some (fun _ => 10, fun _ => 16)) = .ok a ∧
    a 0 0 = 15 ∧ a 1 0 = 13 ∧ a 2 0 = 11 := by
  refine ⟨_, rfl, ?_, ?_, ?_⟩
  · simp [Equiv.swap_apply_left]; norm_num
  · have : (Equiv.swap (0 : Fin 3) 2) 1 = 1 := by decide
    simp only [this]; norm_num
  · have : (Equiv.swap (0 : Fin 3) 2) 2 = 0 := by decide
    simp only [this]; norm_num

end Verif.Num
