import Verif.Stability.SurfaceDerivatives
import Mathlib.Tactic.Linarith
import Mathlib.Tactic.Ring
import Mathlib.Tactic.NormNum

/-! Property C459. -/

namespace Verif.Stability.SurfaceDerivatives

/-- The coefficients grow with the deflection by the slopes `m`. -/
def Affine (m : Coefs) (f : ℝ → Coefs) : Prop := ∃ c : Coefs, ∀ δ,
  (f δ).lift = c.lift + m.lift * δ ∧ (f δ).drag = c.drag + m.drag * δ ∧ (f δ).pitch = c.pitch + m.pitch * δ ∧
  (f δ).yaw = c.yaw + m.yaw * δ ∧ (f δ).roll = c.roll + m.roll * δ

theorem quotients_affine (m : Coefs) (s : Surface) (h : Affine m s.coefs) : quotients false s = m := by
  obtain ⟨c, hc⟩ := h
  cases m
  simp only [quotients, Coefs.mk.injEq]
  obtain ⟨a1, a2, a3, a4, a5⟩ := hc s.deflection
  obtain ⟨b1, b2, b3, b4, b5⟩ := hc (s.deflection + 1 / 10)
  rw [a1, a2, a3, a4, a5, b1, b2, b3, b4, b5]
  have hd : s.deflection + 1 / 10 - s.deflection = (1 / 10 : ℝ) := by ring
  rw [hd]
  refine ⟨?_, ?_, ?_, ?_, ?_⟩ <;> simp <;> ring

theorem wingLoop_append (g : Bool) (r : Record) (a b : List Surface) : wingLoop g r (a ++ b) = wingLoop g (wingLoop g r a) b := by
  simp [wingLoop, List.foldl_append]

/-- Going over the wings is going over all surfaces in turn. -/
theorem record_flatten (g : Bool) (wings : List (List Surface)) : record g wings = wingLoop g (fun _ => none) wings.flatten := by
  unfold record
  generalize (fun _ => none : Record) = r
  induction wings generalizing r with
  | nil => simp [wingLoop]
  | cons cs t ih =>
    rw [List.foldl_cons, List.flatten_cons, wingLoop_append, ih]
    cases cs <;> simp [wingLoop]

theorem wingLoop_other (g : Bool) (l : List Surface) (k : String) (r : Record) (h : ∀ s ∈ l, s.key ≠ k) : wingLoop g r l k = r k := by
  induction l generalizing r with
  | nil => simp [wingLoop]
  | cons s t ih =>
    have : wingLoop g r (s :: t) = wingLoop g (write r s.key (quotients g s)) t := by simp [wingLoop]
    rw [this, ih _ (fun s hs => h s (by simp [hs]))]
    have hs := h s (by simp)
    simp [write, Ne.symm hs]

/-- Of surfaces with one key the last is kept. -/
theorem C459_last_counterexample (g : Bool) (wings : List (List Surface)) (before after : List Surface) (s : Surface)
    (hw : wings.flatten = before ++ s :: after) (ha : ∀ t ∈ after, t.key ≠ s.key) : record g wings s.key = some (quotients g s) := by
  rw [record_flatten, hw, wingLoop_append]
  have : ∀ r, wingLoop g r (s :: after) = wingLoop g (write r s.key (quotients g s)) after := by simp [wingLoop]
  rw [this, wingLoop_other g after s.key _ ha]
  simp [write]

/-- C459, with control surfaces whose keys differ over the whole vehicle and no surrogate: under its key every surface has the slopes of
all five coefficients, exactly for coefficients that are affine in its deflection; nothing is recorded for other keys. -/
theorem C459_slopes_partial (wings : List (List Surface)) (hk : (wings.flatten.map Surface.key).Nodup) :
    (∀ s ∈ wings.flatten, ∀ m, Affine m s.coefs → record false wings s.key = some m) ∧
    ∀ k, (∀ s ∈ wings.flatten, s.key ≠ k) → record false wings k = none := by
  constructor
  · intro s hs m hm
    obtain ⟨before, after, hw⟩ := List.append_of_mem hs
    rw [C459_last_counterexample false wings before after s hw ?_, quotients_affine m s hm]
    intro t ht he
    rw [hw, List.map_append, List.map_cons] at hk
    have h2 := (List.nodup_append.mp hk).2.1
    rw [List.nodup_cons] at h2
    exact h2.1 (he ▸ List.mem_map_of_mem (f := Surface.key) ht)
  · intro k h
    rw [record_flatten, wingLoop_other false _ k _ h]

/-- Flap and elevator on two wings. -/
example : (([[⟨"flap", 0, fun δ => ⟨2 * δ, 0, 0, 0, 0⟩⟩], [], [⟨"elevator", 1, fun δ => ⟨δ, 0, -δ, 0, 0⟩⟩]] :
    List (List Surface)).flatten.map Surface.key).Nodup := by simp

example : Affine ⟨2, 0, -1, 0, 0⟩ (fun δ => ⟨2 * δ + 1, 0, -δ, 0, 0⟩) := ⟨⟨1, 0, 0, 0, 0⟩, fun δ => by simp; ring⟩

/-- C459 fails for equal keys: of a flap on each of two wings only the second is recorded, whatever the first does. -/
theorem C459_keys_counterexample (a b : ℝ → Coefs) (mb : Coefs) (hb : Affine mb b) :
    record false [[⟨"flap", 0, a⟩], [⟨"flap", 0, b⟩]] "flap" = some mb := by
  rw [← quotients_affine mb ⟨"flap", 0, b⟩ hb]
  exact C459_last_counterexample false _ [⟨"flap", 0, a⟩] [] ⟨"flap", 0, b⟩ (by simp) (by simp)

/-- C459 fails with a surrogate: the moments of a surface are recorded as zero whatever they are. -/
theorem C459_surrogate_counterexample (s : Surface) :
    ∃ v, record true [[s]] s.key = some v ∧ v.pitch = 0 ∧ v.yaw = 0 ∧ v.roll = 0 ∧
      v.lift = ((s.coefs (s.deflection + 1 / 10)).lift - (s.coefs s.deflection).lift) * 10 :=
  ⟨quotients true s, C459_last_counterexample true [[s]] [] [] s (by simp) (by simp), by simp [quotients], by simp [quotients],
    by simp [quotients], by
      have hd : s.deflection + 1 / 10 - s.deflection = (1 / 10 : ℝ) := by ring
      simp only [quotients, hd]
      ring⟩

/-- C459, propellers: whatever the order of the perturbed ones, difference `i` is that of propeller `i`. -/
theorem C459_propellers (props perturbed : List (String × PropCoefs)) (ds : List PropCoefs) (h : propellerDifferences props perturbed = some ds) :
    ds.length = props.length ∧ ∀ (i : ℕ) (k : String) (p d : PropCoefs), props[i]? = some (k, p) → ds[i]? = some d →
      ∃ q, perturbed.lookup k = some q ∧ q.thrust = p.thrust + d.thrust ∧ q.power = p.power + d.power := by
  unfold propellerDifferences at h
  induction props generalizing ds with
  | nil => simp at h; subst h; simp
  | cons kp t ih =>
    rw [List.mapM_cons] at h
    cases hl : perturbed.lookup kp.1 with
    | none => simp [hl] at h
    | some q =>
      cases hm : t.mapM fun kp : String × PropCoefs =>
          (perturbed.lookup kp.1).map fun q => (⟨q.thrust - kp.2.thrust, q.power - kp.2.power⟩ : PropCoefs) with
      | none => rw [hm] at h; simp [hl] at h
      | some es =>
        rw [hm] at h
        simp [hl] at h
        subst h
        obtain ⟨h1, h2⟩ := ih es hm
        refine ⟨by simp [h1], fun i k p d hp hd => ?_⟩
        cases i with
        | zero =>
          simp only [List.getElem?_cons_zero, Option.some.injEq] at hp hd
          subst hp hd
          exact ⟨q, hl, by simp, by simp⟩
        | succ i =>
          simp only [List.getElem?_cons_succ] at hp hd
          exact h2 i k p d hp hd

/-- Every propeller that is still there is compared. -/
theorem C459_propellers_there (props perturbed : List (String × PropCoefs)) (h : ∀ kp ∈ props, (perturbed.lookup kp.1).isSome) :
    (propellerDifferences props perturbed).isSome := by
  unfold propellerDifferences
  induction props with
  | nil => simp
  | cons kp t ih =>
    have ht := ih (fun x hx => h x (by simp [hx]))
    have h0 := h kp (by simp)
    rw [Option.isSome_iff_exists] at ht h0
    obtain ⟨es, hes⟩ := ht
    obtain ⟨q, hq⟩ := h0
    rw [List.mapM_cons, hes]
    simp [hq]

example : (propellerDifferences [("a", ⟨1, 2⟩), ("b", ⟨3, 4⟩)] [("b", ⟨5, 6⟩), ("a", ⟨7, 8⟩)]).isSome :=
  C459_propellers_there _ _ (by simp [List.lookup])

end Verif.Stability.SurfaceDerivatives
