import Verif.Diffed.Lemmas
/-!
Properties C10, C11, C12: configurations (`Diffed_Data`).
-/

namespace Verif.Core
variable {R : Type}

/-- The leaf comparison `np.all(va == vb)` only identifies equal values. -/
def Faithful (same : Leaf R → Leaf R → Bool) : Prop := ∀ x y, same x y = true → x = y

/-- The configuration deletes nothing public of its base: wherever both have a `Data`, every
public key of the base is still there. -/
def Covers (c b : Items R) : Prop :=
  ∀ p xs ys k, PublicPath p → isPrivate k = false → (Val.node c).get p = some (.node xs) →
    (Val.node b).get p = some (.node ys) → k ∈ ys.keys → k ∈ xs.keys

theorem Covers.sub {c b : Items R} (h : Covers c b) {k : Key} (hk : isPrivate k = false)
    {xs ys : Items R} (hc : c.find? k = some (.node xs)) (hb : b.find? k = some (.node ys)) :
    Covers xs ys := by
  intro p us ws j hp hj h1 h2 hm
  refine h (k :: p) us ws j ?_ hj (by simpa [Val.get, hc] using h1)
    (by simpa [Val.get, hb] using h2) hm
  intro i hi
  simp only [List.mem_cons] at hi
  rcases hi with rfl | hi
  · exact hk
  · exact hp i hi

/-- What one key of the configuration reads after storing the difference and pulling the
base again. -/
def Restores (same : Leaf R → Leaf R → Bool) (ord : Items R → Items R) (va vb : Val R) : Prop :=
  (match diffVal same ord va vb with
    | none => updVal (some va) vb
    | some d => updVal (some (updVal (some va) vb)) d) = va

theorem pull_store_items (same : Leaf R → Leaf R → Bool)
    (ord : Items R → Items R) (hord : IsReorder ord) (a b : Items R) (ha : a.WF) (hb : b.WF)
    (hcov : Covers a b)
    (helem : ∀ k va, a.find? k = some va → ∀ vb : Val R, vb.WF →
      (∀ xs ys, va = .node xs → vb = .node ys → Covers xs ys) → Restores same ord va vb) :
    updItems (updItems a b) (diff same ord a b) = a := by
    have hkb : ∀ k ∈ b.keys, isPrivate k = false → k ∈ a.keys := by
      intro k hk hp
      exact hcov [] a b k (by simp [PublicPath]) hp rfl rfl hk
    have hk1 : (updItems a b).keys = a.keys := by
      rw [keys_updItems a b hb.nodup, filter_keys_nil a b hkb, List.append_nil]
    have hdn := diff_nodup same ord hord a b ha.nodup hb.nodup
    have hkd : ∀ k ∈ (diff same ord a b).keys, isPrivate k = false → k ∈ (updItems a b).keys := by
      intro k hk hp
      rw [hk1]
      by_contra hna
      have hfa : a.find? k = none := (Items.find?_eq_none_iff _ _).2 hna
      have hfb : b.find? k = none := by
        rw [Items.find?_eq_none_iff]; intro hmb; exact hna (hkb k hmb hp)
      have := find?_diff same ord hord a b ha.nodup hb.nodup k
      rw [hfa, hfb] at this
      rw [Items.mem_keys_iff, this] at hk
      simp at hk
    have hk2 : (updItems (updItems a b) (diff same ord a b)).keys = a.keys := by
      rw [keys_updItems _ _ hdn, filter_keys_nil _ _ hkd, List.append_nil, hk1]
    apply items_ext _ _ hk2 (hk2 ▸ ha.nodup)
    intro k
    rw [find?_updItems _ _ _ hdn]
    by_cases hp : isPrivate k = true
    · rw [if_pos hp, find?_updItems _ _ _ hb.nodup, if_pos hp]
    · have hp' : isPrivate k = false := by simpa using hp
      rw [if_neg hp, find?_updItems _ _ _ hb.nodup, if_neg hp,
        find?_diff same ord hord a b ha.nodup hb.nodup k]
      cases hfa : a.find? k with
      | none =>
        have hna : k ∉ a.keys := (Items.find?_eq_none_iff _ _).1 hfa
        have hfb : b.find? k = none := by
          rw [Items.find?_eq_none_iff]; intro hmb; exact hna (hkb k hmb hp')
        simp [hfb]
      | some va =>
        have hwa := ha.find hfa
        cases hfb : b.find? k with
        | none =>
          simp only [Option.getD_none]
          have hid : updVal (some va) va = va := by
            have := updVal_idem va hwa none
            simpa using this
          cases va with
          | node xs => simp [diffVal, hid]
          | leaf x =>
            simp only [diffVal]
            by_cases hsx : same x .none = true <;> simp [hsx]
        | some vb =>
          simp only [Option.getD_some]
          have hwb := hb.find hfb
          have := helem k va hfa vb hwb (by
            rintro xs ys rfl rfl
            exact hcov.sub hp' hfa hfb)
          unfold Restores at this
          cases hd : diffVal same ord va vb with
          | none => rw [hd] at this; simp only at this ⊢; rw [this]
          | some d => rw [hd] at this; simp only at this ⊢; rw [this]

mutual
theorem pull_store_val (same : Leaf R → Leaf R → Bool) (hs : Faithful same)
    (ord : Items R → Items R) (hord : IsReorder ord) :
    (va vb : Val R) → va.WF → vb.WF →
    (∀ xs ys, va = .node xs → vb = .node ys → Covers xs ys) →
    Restores same ord va vb
  | .node a, .node b, ha, hb, hc => by
    simp only [Val.WF] at ha hb
    have hcov := hc a b rfl rfl
    have hmain := pull_store_items same ord hord a b ha hb hcov
      (pull_store_elem same hs ord hord a ha)
    unfold Restores
    rw [diffVal_node_node]
    cases hd : diff same ord a b with
    | nil =>
      rw [hd] at hmain
      simpa [updVal_node_node] using hmain
    | cons k v rest =>
      rw [hd] at hmain
      simp only [updVal_node_node]
      rw [hmain]
  | .node a, .leaf y, _, _, _ => by simp [Restores, diffVal, updVal_leaf]
  | .leaf x, .node b, _, _, _ => by simp [Restores, diffVal, updVal_leaf]
  | .leaf x, .leaf y, _, _, _ => by
    unfold Restores
    simp only [diffVal]
    by_cases h : same x y = true
    · have := hs x y h
      subst this
      simp [h]
    · simp [h]
theorem pull_store_elem (same : Leaf R → Leaf R → Bool) (hs : Faithful same)
    (ord : Items R → Items R) (hord : IsReorder ord) :
    (a : Items R) → a.WF → (k : Key) → (va : Val R) → a.find? k = some va →
    (vb : Val R) → vb.WF → (∀ xs ys, va = .node xs → vb = .node ys → Covers xs ys) →
    Restores same ord va vb
  | .nil, _, k, va, hf, _, _, _ => by simp at hf
  | .cons k' v' rest, h, k, va, hf, vb, hwb, hc => by
    simp only [Items.WF] at h
    by_cases hk : k' = k
    · have hv : v' = va := by simpa [Items.find?, hk] using hf
      subst hv
      exact pull_store_val same hs ord hord v' vb h.2.1 hwb hc
    · have hf' : rest.find? k = some va := by simpa [Items.find?, hk] using hf
      exact pull_store_elem same hs ord hord rest h.2.2 k va hf' vb hwb hc
end

/-! ### C10 -/

/-- **C10.** If the configuration deletes nothing of its base and leaf comparison is exact,
storing the difference and pulling the (unchanged) base gives back exactly the same
configuration, whatever the iteration order of the key set. -/
theorem C10_store_pull (same : Leaf R → Leaf R → Bool) (hs : Faithful same)
    (ord : Items R → Items R) (hord : IsReorder ord) (c d : Items R) (b : Chain R)
    (hc : c.WF) (hb : b.content.WF) (hcov : Covers c b.content) (hbase : pullBase b = b) :
    (pullBase (storeDiff same ord (.config c d b))).content = c := by
  simp only [storeDiff, pullBase, Chain.content, hbase]
  exact pull_store_items same ord hord c b.content hc hb hcov
    (pull_store_elem same hs ord hord c hc)

/-- A plain vehicle as base satisfies `hbase`. -/
theorem C10_store_pull_vehicle (same : Leaf R → Leaf R → Bool) (hs : Faithful same)
    (ord : Items R → Items R) (hord : IsReorder ord) (c d v : Items R)
    (hc : c.WF) (hv : v.WF) (hcov : Covers c v) :
    (pullBase (storeDiff same ord (.config c d (.plain v)))).content = c :=
  C10_store_pull same hs ord hord c d (.plain v) hc hv hcov rfl

/-- Exact comparison of leaves. -/
def sameExact (x y : Leaf Int) : Bool := decide (x = y)

/-- `np.all(va == vb)` with NumPy broadcasting between an array and a scalar. -/
def sameBroadcast (x y : Leaf Int) : Bool :=
  match x, y with
  | .vec xs, .num a => xs.all (fun z => z == a)
  | .num a, .vec xs => xs.all (fun z => z == a)
  | x, y => decide (x = y)

theorem sameExact_faithful : Faithful sameExact := by
  intro x y h; simpa [sameExact] using h

theorem reorder_id : IsReorder (id : Items R → Items R) := fun _ => List.Perm.refl _

/-- vehicle `{wing: {span: 10, area: 20}}` -/
def exVehicle : Items Int :=
  .cons "wing".toList (.node (.cons "span".toList (.leaf (.num 10))
    (.cons "area".toList (.leaf (.num 20)) .nil))) .nil
/-- configuration `{wing: {span: 11, area: 20, flap: 3}}` -/
def exConfig : Items Int :=
  .cons "wing".toList (.node (.cons "span".toList (.leaf (.num 11))
    (.cons "area".toList (.leaf (.num 20)) (.cons "flap".toList (.leaf (.num 3)) .nil)))) .nil

theorem exConfig_covers : Covers exConfig exVehicle := by
  intro p xs ys k _ _ h1 h2 hm
  rcases p with _ | ⟨w, _ | ⟨u, p⟩⟩
  · simp only [Val.get, Option.some.injEq, Val.node.injEq] at h1 h2
    subst h1; subst h2
    simpa [exConfig, exVehicle, Items.keys] using hm
  · by_cases hw : "wing".toList = w
    · subst hw
      simp [Val.get, exConfig, exVehicle, Items.find?] at h1 h2
      subst h1; subst h2
      simp [Items.keys] at hm ⊢
      tauto
    · simp only [Val.get, exConfig, Items.find?, hw, if_false] at h1
      simp at h1
  · by_cases hw : "wing".toList = w
    · subst hw
      simp only [Val.get, exVehicle, Items.find?, if_true] at h2
      by_cases h3 : "span".toList = u
      · simp only [h3, if_true] at h2; cases p <;> simp [Val.get] at h2
      · by_cases h4 : "area".toList = u
        · simp only [h3, h4, if_true, if_false] at h2; cases p <;> simp [Val.get] at h2
        · simp only [h3, h4, if_false] at h2; simp at h2
    · simp only [Val.get, exConfig, Items.find?, hw, if_false] at h1
      simp at h1

example : exConfig.WF ∧ exVehicle.WF ∧ Covers exConfig exVehicle ∧
    Faithful sameExact ∧ IsReorder (id : Items Int → Items Int) :=
  ⟨by simp [exConfig, Items.WF, Val.WF, Items.keys],
   by simp [exVehicle, Items.WF, Val.WF, Items.keys], exConfig_covers, sameExact_faithful,
   reorder_id⟩

/-- The hypothesis `Faithful` matters: with NumPy broadcasting, a configuration that
replaces the scalar 5 by the array [5,5] loses its array. -/
theorem C10_broadcast_counterexample :
    (pullBase (storeDiff sameBroadcast id
      (.config (.cons ['x'] (.leaf (.vec [5, 5])) .nil) .nil
        (.plain (.cons ['x'] (.leaf (.num 5)) .nil))))).content =
      .cons ['x'] (.leaf (.num 5)) .nil := by rfl

/-! ### C11 -/

/-- Difference of nodes is read path by path: a leaf where configuration and base disagree
is recorded. -/
theorem diff_get_changed (same : Leaf R → Leaf R → Bool) (ord : Items R → Items R)
    (hord : IsReorder ord) (p : List Key) (hne : p ≠ []) :
    ∀ (c b : Items R), c.WF → b.WF → ∀ x y, (Val.node c).get p = some (.leaf x) →
    (Val.node b).get p = some (.leaf y) → same x y = false →
    (Val.node (diff same ord c b)).get p = some (.leaf x) := by
  induction p with
  | nil => exact absurd rfl hne
  | cons k p ih =>
    intro c b hc hb x y hx hy hs
    simp only [Val.get] at hx hy ⊢
    rw [find?_diff same ord hord c b hc.nodup hb.nodup k]
    cases hfc : c.find? k with
    | none => simp [hfc] at hx
    | some vc =>
      cases hfb : b.find? k with
      | none => simp [hfb] at hy
      | some vb =>
        simp only [hfc] at hx
        simp only [hfb] at hy
        simp only [Option.getD_some]
        match vc, vb, hfc, hfb with
        | .leaf x', .leaf y', _, _ =>
          cases p with
          | nil =>
            simp only [Val.get, Option.some.injEq, Val.leaf.injEq] at hx hy
            subst hx; subst hy
            simp [diffVal, hs, Val.get]
          | cons j p => simp [Val.get] at hx
        | .leaf x', .node ys, _, _ =>
          cases p with
          | nil => simp [Val.get] at hy
          | cons j p => simp [Val.get] at hx
        | .node xs, .leaf y', _, _ =>
          cases p with
          | nil => simp [Val.get] at hx
          | cons j p => simp [Val.get] at hy
        | .node xs, .node ys, hfc, hfb =>
          cases p with
          | nil => simp [Val.get] at hx
          | cons j p =>
            have h1 : xs.WF := by simpa [Val.WF] using hc.find hfc
            have h2 : ys.WF := by simpa [Val.WF] using hb.find hfb
            have := ih (by simp) xs ys h1 h2 x y hx hy hs
            rw [diffVal_node_node]
            cases hd : diff same ord xs ys with
            | nil => rw [hd] at this; simp [Val.get] at this
            | cons k' v' r' => rw [hd] at this; exact this

/-- A leaf on which configuration and base agree leaves the difference silent. -/
theorem diff_get_same (same : Leaf R → Leaf R → Bool) (ord : Items R → Items R)
    (hord : IsReorder ord) (p : List Key) (hne : p ≠ []) :
    ∀ (c b : Items R), c.WF → b.WF → ∀ x y, (Val.node c).get p = some (.leaf x) →
    (Val.node b).get p = some (.leaf y) → same x y = true →
    ∃ q k r zs, p = q ++ k :: r ∧ (Val.node (diff same ord c b)).get q = some (.node zs) ∧
      zs.find? k = none := by
  induction p with
  | nil => exact absurd rfl hne
  | cons k p ih =>
    intro c b hc hb x y hx hy hs
    simp only [Val.get] at hx hy
    have hfd := find?_diff same ord hord c b hc.nodup hb.nodup k
    cases hfc : c.find? k with
    | none => simp [hfc] at hx
    | some vc =>
      cases hfb : b.find? k with
      | none => simp [hfb] at hy
      | some vb =>
        simp only [hfc] at hx
        simp only [hfb] at hy
        simp only [hfc, hfb, Option.getD_some] at hfd
        match vc, vb, hfc, hfb with
        | .leaf x', .leaf y', _, _ =>
          cases p with
          | nil =>
            simp only [Val.get, Option.some.injEq, Val.leaf.injEq] at hx hy
            subst hx; subst hy
            refine ⟨[], k, [], diff same ord c b, rfl, rfl, ?_⟩
            rw [hfd]; simp [diffVal, hs]
          | cons j p => simp [Val.get] at hx
        | .leaf x', .node ys, _, _ =>
          cases p with
          | nil => simp [Val.get] at hy
          | cons j p => simp [Val.get] at hx
        | .node xs, .leaf y', _, _ =>
          cases p with
          | nil => simp [Val.get] at hx
          | cons j p => simp [Val.get] at hy
        | .node xs, .node ys, hfc, hfb =>
          cases p with
          | nil => simp [Val.get] at hx
          | cons j p =>
            have h1 : xs.WF := by simpa [Val.WF] using hc.find hfc
            have h2 : ys.WF := by simpa [Val.WF] using hb.find hfb
            obtain ⟨q, k', r, zs, hp, hg, hn⟩ := ih (by simp) xs ys h1 h2 x y hx hy hs
            rw [diffVal_node_node] at hfd
            cases hd : diff same ord xs ys with
            | nil =>
              refine ⟨[], k, j :: p, diff same ord c b, rfl, rfl, ?_⟩
              rw [hfd, hd]
            | cons k2 v2 r2 =>
              refine ⟨k :: q, k', r, zs, by rw [hp]; rfl, ?_, hn⟩
              simp only [Val.get, hfd]
              rw [hd] at hg ⊢
              exact hg

theorem wf_of_elems (a : Items R) (hn : a.keys.Nodup) (h : ∀ k v, a.find? k = some v → v.WF) :
    a.WF := by
  match a with
  | .nil => simp [Items.WF]
  | .cons k v rest =>
    simp only [Items.keys, List.nodup_cons] at hn
    simp only [Items.WF]
    refine ⟨hn.1, h k v (by simp [Items.find?]), wf_of_elems rest hn.2 ?_⟩
    intro k' v' hf
    refine h k' v' ?_
    have : k ≠ k' := by
      rintro rfl
      exact hn.1 ((Items.mem_keys_iff _ _).2 (by simp [hf]))
    simp [Items.find?, this, hf]

mutual
theorem wf_diffVal (same : Leaf R → Leaf R → Bool) (ord : Items R → Items R)
    (hord : IsReorder ord) : (va vb : Val R) → va.WF → vb.WF → ∀ w, diffVal same ord va vb = some w → w.WF
  | .node a, .node b, ha, hb, w, h => by
    simp only [Val.WF] at ha hb
    rw [diffVal_node_node] at h
    have hd := wf_of_elems (diff same ord a b) (diff_nodup same ord hord a b ha.nodup hb.nodup) (by
      intro k v hf
      rw [find?_diff same ord hord a b ha.nodup hb.nodup k] at hf
      cases hfa : a.find? k with
      | none =>
        rw [hfa] at hf
        simp only at hf
        cases hfb : b.find? k with
        | none => simp [hfb] at hf
        | some vb =>
          rw [hfb] at hf
          cases vb with
          | node ys => simp [onlyEntry] at hf; subst hf; simp [Val.WF]
          | leaf y =>
            simp only [onlyEntry, Option.bind_some] at hf
            split at hf
            · simp at hf
            · simp at hf; subst hf; simp [Val.WF]
      | some va =>
        rw [hfa] at hf
        simp only at hf
        refine wf_fromA same ord hord a ha k va hfa _ ?_ v hf
        cases hfb : b.find? k with
        | none => simp [Val.WF]
        | some vb => simpa using hb.find hfb)
    cases hdd : diff same ord a b with
    | nil => rw [hdd] at h; simp at h
    | cons k' v' r' =>
      rw [hdd] at h hd
      simp only [Option.some.injEq] at h
      subst h
      simpa [Val.WF] using hd
  | .node a, .leaf _, ha, _, w, h => by simp [diffVal] at h; subst h; exact ha
  | .leaf x, .node _, _, _, w, h => by simp [diffVal] at h; subst h; simp [Val.WF]
  | .leaf x, .leaf y, _, _, w, h => by
    simp only [diffVal] at h
    split at h
    · simp at h
    · simp at h; subst h; simp [Val.WF]
theorem wf_fromA (same : Leaf R → Leaf R → Bool) (ord : Items R → Items R)
    (hord : IsReorder ord) : (a : Items R) → a.WF → (k : Key) → (va : Val R) → a.find? k = some va →
    (vb : Val R) → vb.WF → ∀ w, diffVal same ord va vb = some w → w.WF
  | .nil, _, k, va, hf, _, _, _, _ => by simp at hf
  | .cons k' v' rest, h, k, va, hf, vb, hwb, w, hw => by
    simp only [Items.WF] at h
    by_cases hk : k' = k
    · have hv : v' = va := by simpa [Items.find?, hk] using hf
      subst hv
      exact wf_diffVal same ord hord v' vb h.2.1 hwb w hw
    · have hf' : rest.find? k = some va := by simpa [Items.find?, hk] using hf
      exact wf_fromA same ord hord rest h.2.2 k va hf' vb hwb w hw
end

theorem wf_diff (same : Leaf R → Leaf R → Bool) (ord : Items R → Items R)
    (hord : IsReorder ord) (a b : Items R) (ha : a.WF) (hb : b.WF) : (diff same ord a b).WF := by
  cases h : diff same ord a b with
  | nil => simp [Items.WF]
  | cons k v r =>
    have := wf_diffVal same ord hord (.node a) (.node b) (by simpa [Val.WF] using ha)
      (by simpa [Val.WF] using hb) (.node (.cons k v r)) (by rw [diffVal_node_node, h])
    simpa [Val.WF] using this

/-- **C11 (undiverged leaf follows the base).** `c` is the configuration when the
difference against base `b0` was stored; the base is then edited to `b1` and pulled.  A
public leaf on which configuration and old base agreed now reads the new base's value. -/
theorem C11_base_edit_propagates (same : Leaf R → Leaf R → Bool)
    (ord : Items R → Items R) (hord : IsReorder ord) (c b0 b1 : Items R)
    (hc : c.WF) (hb0 : b0.WF) (hb1 : b1.WF) (p : List Key) (hne : p ≠ []) (hp : PublicPath p)
    (x y z : Leaf R) (hx : (Val.node c).get p = some (.leaf x))
    (hy : (Val.node b0).get p = some (.leaf y)) (hs : same x y = true)
    (hz : (Val.node b1).get p = some (.leaf z)) :
    (Val.node (pullBase (.config c (diff same ord c b0) (.plain b1))).content).get p =
      some (.leaf z) := by
  simp only [pullBase, Chain.content]
  obtain ⟨q, k, r, zs, rfl, hg, hn⟩ := diff_get_same same ord hord p hne c b0 hc hb0 x y hx hy hs
  rw [C01_update_keeps _ _ (wf_diff same ord hord c b0 hc hb0) q k r zs hg hn]
  exact C01_update_takes c b1 hb1 _ hp hne _ hz (Or.inl rfl)

/-- **C11 (overridden leaf stays).** A public leaf on which the configuration had diverged
keeps the configuration's value, whatever the new base is. -/
theorem C11_override_survives (same : Leaf R → Leaf R → Bool)
    (ord : Items R → Items R) (hord : IsReorder ord) (c b0 b1 : Items R)
    (hc : c.WF) (hb0 : b0.WF) (p : List Key) (hne : p ≠ []) (hp : PublicPath p)
    (x y : Leaf R) (hx : (Val.node c).get p = some (.leaf x))
    (hy : (Val.node b0).get p = some (.leaf y)) (hs : same x y = false) :
    (Val.node (pullBase (.config c (diff same ord c b0) (.plain b1))).content).get p =
      some (.leaf x) := by
  simp only [pullBase, Chain.content]
  exact C01_update_takes _ _ (wf_diff same ord hord c b0 hc hb0) p hp hne _
    (diff_get_changed same ord hord p hne c b0 hc hb0 x y hx hy hs) (Or.inl rfl)

theorem diff_get_added (same : Leaf R → Leaf R → Bool) (ord : Items R → Items R)
    (hord : IsReorder ord) (k : Key) (r : List Key) (x : Leaf R)
    (hs : r = [] → same x .none = false) (q : List Key) :
    ∀ (c b : Items R), c.WF → b.WF → ∀ ys, (Val.node b).get q = some (.node ys) →
    ys.find? k = none → (Val.node c).get (q ++ k :: r) = some (.leaf x) →
    (Val.node (diff same ord c b)).get (q ++ k :: r) = some (.leaf x) := by
  induction q with
  | nil =>
    intro c b hc hb ys hq hn hx
    simp only [Val.get, Option.some.injEq, Val.node.injEq] at hq
    subst hq
    simp only [List.nil_append, Val.get] at hx ⊢
    rw [find?_diff same ord hord c b hc.nodup hb.nodup k, hn]
    cases hfc : c.find? k with
    | none => simp [hfc] at hx
    | some vc =>
      simp only [hfc] at hx
      cases vc with
      | node xs => simpa [diffVal] using hx
      | leaf x' =>
        cases r with
        | nil =>
          simp only [Val.get, Option.some.injEq, Val.leaf.injEq] at hx
          subst hx
          simp [diffVal, hs rfl, Val.get]
        | cons j r => simp [Val.get] at hx
  | cons j q ih =>
    intro c b hc hb ys hq hn hx
    simp only [List.cons_append, Val.get] at hq hx ⊢
    rw [find?_diff same ord hord c b hc.nodup hb.nodup j]
    cases hfc : c.find? j with
    | none => simp [hfc] at hx
    | some vc =>
      cases hfb : b.find? j with
      | none => simp [hfb] at hq
      | some vb =>
        simp only [hfc] at hx
        simp only [hfb] at hq
        simp only [Option.getD_some]
        match vc, vb, hfc, hfb with
        | .leaf x', _, _, _ => cases q <;> simp [Val.get] at hx
        | .node xs, .leaf y', _, _ => cases q <;> simp [Val.get] at hq
        | .node xs, .node ys', hfc, hfb =>
          have h1 : xs.WF := by simpa [Val.WF] using hc.find hfc
          have h2 : ys'.WF := by simpa [Val.WF] using hb.find hfb
          have := ih xs ys' h1 h2 ys hq hn hx
          rw [diffVal_node_node]
          cases hd : diff same ord xs ys' with
          | nil => rw [hd] at this; cases q <;> simp [Val.get] at this
          | cons k' v' r' => rw [hd] at this; exact this

/-- **C11 (added entry stays).** A public leaf that the configuration holds below a key `k`
absent from the old base (where the base has a `Data`) keeps its value under any new base;
only a leaf stored directly under `k` that compares equal to `None` is not recorded. -/
theorem C11_addition_survives (same : Leaf R → Leaf R → Bool)
    (ord : Items R → Items R) (hord : IsReorder ord) (c b0 b1 : Items R)
    (hc : c.WF) (hb0 : b0.WF) (q : List Key) (k : Key) (r : List Key)
    (hp : PublicPath (q ++ k :: r)) (x : Leaf R) (ys : Items R)
    (hx : (Val.node c).get (q ++ k :: r) = some (.leaf x))
    (hq : (Val.node b0).get q = some (.node ys)) (hk : ys.find? k = none)
    (hs : r = [] → same x .none = false) :
    (Val.node (pullBase (.config c (diff same ord c b0) (.plain b1))).content).get
      (q ++ k :: r) = some (.leaf x) := by
  simp only [pullBase, Chain.content]
  have hd := wf_diff same ord hord c b0 hc hb0
  exact C01_update_takes _ _ hd _ hp (by simp) _
    (diff_get_added same ord hord k r x hs q c b0 hc hb0 ys hq hk hx) (Or.inl rfl)

/-- edited vehicle `{wing: {span: 10, area: 25}}` -/
def exVehicle' : Items Int :=
  .cons "wing".toList (.node (.cons "span".toList (.leaf (.num 10))
    (.cons "area".toList (.leaf (.num 25)) .nil))) .nil

example :
    (Val.node exConfig).get ["wing".toList, "area".toList] = some (.leaf (.num 20)) ∧
    (Val.node exVehicle).get ["wing".toList, "area".toList] = some (.leaf (.num 20)) ∧
    (Val.node exVehicle').get ["wing".toList, "area".toList] = some (.leaf (.num 25)) ∧
    (Val.node (pullBase (.config exConfig (diff sameExact id exConfig exVehicle)
      (.plain exVehicle'))).content).get ["wing".toList, "area".toList] = some (.leaf (.num 25)) ∧
    (Val.node (pullBase (.config exConfig (diff sameExact id exConfig exVehicle)
      (.plain exVehicle'))).content).get ["wing".toList, "span".toList] = some (.leaf (.num 11)) :=
  ⟨rfl, rfl, rfl, rfl, rfl⟩

/-! ### C12 -/

/-- **C12 is false of the code.** A public entry of the base that the configuration deleted
is never absent again after `store_diff` and `pull_base`: it comes back (as `None`, or with
the base's value if that compares equal to `None`). -/
theorem C12_deletion_never_survives (same : Leaf R → Leaf R → Bool)
    (ord : Items R → Items R) (hord : IsReorder ord) (c b : Items R)
    (hc : c.WF) (hb : b.WF) (k : Key) (hk : isPrivate k = false)
    (hdel : k ∉ c.keys) (hin : k ∈ b.keys) :
    k ∈ (pullBase (storeDiff same ord (.config c .nil (.plain b)))).content.keys := by
  simp only [storeDiff, pullBase, Chain.content]
  have hd := wf_diff same ord hord c b hc hb
  rw [keys_updItems _ _ hd.nodup, keys_updItems _ _ hb.nodup]
  simp [hin, hk, hdel]

/-- What comes back for a deleted sub-tree or number is `None`. -/
theorem C12_deletion_becomes_none (same : Leaf R → Leaf R → Bool)
    (ord : Items R → Items R) (hord : IsReorder ord) (c b : Items R)
    (hc : c.WF) (hb : b.WF) (k : Key) (hk : isPrivate k = false) (v : Val R)
    (hdel : c.find? k = none) (hin : b.find? k = some v)
    (hv : v.isNode = true ∨ ∃ y, v = .leaf y ∧ same .none y = false) :
    (pullBase (storeDiff same ord (.config c .nil (.plain b)))).content.find? k =
      some (.leaf .none) := by
  simp only [storeDiff, pullBase, Chain.content]
  have hd := wf_diff same ord hord c b hc hb
  rw [find?_updItems _ _ _ hd.nodup, find?_diff same ord hord c b hc.nodup hb.nodup k, hdel, hin]
  rcases hv with hv | ⟨y, rfl, hy⟩
  · cases v with
    | leaf x => simp [Val.isNode] at hv
    | node ys => simp [hk, onlyEntry, updVal_leaf]
  · simp [hk, onlyEntry, hy, updVal_leaf]

example : isPrivate "wing".toList = false ∧ "wing".toList ∉ (Items.nil : Items Int).keys ∧
    "wing".toList ∈ exVehicle.keys ∧
    (pullBase (storeDiff sameExact id (.config .nil .nil (.plain exVehicle)))).content =
      .cons "wing".toList (.leaf .none) .nil := by
  refine ⟨by decide, by simp [Items.keys], by decide, rfl⟩

end Verif.Core
