import Verif.Core.UpdateLemmas
import Mathlib.Data.Fintype.Card
import Mathlib.Data.Finset.Card
/-!
Properties C05 and C06: appending to `Data` and to component containers.
-/

namespace Verif.Core
variable {R : Type}

/-! ### Helper lemmas -/

theorem toList_set_new (a : Items R) (k : Key) (v : Val R) (h : k ∉ a.keys) :
    (a.set k v).toList = a.toList ++ [(k, v)] := by
  match a with
  | .nil => simp [Items.set, Items.toList]
  | .cons k' v' rest =>
    simp only [Items.keys, List.mem_cons, not_or] at h
    simp [Items.set, Items.toList, Ne.symm h.1, toList_set_new rest k v h.2]

theorem keys_eq_toList (a : Items R) : a.keys = a.toList.map Prod.fst := by
  match a with
  | .nil => rfl
  | .cons k v rest => simp [Items.keys, Items.toList, keys_eq_toList rest]

theorem normChar_table : ∀ c ∈ tableChars, normChar c = '_' := by
  intro c hc; simp [normChar, hc]

theorem underscore_mem : '_' ∈ tableChars := by decide

theorem isUpper_iff (c : Char) : c.isUpper = true ↔ 65 ≤ c.val.toNat ∧ c.val.toNat ≤ 90 := by
  simp [Char.isUpper, UInt32.le_iff_toNat_le]

theorem tableChars_not_lower : ∀ c ∈ tableChars, ¬ (97 ≤ c.val.toNat ∧ c.val.toNat ≤ 122) := by
  decide

theorem toLower_val (c : Char) (h : c.isUpper = true) :
    c.toLower.val.toNat = c.val.toNat + 32 := by
  have h' := (isUpper_iff c).1 h
  unfold Char.toLower
  rw [dif_pos (by simpa [Char.isUpper] using h)]
  simp only [UInt32.toNat_add]
  have : ('a'.val - 'A'.val).toNat = 32 := rfl
  rw [this]
  omega

theorem toLower_of_not_upper (c : Char) (h : c.isUpper = false) : c.toLower = c := by
  unfold Char.toLower
  rw [dif_neg]
  simpa [Char.isUpper] using h

theorem normChar_idem (c : Char) : normChar (normChar c) = normChar c := by
  unfold normChar
  by_cases h1 : c ∈ tableChars
  · simp [h1, underscore_mem]
  · by_cases h2 : c.isUpper = true
    · have hv := toLower_val c h2
      have hr := (isUpper_iff c).1 h2
      have h3 : c.toLower ∉ tableChars := by
        intro hm
        exact tableChars_not_lower _ hm (by omega)
      have h4 : c.toLower.isUpper = false := by
        rw [Bool.eq_false_iff]; intro hu
        have := (isUpper_iff _).1 hu
        omega
      simp [h1, h2, h3, h4]
    · simp [h1, h2]

theorem normChar_not_upper (c : Char) : (normChar c).isUpper = false := by
  unfold normChar
  by_cases h1 : c ∈ tableChars
  · simp [h1]
  · by_cases h2 : c.isUpper = true
    · simp only [h1, if_false, h2, if_true]
      have hv := toLower_val c h2
      have hr := (isUpper_iff c).1 h2
      rw [Bool.eq_false_iff]; intro hu
      have := (isUpper_iff _).1 hu
      omega
    · simp [h1, h2]

theorem norm_idem (k : Key) : norm (norm k) = norm k := by
  simp [norm, normChar_idem]

theorem lower_norm (k : Key) : lower (norm k) = norm k := by
  unfold lower norm
  rw [List.map_map]
  apply List.map_congr_left
  intro c _
  exact toLower_of_not_upper _ (normChar_not_upper c)

theorem normChar_digit (c : Char) (h : c.isDigit = true) : normChar c = c := by
  have hd : 48 ≤ c.val.toNat ∧ c.val.toNat ≤ 57 := by
    simpa [Char.isDigit, UInt32.le_iff_toNat_le] using h
  unfold normChar
  have ht : ∀ c ∈ tableChars, ¬ (48 ≤ c.val.toNat ∧ c.val.toNat ≤ 57) := by decide
  have h1 : c ∉ tableChars := fun hm => ht c hm hd
  have h2 : c.isUpper = false := by
    rw [Bool.eq_false_iff]; intro hu
    have := (isUpper_iff c).1 hu
    omega
  simp [h1, h2]

theorem norm_tag_digits (k : Key) (n : Nat) :
    norm (norm k ++ showNat n) = norm k ++ showNat n := by
  unfold norm
  rw [List.map_append, List.map_map]
  congr 1
  · apply List.map_congr_left; intro c _; exact normChar_idem c
  · conv_rhs => rw [← List.map_id (showNat n)]
    apply List.map_congr_left
    intro c hc
    exact normChar_digit c (Nat.isDigit_of_mem_toDigits (by omega) (by omega) hc)

theorem showNat_injective : Function.Injective showNat := by
  intro a b h
  have := congrArg (fun l => Nat.ofDigitChars 10 l 0) h
  simpa [showNat, Nat.ofDigitChars_ten_toDigits] using this

/-- The raw key used by `append`. -/
def rawKey (v : Val R) (key : Option Key) : Except Err Key :=
  match key with
  | some k => .ok k
  | none => tagOf v

theorem append_unfold (self : Items R) (v : Val R) (key : Option Key) (k : Key)
    (hk : rawKey v key = .ok k) :
    append self v key = if norm k ∈ self.keys then .error .keyError
      else .ok (self.set (norm k) v) := by
  unfold append
  cases key with
  | some k' =>
    simp only [rawKey, Except.ok.injEq] at hk
    subst hk
    cases hf : self.find? (norm k') with
    | none =>
      have := (Items.find?_eq_none_iff _ _).1 hf
      simp [hf, this, bind, Except.bind, pure, Except.pure]
    | some w =>
      have : norm k' ∈ self.keys := (Items.mem_keys_iff _ _).2 (by simp [hf])
      simp [hf, this, bind, Except.bind, pure, Except.pure]
  | none =>
    simp only [rawKey] at hk
    cases hf : self.find? (norm k) with
    | none =>
      have := (Items.find?_eq_none_iff _ _).1 hf
      simp [hf, hk, this, bind, Except.bind]
    | some w =>
      have : norm k ∈ self.keys := (Items.mem_keys_iff _ _).2 (by simp [hf])
      simp [hf, hk, this, bind, Except.bind]

theorem append_noTag (self : Items R) (v : Val R) (e : Err) (h : tagOf v = .error e) :
    append self v none = .error e := by
  simp [append, h, bind, Except.bind]

theorem tagOf_setTag (v : Val R) (s : Key) (h : ∃ t, tagOf v = .ok t) :
    tagOf (setTag v s) = .ok s := by
  cases v with
  | leaf x => simp [tagOf] at h
  | node kvs =>
    simp only [tagOf, setTag]
    rw [Items.find?_set_self]

/-! ### C05 -/

/-- The name under which `append(value,key)` files the element: the normalised key, or the
normalised tag of the value when no key is given. -/
def filedUnder (v : Val R) (key : Option Key) : Except Err Key :=
  match key with
  | some k => .ok (norm k)
  | none => (tagOf v).map norm

/-- **C05 (one append).** `Data.append` raises KeyError exactly when the name is taken;
otherwise it adds exactly one entry at the end and touches nothing else. -/
theorem C05_append_spec (self : Items R) (v : Val R) (key : Option Key) (k : Key)
    (hk : filedUnder v key = .ok k) :
    (k ∈ self.keys → append self v key = .error .keyError) ∧
    (k ∉ self.keys → ∃ s', append self v key = .ok s' ∧ s'.toList = self.toList ++ [(k, v)]) := by
  have : ∃ k0, rawKey v key = .ok k0 ∧ norm k0 = k := by
    cases key with
    | some k' => simp only [filedUnder, Except.ok.injEq] at hk; exact ⟨k', rfl, hk⟩
    | none =>
      simp only [filedUnder] at hk
      cases ht : tagOf v with
      | error e => simp [ht, Except.map] at hk
      | ok t => simp [ht, Except.map] at hk; exact ⟨t, ht, hk⟩
  obtain ⟨k0, h0, h1⟩ := this
  rw [append_unfold self v key k0 h0, h1]
  constructor
  · intro h; simp [h]
  · intro h
    refine ⟨self.set k v, by simp [h], toList_set_new self k v h⟩

/-- **C05 (no tag).** Without key and tag the append raises and changes nothing. -/
theorem C05_append_noTag (self : Items R) (v : Val R) (e : Err)
    (h : filedUnder v none = .error e) : append self v none = .error e := by
  simp only [filedUnder] at h
  cases ht : tagOf v with
  | error e' =>
    simp [ht, Except.map] at h
    subst h
    exact append_noTag self v _ ht
  | ok t => simp [ht, Except.map] at h

/-- A history of appends; a raising append leaves the container as it was. -/
def appendRun (self : Items R) : List (Val R × Option Key) → Items R
  | [] => self
  | (v, key) :: ops => match append self v key with
    | .ok s' => appendRun s' ops
    | .error _ => appendRun self ops

theorem append_ok_find (self s' : Items R) (v : Val R) (key : Option Key)
    (h : append self v key = .ok s') :
    ∃ k, filedUnder v key = .ok k ∧ k ∉ self.keys ∧ s' = self.set k v := by
  have key' : ∀ k0, rawKey v key = .ok k0 → norm k0 ∉ self.keys ∧ s' = self.set (norm k0) v := by
    intro k0 h0
    rw [append_unfold self v key k0 h0] at h
    by_cases hm : norm k0 ∈ self.keys
    · simp [hm] at h
    · simp [hm] at h; exact ⟨hm, h.symm⟩
  cases key with
  | some k' => exact ⟨norm k', rfl, key' k' rfl⟩
  | none =>
    cases ht : tagOf v with
    | error e => rw [append_noTag self v e ht] at h; simp at h
    | ok t => exact ⟨norm t, by simp [filedUnder, ht, Except.map], key' t ht⟩

theorem appendRun_keeps (self : Items R) (ops : List (Val R × Option Key)) (k : Key) (v : Val R)
    (h : self.find? k = some v) : (appendRun self ops).find? k = some v := by
  induction ops generalizing self with
  | nil => simpa [appendRun] using h
  | cons op ops ih =>
    obtain ⟨w, key⟩ := op
    simp only [appendRun]
    cases ha : append self w key with
    | error e => exact ih self h
    | ok s' =>
      obtain ⟨k', _, hn, rfl⟩ := append_ok_find self s' w key ha
      apply ih
      have : k' ≠ k := by
        rintro rfl
        exact hn ((Items.mem_keys_iff _ _).2 (by simp [h]))
      rw [Items.find?_set_ne _ _ _ _ this, h]

/-- **C05 (histories).** In any history of appends, every element whose append succeeded is
still stored under its name at the end. -/
theorem C05_append_history (self : Items R) (before after : List (Val R × Option Key))
    (v : Val R) (key : Option Key) (s' : Items R)
    (h : append (appendRun self before) v key = .ok s') :
    ∃ k, filedUnder v key = .ok k ∧
      (appendRun self (before ++ (v, key) :: after)).find? k = some v := by
  obtain ⟨k, hk, hn, hs⟩ := append_ok_find _ _ _ _ h
  refine ⟨k, hk, ?_⟩
  have hrun : ∀ (s : Items R) (b c : List (Val R × Option Key)),
      appendRun s (b ++ c) = appendRun (appendRun s b) c := by
    intro s b
    induction b generalizing s with
    | nil => intro c; rfl
    | cons op b ih =>
      intro c
      obtain ⟨w, key'⟩ := op
      simp only [List.cons_append, appendRun]
      cases append s w key' with
      | ok s1 => exact ih s1 c
      | error e => exact ih s c
  rw [hrun]
  simp only [appendRun, h]
  apply appendRun_keeps
  rw [hs, Items.find?_set_self]

/-- **C05 (normalised names).** Normalising is idempotent, so an element can be looked up
again under the name it was filed under. -/
theorem C05_norm_idempotent (k : Key) : norm (norm k) = norm k := norm_idem k

/-- An element with tag `s`. -/
def tagged (s : String) (n : Int) : Val Int :=
  .node (.cons "tag".toList (.leaf (.str s.toList)) (.cons ['n'] (.leaf (.num n)) .nil))

example : filedUnder (tagged "Main Wing" 1) none = .ok "main_wing".toList ∧
    (appendRun (.nil : Items Int) [(tagged "Main Wing" 1, none), (tagged "main-wing" 2, none),
      (tagged "tail" 3, none)]).keys = ["main_wing".toList, "tail".toList] := by decide

/-! ### C06 -/

/-- **C06 (one append).** When `Container.append` does not raise, the element is stored
under the normalised form of the tag it ends up with, that name was not in use, exactly one
entry is added at the end and no other entry changes; the element itself differs at most in
its tag, and only when its name was taken. -/
theorem C06_containerAppend_spec (rnd : Nat) (self s' : Items R) (v v' : Val R)
    (h : containerAppend rnd self v = .ok (s', v')) :
    ∃ raw t, tagOf v = .ok raw ∧ tagOf v' = .ok t ∧ norm t ∉ self.keys ∧
      s'.toList = self.toList ++ [(norm t, v')] ∧
      (norm raw ∉ self.keys → v' = v) ∧ (norm raw ∈ self.keys → v' = setTag v t ∧ norm t = t) := by
  unfold containerAppend at h
  cases ht : tagOf v with
  | error e => simp [ht, bind, Except.bind] at h
  | ok raw =>
    simp only [ht, bind, Except.bind, lower_norm] at h
    by_cases hm : norm raw ∈ self.keys
    · simp only [hm, if_true] at h
      generalize ht2 : (if norm raw ++ showNat (count self.keys.flatten raw + 1) ∈ self.keys then
        norm raw ++ showNat (count self.keys.flatten raw + rnd) else
        norm raw ++ showNat (count self.keys.flatten raw + 1)) = t2 at h
      have hnorm : norm t2 = t2 := by
        rw [← ht2]; split <;> exact norm_tag_digits _ _
      have htag : tagOf (setTag v t2) = .ok t2 := tagOf_setTag v t2 ⟨raw, ht⟩
      cases ha : append self (setTag v t2) none with
      | error e => simp [ha] at h
      | ok s1 =>
        simp only [ha, Except.ok.injEq, Prod.mk.injEq] at h
        obtain ⟨rfl, rfl⟩ := h
        obtain ⟨k, hk, hn, rfl⟩ := append_ok_find _ _ _ _ ha
        simp only [filedUnder, htag, Except.map, Except.ok.injEq] at hk
        subst hk
        exact ⟨raw, t2, rfl, htag, hn, toList_set_new _ _ _ hn, fun h => absurd hm h,
          fun _ => ⟨rfl, hnorm⟩⟩
    · simp only [hm, if_false] at h
      cases ha : append self v none with
      | error e => simp [ha] at h
      | ok s1 =>
        simp only [ha, Except.ok.injEq, Prod.mk.injEq] at h
        obtain ⟨rfl, rfl⟩ := h
        obtain ⟨k, hk, hn, rfl⟩ := append_ok_find _ _ _ _ ha
        simp only [filedUnder, ht, Except.map, Except.ok.injEq] at hk
        subst hk
        exact ⟨raw, raw, rfl, ht, hn, toList_set_new _ _ _ hn, fun _ => rfl, fun h => absurd h hm⟩

/-- A history of container appends with the random draws used; a raising append leaves the
container as it was. -/
def containerRun (self : Items R) : List (Nat × Val R) → Items R
  | [] => self
  | (rnd, v) :: ops => match containerAppend rnd self v with
    | .ok (s', _) => containerRun s' ops
    | .error _ => containerRun self ops

/-- **C06 (histories).** Whatever the draws, in any history of appends the entries present
at any moment are a prefix of the entries present later: nothing is lost or reordered. -/
theorem C06_container_history (self : Items R) (ops : List (Nat × Val R)) :
    self.toList <+: (containerRun self ops).toList := by
  induction ops generalizing self with
  | nil => simp [containerRun]
  | cons op ops ih =>
    obtain ⟨rnd, v⟩ := op
    simp only [containerRun]
    cases h : containerAppend rnd self v with
    | error e => exact ih self
    | ok r =>
      obtain ⟨s', v'⟩ := r
      obtain ⟨_, _, _, _, _, hl, _⟩ := C06_containerAppend_spec rnd self s' v v' h
      exact (hl ▸ List.prefix_append _ _).trans (ih s')

/-- **C06 (keys stay distinct).** -/
theorem C06_container_nodup (self : Items R) (hs : self.keys.Nodup) (ops : List (Nat × Val R)) :
    (containerRun self ops).keys.Nodup := by
  induction ops generalizing self with
  | nil => simpa [containerRun] using hs
  | cons op ops ih =>
    obtain ⟨rnd, v⟩ := op
    simp only [containerRun]
    cases h : containerAppend rnd self v with
    | error e => exact ih self hs
    | ok r =>
      obtain ⟨s', v'⟩ := r
      obtain ⟨_, _, _, _, hn, hl, _⟩ := C06_containerAppend_spec rnd self s' v v' h
      apply ih
      rw [keys_eq_toList, hl, List.map_append, ← keys_eq_toList]
      exact List.nodup_append.2 ⟨hs, by simp, by
        intro a ha b hb; simp at hb; subst hb; rintro rfl; exact hn ha⟩

/-- **C06 (some draw works).** For a tagged element and a container of at most 1000
entries there is an admissible random draw for which the append succeeds. -/
theorem C06_container_some_draw (self : Items R) (v : Val R) (raw : Key)
    (ht : tagOf v = .ok raw) (hlen : self.keys.length ≤ 1000) :
    ∃ rnd ≤ 1000, ∃ r, containerAppend rnd self v = .ok r := by
  by_contra hcon
  push Not at hcon
  have hbad : ∀ rnd ≤ 1000,
      norm raw ++ showNat (count self.keys.flatten raw + rnd) ∈ self.keys := by
    intro rnd hr
    by_contra hnot
    have hno := hcon rnd hr
    unfold containerAppend at hno
    simp only [ht, bind, Except.bind, lower_norm] at hno
    by_cases hm : norm raw ∈ self.keys
    · simp only [hm, if_true] at hno
      generalize ht2 : (if norm raw ++ showNat (count self.keys.flatten raw + 1) ∈ self.keys then
        norm raw ++ showNat (count self.keys.flatten raw + rnd) else
        norm raw ++ showNat (count self.keys.flatten raw + 1)) = t2 at hno
      have hnorm : norm t2 = t2 := by
        rw [← ht2]; split <;> exact norm_tag_digits _ _
      have hfresh : t2 ∉ self.keys := by
        rw [← ht2]; split
        · exact hnot
        · assumption
      have htag : tagOf (setTag v t2) = .ok t2 := tagOf_setTag v t2 ⟨raw, ht⟩
      have := append_unfold self (setTag v t2) none t2 htag
      rw [hnorm, if_neg hfresh] at this
      simp only [this] at hno
      exact hno _ rfl
    · simp only [hm, if_false] at hno
      have := append_unfold self v none raw ht
      rw [if_neg hm] at this
      simp only [this] at hno
      exact hno _ rfl
  let f : Nat → Key := fun rnd => norm raw ++ showNat (count self.keys.flatten raw + rnd)
  have hinj : Function.Injective f := by
    intro a b hab
    have := List.append_cancel_left hab
    have := showNat_injective this
    omega
  have hsub : (Finset.range 1001).image f ⊆ self.keys.toFinset := by
    intro x hx
    simp only [Finset.mem_image, Finset.mem_range] at hx
    obtain ⟨n, hn, rfl⟩ := hx
    simpa using hbad n (by omega)
  have h1 := Finset.card_le_card hsub
  rw [Finset.card_image_of_injective _ hinj, Finset.card_range] at h1
  have h2 := self.keys.toFinset_card_le
  omega

/-- Not every draw works: after appending `x` and `x3`, a second `x` with draw 1 collides
again and raises, although a free name exists. -/
theorem C06_container_draw_can_fail :
    containerAppend 1 (containerRun (.nil : Items Int) [(0, tagged "x" 1), (0, tagged "x3" 2)])
      (tagged "x" 3) = .error .keyError := by rfl

example : (containerRun (.nil : Items Int)
    [(0, tagged "Wing" 1), (0, tagged "wing" 2), (5, tagged "wing" 3)]).keys =
    ["wing".toList, "wing2".toList, "wing3".toList] := by decide

end Verif.Core
