import Verif.Core.UpdateLemmas
/-!
Property C07: `pack_array('vector')` and `unpack_array` are inverse to each other.
-/

namespace Verif.Core
variable {R : Type}

/-! ### Specification -/

/-- A 2-d array really has the declared shape. -/
def Leaf.Shaped : Leaf R → Prop
  | .mat n m rows => rows.length = n ∧ ∀ r ∈ rows, r.length = m
  | _ => True

/-- Number of scalars a leaf holds for the solver: scalars, 1-d and 2-d arrays count. -/
def Leaf.size : Leaf R → Nat
  | .num _ => 1
  | .vec xs => xs.length
  | .mat n m _ => n * m
  | _ => 0

mutual
def Val.Shaped : Val R → Prop
  | .leaf x => x.Shaped
  | .node kvs => kvs.Shaped
def Items.Shaped : Items R → Prop
  | .nil => True
  | .cons _ v rest => v.Shaped ∧ rest.Shaped
end

mutual
/-- Total number of scalars held. -/
def Val.size : Val R → Nat
  | .leaf x => x.size
  | .node kvs => kvs.size
def Items.size : Items R → Nat
  | .nil => 0
  | .cons _ v rest => v.size + rest.size
end

/-- Same kind and shape; everything that is not a scalar, 1-d or 2-d array is equal. -/
def Leaf.Similar : Leaf R → Leaf R → Prop
  | .num _, .num _ => True
  | .vec xs, .vec ys => xs.length = ys.length
  | .mat n m _, .mat n' m' _ => n = n' ∧ m = m'
  | a, b => a = b

mutual
/-- Same keys in the same order and similar leaves. -/
def Val.Similar : Val R → Val R → Prop
  | .leaf x, .leaf y => x.Similar y
  | .node a, .node b => Items.Similar a b
  | _, _ => False
def Items.Similar : Items R → Items R → Prop
  | .nil, .nil => True
  | .cons k v rest, .cons k' v' rest' => k = k' ∧ Val.Similar v v' ∧ Items.Similar rest rest'
  | _, _ => False
end

/-! ### Helper lemmas on column-major flattening -/

theorem flatMap_const_getElem? {α : Type} (f : Nat → List α) (n m : Nat)
    (hf : ∀ j < m, (f j).length = n) (i j : Nat) (hi : i < n) (hj : j < m) :
    ((List.range m).flatMap f)[i + j * n]? = (f j)[i]? := by
  induction m with
  | zero => omega
  | succ m ih =>
    rw [List.range_succ, List.flatMap_append]
    have hlen : ((List.range m).flatMap f).length = m * n := by
      clear ih hj
      induction m with
      | zero => simp
      | succ m ih =>
        rw [List.range_succ, List.flatMap_append, List.length_append,
          ih (fun j hj => hf j (by omega))]
        simp only [List.flatMap_cons, List.flatMap_nil, List.append_nil]
        rw [hf m (by omega), Nat.succ_mul]
    rcases Nat.lt_succ_iff_lt_or_eq.1 hj with h | h
    · rw [List.getElem?_append_left]
      · exact ih (fun j hj => hf j (by omega)) h
      · rw [hlen]
        calc i + j * n < n + j * n := by omega
          _ = (j + 1) * n := by rw [Nat.succ_mul]; omega
          _ ≤ m * n := Nat.mul_le_mul_right n h
    · subst h
      rw [List.getElem?_append_right (by rw [hlen]; omega), hlen]
      simp

theorem flatMap_const_length {α : Type} (f : Nat → List α) (n m : Nat)
    (hf : ∀ j < m, (f j).length = n) : ((List.range m).flatMap f).length = m * n := by
  induction m with
  | zero => simp
  | succ m ih =>
    rw [List.range_succ, List.flatMap_append, List.length_append,
      ih (fun j hj => hf j (by omega))]
    simp only [List.flatMap_cons, List.flatMap_nil, List.append_nil]
    rw [hf m (by omega), Nat.succ_mul]

theorem filterMap_get_total {α β : Type} (f : α → Option β) (l : List α)
    (h : ∀ a ∈ l, (f a).isSome) :
    (l.filterMap f).length = l.length ∧ ∀ i : Nat, (l.filterMap f)[i]? = l[i]?.bind f := by
  induction l with
  | nil => simp
  | cons a l ih =>
    have ha := h a (by simp)
    obtain ⟨b, hb⟩ := Option.isSome_iff_exists.1 ha
    have := ih (fun x hx => h x (by simp [hx]))
    simp only [List.filterMap_cons, hb, List.length_cons, this.1, true_and]
    intro i
    cases i with
    | zero => simp [hb]
    | succ i => simpa using this.2 i

theorem column_spec (n m : Nat) (rows : List (List R)) (h1 : rows.length = n)
    (h2 : ∀ r ∈ rows, r.length = m) (j : Nat) (hj : j < m) :
    (rows.filterMap fun r => r[j]?).length = n ∧
    ∀ i : Nat, (rows.filterMap fun r => r[j]?)[i]? = rows[i]?.bind (fun r => r[j]?) := by
  have := filterMap_get_total (fun r : List R => r[j]?) rows (by
    intro r hr
    have := h2 r hr
    simp [this, hj])
  exact ⟨by rw [this.1, h1], this.2⟩

theorem ravelF_length (n m : Nat) (rows : List (List R)) (h1 : rows.length = n)
    (h2 : ∀ r ∈ rows, r.length = m) : (ravelF m rows).length = n * m := by
  rw [ravelF, flatMap_const_length _ n m (fun j hj => (column_spec n m rows h1 h2 j hj).1),
    Nat.mul_comm]

theorem reshapeF_ravelF (n m : Nat) (rows : List (List R)) (h1 : rows.length = n)
    (h2 : ∀ r ∈ rows, r.length = m) : reshapeF n m (ravelF m rows) = rows := by
  have hidx : ∀ i < n, ∀ j < m, (ravelF m rows)[i + j * n]? = rows[i]?.bind (fun r => r[j]?) := by
    intro i hi j hj
    rw [ravelF, flatMap_const_getElem? _ n m (fun j hj => (column_spec n m rows h1 h2 j hj).1)
      i j hi hj]
    exact (column_spec n m rows h1 h2 j hj).2 i
  unfold reshapeF
  apply List.ext_getElem?
  intro i
  by_cases hi : i < n
  · have hi' : i < rows.length := by omega
    rw [List.getElem?_map, List.getElem?_range hi, Option.map_some, List.getElem?_eq_getElem hi']
    congr 1
    have hlen : rows[i].length = m := h2 _ (List.getElem_mem hi')
    have htot := filterMap_get_total (fun j => (ravelF m rows)[i + j * n]?) (List.range m) (by
      intro j hj
      have hj : j < m := by simpa using hj
      rw [hidx i hi j hj, List.getElem?_eq_getElem hi']
      simp [hlen, hj])
    apply List.ext_getElem?
    intro j
    rw [htot.2 j]
    by_cases hj : j < m
    · rw [List.getElem?_range hj]
      simp only [Option.bind_some]
      rw [hidx i hi j hj, List.getElem?_eq_getElem hi']
      simp
    · have h3 : (List.range m)[j]? = none := by simp; omega
      have h4 : rows[i][j]? = none := by simp [hlen]; omega
      rw [h3, h4]; rfl
  · have h3 : rows[i]? = none := by simp; omega
    rw [h3]; simp; omega

theorem reshapeF_shaped (n m : Nat) (xs : List R) (h : xs.length = n * m) :
    (reshapeF n m xs).length = n ∧ ∀ r ∈ reshapeF n m xs, r.length = m := by
  unfold reshapeF
  refine ⟨by simp, ?_⟩
  intro r hr
  simp only [List.mem_map, List.mem_range] at hr
  obtain ⟨i, hi, rfl⟩ := hr
  have := (filterMap_get_total (fun j => xs[i + j * n]?) (List.range m) (by
    intro j hj
    have hj : j < m := by simpa using hj
    have : i + j * n < xs.length := by
      rw [h]
      calc i + j * n < n + j * n := by omega
        _ = (j + 1) * n := by rw [Nat.succ_mul]; omega
        _ ≤ m * n := Nat.mul_le_mul_right n hj
        _ = n * m := Nat.mul_comm _ _
    simp [this])).1
  simpa using this

theorem reshapeF_getElem? (n m : Nat) (xs : List R) (h : xs.length = n * m) (i j : Nat)
    (hi : i < n) (hj : j < m) :
    (reshapeF n m xs)[i]?.bind (fun r => r[j]?) = xs[i + j * n]? := by
  unfold reshapeF
  rw [List.getElem?_map, List.getElem?_range hi, Option.map_some, Option.bind_some]
  have := (filterMap_get_total (fun j => xs[i + j * n]?) (List.range m) (by
    intro j hj
    have hj : j < m := by simpa using hj
    have : i + j * n < xs.length := by
      rw [h]
      calc i + j * n < n + j * n := by omega
        _ = (j + 1) * n := by rw [Nat.succ_mul]; omega
        _ ≤ m * n := Nat.mul_le_mul_right n hj
        _ = n * m := Nat.mul_comm _ _
    simp [this])).2 j
  rw [this, List.getElem?_range hj]; rfl

theorem ravelF_reshapeF (n m : Nat) (xs : List R) (h : xs.length = n * m) :
    ravelF m (reshapeF n m xs) = xs := by
  obtain ⟨h1, h2⟩ := reshapeF_shaped n m xs h
  apply List.ext_getElem?
  intro k
  by_cases hk : k < n * m
  · have hn : 0 < n := by
      rcases Nat.eq_zero_or_pos n with h0 | h0
      · subst h0; simp at hk
      · exact h0
    have hi : k % n < n := Nat.mod_lt _ hn
    have hj : k / n < m := Nat.div_lt_of_lt_mul hk
    have hkd : k % n + (k / n) * n = k := by rw [Nat.mul_comm]; exact Nat.mod_add_div k n
    have e1 := flatMap_const_getElem? (fun j => (reshapeF n m xs).filterMap fun r => r[j]?) n m
      (fun j hj => (column_spec n m _ h1 h2 j hj).1) (k % n) (k / n) hi hj
    rw [hkd] at e1
    rw [ravelF, e1, (column_spec n m _ h1 h2 _ hj).2, reshapeF_getElem? n m xs h _ _ hi hj, hkd]
  · have h3 : xs[k]? = none := by simp; omega
    have h4 : (ravelF m (reshapeF n m xs))[k]? = none := by
      rw [List.getElem?_eq_none_iff, ravelF_length n m _ h1 h2]; omega
    rw [h3, h4]

/-! ### Leaves -/

theorem packLeaf_length (l : Leaf R) (h : l.Shaped) : (packLeaf l).length = l.size := by
  cases l <;> simp [packLeaf, Leaf.size]
  case mat n m rows => exact ravelF_length n m rows h.1 h.2

theorem unpackLeaf_pack (s t : Leaf R) (hs : s.Shaped) (h : s.Similar t) (rest : List R) :
    unpackLeaf t (packLeaf s ++ rest) = .ok (s, rest) := by
  cases s <;> cases t <;> simp [Leaf.Similar] at h <;>
    first
    | (simp [unpackLeaf, packLeaf, h]; done)
    | skip
  case vec.vec xs ys =>
    simp [unpackLeaf, packLeaf, assignSlice, ← h, bind, Except.bind]
  case mat.mat n m rows n' m' rows' =>
    obtain ⟨rfl, rfl⟩ := h
    have hl := ravelF_length n m rows hs.1 hs.2
    have h1 : (packLeaf (.mat n m rows) ++ rest).take (n * m) = ravelF m rows :=
      List.take_left' hl
    have h2 : (packLeaf (.mat n m rows) ++ rest).drop (n * m) = rest := List.drop_left' hl
    simp only [unpackLeaf, h1, h2]
    rw [if_pos hl, reshapeF_ravelF n m rows hs.1 hs.2]

theorem unpackLeaf_ok (t : Leaf R) (xs : List R) (h : t.size ≤ xs.length) (ht : t.Shaped) :
    ∃ s, unpackLeaf t xs = .ok (s, xs.drop t.size) ∧ s.Shaped ∧ s.Similar t ∧
      packLeaf s = xs.take t.size := by
  cases t with
  | num x =>
    cases xs with
    | nil => simp [Leaf.size] at h
    | cons y ys => exact ⟨.num y, by simp [unpackLeaf, Leaf.size, Leaf.Shaped, Leaf.Similar, packLeaf]⟩
  | vec v =>
    simp only [Leaf.size] at h ⊢
    refine ⟨.vec (xs.take v.length), ?_, trivial, ?_, rfl⟩
    · simp [unpackLeaf, assignSlice, h, bind, Except.bind]
    · simp [Leaf.Similar, h]
  | mat n m rows =>
    simp only [Leaf.size] at h ⊢
    have hl : (xs.take (n * m)).length = n * m := by simp [h]
    refine ⟨.mat n m (reshapeF n m (xs.take (n * m))), ?_, ?_, ⟨rfl, rfl⟩, ?_⟩
    · simp [unpackLeaf, h]
    · exact reshapeF_shaped n m _ hl
    · exact ravelF_reshapeF n m _ hl
  | none => exact ⟨.none, by simp [unpackLeaf, Leaf.size, Leaf.Shaped, Leaf.Similar, packLeaf]⟩
  | str s => exact ⟨.str s, by simp [unpackLeaf, Leaf.size, Leaf.Shaped, Leaf.Similar, packLeaf]⟩
  | list s => exact ⟨.list s, by simp [unpackLeaf, Leaf.size, Leaf.Shaped, Leaf.Similar, packLeaf]⟩
  | tensor s => exact ⟨.tensor s, by simp [unpackLeaf, Leaf.size, Leaf.Shaped, Leaf.Similar, packLeaf]⟩
  | obj s => exact ⟨.obj s, by simp [unpackLeaf, Leaf.size, Leaf.Shaped, Leaf.Similar, packLeaf]⟩

/-! ### Trees -/

mutual
theorem packVal_length : (v : Val R) → v.Shaped → (packVal v).length = v.size
  | .leaf x, h => by
    simp only [Val.Shaped] at h
    simpa [packVal, Val.size] using packLeaf_length x h
  | .node kvs, h => by
    simp only [Val.Shaped] at h
    simpa [packVal, Val.size] using packItems_length kvs h
theorem packItems_length : (a : Items R) → a.Shaped → (packItems a).length = a.size
  | .nil, _ => by simp [packItems, Items.size]
  | .cons k v rest, h => by
    simp only [Items.Shaped] at h
    simp [packItems, Items.size, packVal_length v h.1, packItems_length rest h.2]
end

mutual
theorem unpackVal_pack : (s t : Val R) → s.Shaped → s.Similar t → (rest : List R) →
    unpackVal t (packVal s ++ rest) = .ok (s, rest)
  | .leaf x, .leaf y, hs, h, rest => by
    simp only [Val.Shaped] at hs
    simp only [Val.Similar] at h
    simp [unpackVal, packVal, unpackLeaf_pack x y hs h rest, bind, Except.bind]
  | .node a, .node b, hs, h, rest => by
    simp only [Val.Shaped] at hs
    simp only [Val.Similar] at h
    simp [unpackVal, packVal, unpackItems_pack a b hs h rest, bind, Except.bind]
  | .leaf _, .node _, _, h, _ => by simp [Val.Similar] at h
  | .node _, .leaf _, _, h, _ => by simp [Val.Similar] at h
theorem unpackItems_pack : (s t : Items R) → s.Shaped → s.Similar t → (rest : List R) →
    unpackItems t (packItems s ++ rest) = .ok (s, rest)
  | .nil, .nil, _, _, rest => by simp [unpackItems, packItems]
  | .cons k v a, .cons k' v' b, hs, h, rest => by
    simp only [Items.Shaped] at hs
    simp only [Items.Similar] at h
    obtain ⟨rfl, h1, h2⟩ := h
    simp only [unpackItems, packItems, List.append_assoc]
    rw [unpackVal_pack v v' hs.1 h1]
    simp only [bind, Except.bind]
    rw [unpackItems_pack a b hs.2 h2]
  | .nil, .cons _ _ _, _, h, _ => by simp [Items.Similar] at h
  | .cons _ _ _, .nil, _, h, _ => by simp [Items.Similar] at h
end

mutual
theorem unpackVal_ok : (t : Val R) → t.Shaped → (xs : List R) → t.size ≤ xs.length →
    ∃ s, unpackVal t xs = .ok (s, xs.drop t.size) ∧ s.Shaped ∧ s.Similar t ∧
      packVal s = xs.take t.size
  | .leaf x, ht, xs, h => by
    simp only [Val.Shaped] at ht
    simp only [Val.size] at h ⊢
    obtain ⟨s, h1, h2, h3, h4⟩ := unpackLeaf_ok x xs h ht
    exact ⟨.leaf s, by simp [unpackVal, h1, bind, Except.bind], by simpa [Val.Shaped] using h2,
      by simpa [Val.Similar] using h3, by simpa [packVal] using h4⟩
  | .node kvs, ht, xs, h => by
    simp only [Val.Shaped] at ht
    simp only [Val.size] at h ⊢
    obtain ⟨s, h1, h2, h3, h4⟩ := unpackItems_ok kvs ht xs h
    exact ⟨.node s, by simp [unpackVal, h1, bind, Except.bind], by simpa [Val.Shaped] using h2,
      by simpa [Val.Similar] using h3, by simpa [packVal] using h4⟩
theorem unpackItems_ok : (t : Items R) → t.Shaped → (xs : List R) → t.size ≤ xs.length →
    ∃ s, unpackItems t xs = .ok (s, xs.drop t.size) ∧ s.Shaped ∧ s.Similar t ∧
      packItems s = xs.take t.size
  | .nil, _, xs, _ => ⟨.nil, by simp [unpackItems, Items.size, Items.Shaped, Items.Similar, packItems]⟩
  | .cons k v rest, ht, xs, h => by
    simp only [Items.Shaped] at ht
    simp only [Items.size] at h ⊢
    obtain ⟨s, h1, h2, h3, h4⟩ := unpackVal_ok v ht.1 xs (by omega)
    obtain ⟨s', g1, g2, g3, g4⟩ := unpackItems_ok rest ht.2 (xs.drop v.size) (by simp; omega)
    refine ⟨.cons k s s', ?_, ?_, ?_, ?_⟩
    · simp [unpackItems, h1, g1, bind, Except.bind, List.drop_drop]
    · simpa [Items.Shaped] using ⟨h2, g2⟩
    · simpa [Items.Similar] using ⟨h3, g3⟩
    · rw [packItems, h4, g4, ← List.take_add]
end

/-! ### Properties -/

/-- **C07 (size).** The packed vector has one entry per scalar held. -/
theorem C07_pack_length (t : Items R) (h : t.Shaped) : (packItems t).length = t.size :=
  packItems_length t h

/-- **C07 (unpack after pack).** Unpacking the vector packed from `s` into any structure
`t` of the same shape gives back `s`: every numeric field is restored, everything else is
untouched, and nothing of the vector is left over. -/
theorem C07_unpack_pack (s t : Items R) (hs : s.Shaped) (h : s.Similar t) :
    unpackItems t (packItems s) = .ok (s, []) := by
  simpa using unpackItems_pack s t hs h []

/-- **C07 (pack after unpack).** Any vector of the right length can be unpacked; the
result has the same shape, and packing it gives the vector back. -/
theorem C07_pack_unpack (t : Items R) (ht : t.Shaped) (xs : List R)
    (hx : xs.length = t.size) :
    ∃ s, unpackItems t xs = .ok (s, []) ∧ s.Shaped ∧ s.Similar t ∧ packItems s = xs := by
  obtain ⟨s, h1, h2, h3, h4⟩ := unpackItems_ok t ht xs (by omega)
  refine ⟨s, ?_, h2, h3, ?_⟩
  · rw [h1, ← hx, List.drop_length]
  · rw [h4, ← hx, List.take_length]

/-- **C07 (too long).** A longer vector is accepted; exactly the surplus is left over (the
code then warns, Core/Data.py:794). -/
theorem C07_unpack_surplus (t : Items R) (ht : t.Shaped) (xs : List R)
    (hx : t.size ≤ xs.length) :
    ∃ s, unpackItems t xs = .ok (s, xs.drop t.size) ∧ s.Similar t ∧
      packItems s = xs.take t.size := by
  obtain ⟨s, h1, _, h3, h4⟩ := unpackItems_ok t ht xs hx
  exact ⟨s, h1, h3, h4⟩

/-- `{a: 1, m: [[1,2,3],[4,5,6]], f: <function>, sub: {v: [7,8]}}`. -/
def exPack : Items Int :=
  .cons ['a'] (.leaf (.num 1)) (.cons ['m'] (.leaf (.mat 2 3 [[1, 2, 3], [4, 5, 6]]))
    (.cons ['f'] (.leaf (.obj 0)) (.cons ['s'] (.node (.cons ['v'] (.leaf (.vec [7, 8])) .nil)) .nil)))

example : exPack.Shaped ∧ exPack.Similar exPack ∧ exPack.size = 9 ∧
    packItems exPack = [1, 1, 4, 2, 5, 3, 6, 7, 8] := by
  refine ⟨?_, ?_, rfl, rfl⟩
  · simp [exPack, Items.Shaped, Val.Shaped, Leaf.Shaped]
  · simp [exPack, Items.Similar, Val.Similar, Leaf.Similar]

end Verif.Core
