import Verif.Mission.Merge
import Mathlib.Data.List.Forall2
import Mathlib.Tactic.IntervalCases
/-
C34: merged mission states and unpacking of mission-level unknowns.
-/

namespace Verif.Mission.Merge

variable {R : Type}

/-! ### Specification vocabulary -/

/-- The value at a path of keys. -/
def Val.get : Val R → List String → Option (Val R)
  | v, [] => some v
  | .leaf _, _ :: _ => none
  | .node kvs, k :: p => match kvs.find? k with
    | some v => Val.get v p
    | none => none

/-- Keys of a dictionary. -/
def Items.keys : Items R → List String
  | .nil => []
  | .cons k _ rest => k :: rest.keys

mutual
/-- Python dictionaries have distinct keys. -/
def Val.WF : Val R → Prop
  | .leaf _ => True
  | .node kvs => kvs.WF
def Items.WF : Items R → Prop
  | .nil => True
  | .cons k v rest => k ∉ rest.keys ∧ v.WF ∧ rest.WF
end

/-- The state holds at path `p` an array of trailing shape `s` with these rows. -/
def ArrayAt (v : Val R) (p : List String) (s : List Nat) (rows : List R) : Prop :=
  ∃ x, v.get p = some (.leaf x) ∧ x.rows? = some (s, rows)

/-- Two states agree on trailing shapes wherever both hold an array. -/
def Conform (a b : Val R) : Prop :=
  ∀ q s s' r r', ArrayAt a q s r → ArrayAt b q s' r' → s = s'

/-- No leaf of the state sits on the way to `p`. -/
def Clear (v : Val R) (p : List String) : Prop :=
  ∀ q q', p = q ++ q' → ∀ x, v.get q ≠ some (.leaf x)

/-- No key on the path starts with an underscore. -/
def Public (p : List String) : Prop := ∀ k ∈ p, k.front ≠ '_'

/-! ### Dictionary lemmas -/

theorem find?_set (a : Items R) (k q : String) (v : Val R) :
    (a.set k v).find? q = if k = q then some v else a.find? q := by
  match a with
  | .nil => simp [Items.set, Items.find?]
  | .cons k' v' rest =>
    have ih := find?_set rest k q v
    unfold Items.set
    by_cases h : k' = k
    · subst h
      simp only [if_pos, Items.find?]
      by_cases h2 : k' = q <;> simp [h2]
    · simp only [if_neg h, Items.find?, ih]
      by_cases h2 : k' = q
      · subst h2; simp [Ne.symm h]
      · simp [h2]

theorem find?_none_of_not_mem (a : Items R) (k : String) (h : k ∉ a.keys) : a.find? k = none := by
  match a with
  | .nil => rfl
  | .cons k' v rest =>
    simp only [Items.keys, List.mem_cons, not_or] at h
    simp only [Items.find?, if_neg (Ne.symm h.1)]
    exact find?_none_of_not_mem rest k h.2

theorem WF_find {a : Items R} (h : a.WF) {k : String} {v : Val R} (hf : a.find? k = some v) : v.WF := by
  match a with
  | .nil => simp [Items.find?] at hf
  | .cons k' v' rest =>
    simp only [Items.WF] at h
    simp only [Items.find?] at hf
    by_cases hk : k' = k
    · simp only [if_pos hk, Option.some.injEq] at hf; exact hf ▸ h.2.1
    · simp only [if_neg hk] at hf; exact WF_find h.2.2 hf

mutual
theorem val_ind {P : Val R → Prop} (hl : ∀ x, P (.leaf x))
    (hn : ∀ bs : Items R, (∀ k v, bs.find? k = some v → P v) → P (.node bs)) : ∀ v, P v
  | .leaf x => hl x
  | .node bs => hn bs (items_ind hl hn bs)
theorem items_ind {P : Val R → Prop} (hl : ∀ x, P (.leaf x))
    (hn : ∀ bs : Items R, (∀ k v, bs.find? k = some v → P v) → P (.node bs)) :
    ∀ (bs : Items R) k v, bs.find? k = some v → P v
  | .nil, _, _, h => by simp [Items.find?] at h
  | .cons k' v' rest, k, v, h => by
    simp only [Items.find?] at h
    by_cases hk : k' = k
    · simp only [if_pos hk, Option.some.injEq] at h; exact h ▸ val_ind hl hn v'
    · simp only [if_neg hk] at h; exact items_ind hl hn rest k v h
end

theorem get_node_cons (a : Items R) (k : String) (p : List String) :
    (Val.node a).get (k :: p) = (a.find? k).bind (fun v => v.get p) := by
  simp only [Val.get]; cases a.find? k <;> rfl

theorem get_nil (v : Val R) : v.get [] = some v := by cases v <;> rfl

theorem get_leaf (x : Leaf R) (p : List String) (h : p ≠ []) : (Val.leaf x).get p = none := by
  cases p with
  | nil => exact absurd rfl h
  | cons => rfl

/-! ### One step of `append_or_update` -/

/-- The entries after `A.append_or_update(B)`. -/
theorem aou_find {B : Items R} : ∀ {A C : Items R}, B.WF → aouItems B A = .ok C → ∀ k,
    (k.front = '_' ∨ B.find? k = none → C.find? k = A.find? k) ∧
    (∀ v, k.front ≠ '_' → B.find? k = some v → ∃ c, aouVal v (A.find? k) = .ok c ∧ C.find? k = some c) := by
  match B with
  | .nil =>
    intro A C _ h k
    simp only [aouItems, Except.ok.injEq] at h; subst h
    exact ⟨fun _ => rfl, fun v _ hv => by simp [Items.find?] at hv⟩
  | .cons k' v' rest =>
    intro A C hw h k
    simp only [Items.WF] at hw
    unfold aouItems at h
    by_cases hp : k'.front = '_'
    · simp only [if_pos hp] at h
      have ih := aou_find hw.2.2 h k
      refine ⟨fun hk => ?_, fun v hv hf => ?_⟩
      · by_cases hkk : k' = k
        · exact ih.1 (Or.inl (hkk ▸ hp))
        · rcases hk with hk | hk
          · exact ih.1 (Or.inl hk)
          · simp only [Items.find?, if_neg hkk] at hk; exact ih.1 (Or.inr hk)
      · have hkk : k' ≠ k := fun e => hv (e ▸ hp)
        simp only [Items.find?, if_neg hkk] at hf
        exact ih.2 v hv hf
    · simp only [if_neg hp] at h
      rcases hc : aouVal v' (A.find? k') with e | c
      · simp [hc] at h
      · simp only [hc] at h
        have ih := aou_find hw.2.2 h k
        simp only [find?_set] at ih
        by_cases hkk : k' = k
        · subst hkk
          have hn := find?_none_of_not_mem rest k' hw.1
          simp only [if_true] at ih
          refine ⟨fun hk => ?_, fun v hv hf => ?_⟩
          · rcases hk with hk | hk
            · exact absurd hk hp
            · simp [Items.find?] at hk
          · simp only [Items.find?, if_true, Option.some.injEq] at hf
            subst hf
            exact ⟨c, hc, ih.1 (Or.inr hn)⟩
        · simp only [if_neg hkk] at ih
          simpa only [Items.find?, if_neg hkk] using ih

/-- `A.append_or_update(B)` succeeds when every single entry does. -/
theorem aou_ok {B : Items R} : ∀ {A : Items R}, B.WF →
    (∀ k v, B.find? k = some v → ∃ c, aouVal v (A.find? k) = .ok c) → ∃ C, aouItems B A = .ok C := by
  match B with
  | .nil => intro A _ _; exact ⟨A, rfl⟩
  | .cons k' v' rest =>
    intro A hw h
    simp only [Items.WF] at hw
    unfold aouItems
    have hrest : ∀ A' : Items R, (∀ k, k ≠ k' → A'.find? k = A.find? k) → ∃ C, aouItems rest A' = .ok C := by
      intro A' hA'
      refine aou_ok hw.2.2 fun k v hv => ?_
      have hne : k ≠ k' := by
        rintro rfl
        rw [find?_none_of_not_mem rest k hw.1] at hv; cases hv
      rw [hA' k hne]
      exact h k v (by simp only [Items.find?, if_neg (Ne.symm hne)]; exact hv)
    by_cases hp : k'.front = '_'
    · simp only [if_pos hp]; exact hrest A fun _ _ => rfl
    · obtain ⟨c, hc⟩ := h k' v' (by simp [Items.find?])
      simp only [if_neg hp, hc]
      exact hrest _ fun k hk => by simp [find?_set, Ne.symm hk]

/-- What holds of the value stored for `v` on top of `cur`. -/
structure StepOK (v : Val R) (cur : Option (Val R)) (c : Val R) : Prop where
  /-- arrays of the result come from one of the two, with the same trailing shape -/
  shape : ∀ q s r, ArrayAt c q s r → (∃ r, ArrayAt v q s r) ∨ ∃ a r, cur = some a ∧ ArrayAt a q s r
  /-- where both have an array the rows are stacked -/
  both : ∀ p s ra rb a, Public p → cur = some a → ArrayAt a p s ra → ArrayAt v p s rb → ArrayAt c p s (ra ++ rb)
  /-- where the present value has nothing, the new value appears -/
  right : ∀ p, Public p → (∀ a, cur = some a → a.get p = none) → c.get p = v.get p
  /-- where the new value has nothing, the present one stays -/
  left : ∀ p a, cur = some a → v.get p = none → Clear v p → c.get p = a.get p
  /-- where both have a `Data`, so does the result -/
  nodes : ∀ p a as bs, Public p → cur = some a → a.get p = some (.node as) → v.get p = some (.node bs) →
    ∃ cs, c.get p = some (.node cs)

theorem conform_child {A B : Items R} (h : Conform (.node A) (.node B)) {k : String} {a b : Val R}
    (ha : A.find? k = some a) (hb : B.find? k = some b) : Conform a b := by
  intro q s s' r r' h1 h2
  refine h (k :: q) s s' r r' ?_ ?_
  · obtain ⟨x, hx, hr⟩ := h1
    exact ⟨x, by rw [get_node_cons, ha]; exact hx, hr⟩
  · obtain ⟨x, hx, hr⟩ := h2
    exact ⟨x, by rw [get_node_cons, hb]; exact hx, hr⟩

theorem arrayAt_node {A : Items R} {p : List String} {s : List Nat} {r : List R}
    (h : ArrayAt (.node A) p s r) : ∃ k p' a, p = k :: p' ∧ A.find? k = some a ∧ ArrayAt a p' s r := by
  obtain ⟨x, hx, hr⟩ := h
  cases p with
  | nil => rw [get_nil] at hx; cases hx
  | cons k p' =>
    rw [get_node_cons] at hx
    cases ha : A.find? k with
    | none => rw [ha] at hx; cases hx
    | some a => rw [ha] at hx; exact ⟨k, p', a, rfl, ha, x, hx, hr⟩

theorem arrayAt_cons {A : Items R} {k : String} {p : List String} {s : List Nat} {r : List R} {a : Val R}
    (ha : A.find? k = some a) (h : ArrayAt a p s r) : ArrayAt (.node A) (k :: p) s r := by
  obtain ⟨x, hx, hr⟩ := h
  exact ⟨x, by rw [get_node_cons, ha]; exact hx, hr⟩

theorem arrayAt_leaf {x : Leaf R} {p : List String} {s : List Nat} {r : List R}
    (h : ArrayAt (.leaf x) p s r) : p = [] ∧ x.rows? = some (s, r) := by
  obtain ⟨y, hy, hr⟩ := h
  cases p with
  | nil => rw [get_nil] at hy; cases hy; exact ⟨rfl, hr⟩
  | cons => simp [Val.get] at hy

theorem step_replace {v : Val R} {cur : Option (Val R)}
    (hb : ∀ p s ra rb a, cur = some a → ArrayAt a p s ra → ArrayAt v p s rb → False)
    (hl : ∀ p a, cur = some a → v.get p = none → Clear v p → v.get p = a.get p) : StepOK v cur v where
  shape := fun _ _ r h => Or.inl ⟨r, h⟩
  both := fun p s ra rb a _ hc h1 h2 => (hb p s ra rb a hc h1 h2).elim
  right := fun _ _ _ => rfl
  left := hl
  nodes := fun _ _ _ bs _ _ _ h => ⟨bs, h⟩

theorem leaf_not_node {x : Leaf R} {p : List String} {bs : Items R} (h : (Val.leaf x).get p = some (.node bs)) : False := by
  cases p with
  | nil => rw [get_nil] at h; cases h
  | cons => cases h

/-- One step succeeds on conforming states and does what it should on every path. -/
theorem step_val : ∀ v : Val R, v.WF → ∀ cur : Option (Val R), (∀ a, cur = some a → Conform a v) →
    ∃ c, aouVal v cur = .ok c ∧ StepOK v cur c := by
  refine val_ind ?_ ?_
  · intro x _ cur hcon
    have clearL : ∀ p a, cur = some a → (Val.leaf x).get p = none → Clear (Val.leaf x) p →
        ∀ c : Val R, c.get p = a.get p := fun p a _ _ hc c => absurd rfl (hc [] p rfl x)
    unfold aouVal
    cases hx : x.rows? with
    | none =>
      refine ⟨_, rfl, step_replace ?_ (fun p a h1 h2 h3 => clearL p a h1 h2 h3 _)⟩
      intro p s ra rb a _ _ h2
      have := arrayAt_leaf h2
      rw [hx] at this; cases this.2
    | some sr =>
      obtain ⟨s', r'⟩ := sr
      match cur with
      | none => exact ⟨_, rfl, step_replace (fun _ _ _ _ _ h => by cases h) (fun p a h1 h2 h3 => clearL p a h1 h2 h3 _)⟩
      | some (.node as) =>
        refine ⟨pyNone, rfl, ⟨?_, ?_, ?_, fun p a h1 h2 h3 => clearL p a h1 h2 h3 _, fun _ _ _ _ _ _ _ h => (leaf_not_node h).elim⟩⟩
        · intro q s r h
          have := arrayAt_leaf h
          cases this.2
        · intro p s ra rb a _ ha h1 h2
          cases ha
          obtain ⟨rfl, _⟩ := arrayAt_leaf h2
          obtain ⟨k, p', a, h, _⟩ := arrayAt_node h1
          cases h
        · intro p _ h
          cases p with
          | nil => have := h _ rfl; simp [Val.get] at this
          | cons => rfl
      | some (.leaf y) =>
        cases hy : y.rows? with
        | none =>
          simp only [hy]
          refine ⟨pyNone, rfl, ⟨?_, ?_, ?_, fun p a h1 h2 h3 => clearL p a h1 h2 h3 _, fun _ _ _ _ _ _ _ h => (leaf_not_node h).elim⟩⟩
          · intro q s r h
            have := arrayAt_leaf h
            cases this.2
          · intro p s ra rb a _ ha h1 h2
            cases ha
            have := arrayAt_leaf h1
            rw [hy] at this; cases this.2
          · intro p _ h
            cases p with
            | nil => have := h _ rfl; simp [Val.get] at this
            | cons => rfl
        | some sr =>
          obtain ⟨s, r⟩ := sr
          have hs : s = s' := hcon _ rfl [] s s' r r' ⟨y, get_nil _, hy⟩ ⟨x, get_nil _, hx⟩
          subst hs
          simp only [hy, if_true]
          refine ⟨_, rfl, ⟨?_, ?_, ?_, fun p a h1 h2 h3 => clearL p a h1 h2 h3 _, fun _ _ _ _ _ _ _ h => (leaf_not_node h).elim⟩⟩
          · intro q s1 r1 h
            obtain ⟨rfl, hh⟩ := arrayAt_leaf h
            simp only [Leaf.rows?, Option.some.injEq, Prod.mk.injEq] at hh
            exact Or.inl ⟨r', x, get_nil _, by rw [hx, hh.1]⟩
          · intro p s1 ra rb a _ ha h1 h2
            cases ha
            obtain ⟨rfl, g1⟩ := arrayAt_leaf h1
            obtain ⟨_, g2⟩ := arrayAt_leaf h2
            rw [hy] at g1; rw [hx] at g2
            simp only [Option.some.injEq, Prod.mk.injEq] at g1 g2
            obtain ⟨rfl, rfl⟩ := g1
            obtain ⟨_, rfl⟩ := g2
            exact ⟨_, get_nil _, rfl⟩
          · intro p _ h
            cases p with
            | nil => have := h _ rfl; simp [Val.get] at this
            | cons => rfl
  · intro bs ih hw cur hcon
    simp only [Val.WF] at hw
    match cur with
    | none =>
      exact ⟨_, by unfold aouVal; rfl, step_replace (fun _ _ _ _ _ h => by cases h) (fun _ _ h => by cases h)⟩
    | some (.leaf y) =>
      refine ⟨_, by unfold aouVal; rfl, step_replace ?_ ?_⟩
      · intro p s ra rb a h h1 h2
        cases h
        obtain ⟨rfl, _⟩ := arrayAt_leaf h1
        obtain ⟨_, _, _, h, _⟩ := arrayAt_node h2
        cases h
      · intro p a h h1 _
        cases h
        cases p with
        | nil => rw [get_nil] at h1; cases h1
        | cons => rw [h1]; rfl
    | some (.node as) =>
      have hchild : ∀ k v, bs.find? k = some v → ∃ c, aouVal v (as.find? k) = .ok c ∧ StepOK v (as.find? k) c :=
        fun k v hv => ih k v hv (WF_find hw hv) _ fun a ha => conform_child (hcon _ rfl) ha hv
      obtain ⟨C, hC⟩ := aou_ok (A := as) hw fun k v hv => (hchild k v hv).imp fun _ h => h.1
      have key := aou_find hw hC
      refine ⟨.node C, by unfold aouVal; simp only [hC], ⟨?_, ?_, ?_, ?_, ?_⟩⟩
      · intro q s r h
        obtain ⟨k, q', c, rfl, hc, hq⟩ := arrayAt_node h
        by_cases hk : k.front = '_' ∨ bs.find? k = none
        · rw [(key k).1 hk] at hc
          exact Or.inr ⟨_, r, rfl, arrayAt_cons hc hq⟩
        · simp only [not_or] at hk
          cases hb : bs.find? k with
          | none => exact absurd hb hk.2
          | some v =>
            obtain ⟨c', hc', hs⟩ := hchild k v hb
            obtain ⟨c'', h1, h2⟩ := (key k).2 v hk.1 hb
            rw [hc'] at h1; cases h1
            rw [h2] at hc; cases hc
            rcases hs.shape q' s r hq with ⟨r2, h⟩ | ⟨a, r2, ha, h⟩
            · exact Or.inl ⟨r2, arrayAt_cons hb h⟩
            · exact Or.inr ⟨_, r2, rfl, arrayAt_cons ha h⟩
      · intro p s ra rb a hp ha h1 h2
        cases ha
        obtain ⟨k, p', a, rfl, ha, h1⟩ := arrayAt_node h1
        obtain ⟨k2, p2, b, e, hb, h2⟩ := arrayAt_node h2
        cases e
        obtain ⟨c', hc', hs⟩ := hchild k b hb
        obtain ⟨c'', h3, h4⟩ := (key k).2 b (hp k (by simp)) hb
        rw [hc'] at h3; cases h3
        exact arrayAt_cons h4 (hs.both p' s ra rb a (fun q hq => hp q (by simp [hq])) ha h1 h2)
      · intro p hp h
        cases p with
        | nil => have := h _ rfl; rw [get_nil] at this; cases this
        | cons k p' =>
          have h := h _ rfl
          rw [get_node_cons] at h ⊢
          rw [get_node_cons]
          cases hb : bs.find? k with
          | none =>
            rw [(key k).1 (Or.inr hb), h]; rfl
          | some v =>
            obtain ⟨c', hc', hs⟩ := hchild k v hb
            obtain ⟨c'', h3, h4⟩ := (key k).2 v (hp k (by simp)) hb
            rw [hc'] at h3; cases h3
            rw [h4]
            exact hs.right p' (fun q hq => hp q (by simp [hq])) fun a ha => by rw [ha] at h; exact h
      · intro p a ha h hcl
        cases ha
        cases p with
        | nil => rw [get_nil] at h; cases h
        | cons k p' =>
          rw [get_node_cons] at h ⊢
          rw [get_node_cons]
          cases hb : bs.find? k with
          | none => rw [(key k).1 (Or.inr hb)]
          | some v =>
            by_cases hpk : k.front = '_'
            · rw [(key k).1 (Or.inl hpk)]
            · rw [hb] at h
              obtain ⟨c', hc', hs⟩ := hchild k v hb
              obtain ⟨c'', h3, h4⟩ := (key k).2 v hpk hb
              rw [hc'] at h3; cases h3
              rw [h4]
              have hclv : Clear v p' := by
                intro q q' hq x hx
                refine hcl (k :: q) q' (by rw [hq]; rfl) x ?_
                rw [get_node_cons, hb]; exact hx
              cases ha : as.find? k with
              | some a => exact hs.left p' a ha h hclv
              | none =>
                rw [show (none : Option (Val R)).bind (fun v => v.get p') = none from rfl]
                by_cases hpp : Public p'
                · show c'.get p' = none
                  rw [hs.right p' hpp fun a ha' => by rw [ha] at ha'; cases ha']; exact h
                · -- a fresh key stores the other value itself
                  rw [ha] at hc'
                  have : c' = v := by
                    cases v with
                    | leaf x =>
                      unfold aouVal at hc'
                      cases hx : x.rows? with
                      | none => simp only [hx, Except.ok.injEq] at hc'; exact hc'.symm
                      | some sr => obtain ⟨s, r⟩ := sr; simp only [hx, Except.ok.injEq] at hc'; exact hc'.symm
                    | node bs => unfold aouVal at hc'; simpa using hc'.symm
                  subst this; exact h
      · intro p a as' bs' hp ha h1 h2
        cases ha
        cases p with
        | nil => exact ⟨C, get_nil _⟩
        | cons k p' =>
          rw [get_node_cons] at h1 h2
          cases hb : bs.find? k with
          | none => rw [hb] at h2; cases h2
          | some v =>
            cases ha : as.find? k with
            | none => rw [ha] at h1; cases h1
            | some a =>
              obtain ⟨c', hc', hs⟩ := hchild k v hb
              obtain ⟨c'', h3, h4⟩ := (key k).2 v (hp k (by simp)) hb
              rw [hc'] at h3; cases h3
              rw [ha] at h1; rw [hb] at h2
              rw [get_node_cons, h4]
              exact hs.nodes p' a as' bs' (fun q hq => hp q (by simp [hq])) ha h1 h2

/-! ### The whole loop of `Segment.merged` -/

/-- What a sub-state contributes at path `p`: the rows of its array there, or nothing at all. -/
def Contributes (p : List String) (s : List Nat) (st : Items R) : Option (List R) → Prop
  | some rows => ArrayAt (.node st) p s rows
  | none => (Val.node st).get p = none ∧ Clear (.node st) p

/-- Rows of all that contribute, in order. -/
def combine : Option (List R) → Option (List R) → Option (List R)
  | none, o => o
  | some a, none => some a
  | some a, some b => some (a ++ b)

theorem public_prefix {p q q' : List String} (h : Public p) (e : p = q ++ q') : Public q :=
  fun k hk => h k (by rw [e]; exact List.mem_append_left _ hk)

theorem contributes_step {p : List String} {sh : List Nat} {A B C : Items R} {o1 o2 : Option (List R)}
    (hp : Public p) (hs : StepOK (.node B) (some (.node A)) (.node C))
    (h1 : Contributes p sh A o1) (h2 : Contributes p sh B o2) : Contributes p sh C (combine o1 o2) := by
  cases o1 with
  | some a =>
    cases o2 with
    | some b => exact hs.both p sh a b _ hp rfl h1 h2
    | none =>
      obtain ⟨x, hx, hr⟩ := h1
      exact ⟨x, by rw [hs.left p _ rfl h2.1 h2.2]; exact hx, hr⟩
  | none =>
    have hr := hs.right p hp fun a ha => by cases ha; exact h1.1
    cases o2 with
    | some b =>
      obtain ⟨x, hx, hrr⟩ := h2
      exact ⟨x, by rw [hr]; exact hx, hrr⟩
    | none =>
      refine ⟨by rw [hr]; exact h2.1, ?_⟩
      intro q q' hq x hx
      have hpq := public_prefix hp hq
      cases ha : (Val.node A).get q with
      | none =>
        rw [hs.right q hpq fun a h => by cases h; exact ha] at hx
        exact h2.2 q q' hq x hx
      | some a =>
        cases a with
        | leaf y => exact h1.2 q q' hq y ha
        | node as =>
          cases hb : (Val.node B).get q with
          | none =>
            rw [hs.left q _ rfl hb fun r r' hr => h2.2 r (r' ++ q') (by rw [hq, hr, List.append_assoc]), ha] at hx
            cases hx
          | some b =>
            cases b with
            | leaf y => exact h2.2 q q' hq y hb
            | node bs =>
              obtain ⟨cs, hcs⟩ := hs.nodes q _ as bs hpq rfl ha hb
              rw [hcs] at hx; cases hx

theorem step_items (A B : Items R) (hw : B.WF) (hc : Conform (.node A) (.node B)) :
    ∃ C, aouItems B A = .ok C ∧ StepOK (.node B) (some (.node A)) (.node C) := by
  obtain ⟨c, h1, h2⟩ := step_val (.node B) hw (some (.node A)) (fun a ha => by cases ha; exact hc)
  unfold aouVal at h1
  rcases h : aouItems B A with e | C
  · -- impossible: each entry succeeds
    exfalso
    obtain ⟨C, hC⟩ := aou_ok (A := A) hw fun k v hv => by
      obtain ⟨c, hc, _⟩ := step_val v (WF_find hw hv) (A.find? k) fun a ha => conform_child hc ha hv
      exact ⟨c, hc⟩
    rw [hC] at h; cases h
  · simp only [h, Except.ok.injEq] at h1
    subst h1
    exact ⟨C, rfl, h2⟩

theorem aouAll_spec {p : List String} {sh : List Nat} (hp : Public p) :
    ∀ (ss : List (Items R)) (os : List (Option (List R))) (acc : Items R) (o : Option (List R)),
      (∀ b ∈ ss, b.WF) → (∀ b ∈ ss, Conform (.node acc) (.node b)) →
      ss.Pairwise (fun a b => Conform (.node a) (.node b)) →
      Contributes p sh acc o → List.Forall₂ (Contributes p sh) ss os →
      ∃ m, aouAll acc ss = .ok m ∧ Contributes p sh m (os.foldl combine o)
  | [], os, acc, o, _, _, _, h, hos => by
    cases hos
    exact ⟨acc, rfl, h⟩
  | b :: ss, os, acc, o, hw, hacc, hpw, h, hos => by
    cases hos with
    | cons hb hos =>
      rename_i o2 os
      obtain ⟨C, hC, hs⟩ := step_items acc b (hw b (by simp)) (hacc b (by simp))
      rw [List.pairwise_cons] at hpw
      have hconf : ∀ b' ∈ ss, Conform (.node C) (.node b') := by
        intro b' hb' q s s' r r' h1 h2
        rcases hs.shape q s r h1 with ⟨r2, h⟩ | ⟨a, r2, ha, h⟩
        · exact hpw.1 b' hb' q s s' r2 r' h h2
        · cases ha
          exact hacc b' (by simp [hb']) q s s' r2 r' h h2
      obtain ⟨m, hm, hmc⟩ := aouAll_spec hp ss os C (combine o o2) (fun b' hb' => hw b' (by simp [hb'])) hconf hpw.2
        (contributes_step hp hs h hb) hos
      exact ⟨m, by simp only [aouAll, hC]; exact hm, hmc⟩

theorem foldl_combine_some (rows : List (List R)) : ∀ a : List R,
    (rows.map some).foldl combine (some a) = some (a ++ rows.flatten) := by
  induction rows with
  | nil => intro a; simp
  | cons r rows ih =>
    intro a
    simp only [List.map_cons, List.foldl_cons, combine, ih, List.flatten_cons, List.append_assoc]

theorem forall2_map_some {p : List String} {sh : List Nat} :
    ∀ (ss : List (Items R)) (rows : List (List R)),
      List.Forall₂ (fun s r => ArrayAt (.node s) p sh r) ss rows →
      List.Forall₂ (Contributes p sh) ss (rows.map some)
  | _, _, .nil => .nil
  | _, _, .cons h t => .cons h (forall2_map_some _ _ t)

/-- C34: where every sub-segment's state holds an array at a path, the merged state holds there
the rows of all sub-segments in order; and merging succeeds. -/
theorem C34_merged_partial (dflt : Items R) (states : List (Items R)) (hne : states ≠ [])
    (hw : ∀ b ∈ states, b.WF) (hconf : states.Pairwise (fun a b => Conform (.node a) (.node b)))
    (p : List String) (hp : Public p) (sh : List Nat) (rows : List (List R))
    (h : List.Forall₂ (fun s r => ArrayAt (.node s) p sh r) states rows) :
    ∃ m, segMerged dflt states = .ok m ∧ ArrayAt (.node m) p sh rows.flatten := by
  cases h with
  | nil => exact absurd rfl hne
  | cons h t =>
    rename_i s r ss rs
    rw [List.pairwise_cons] at hconf
    obtain ⟨m, hm, hmc⟩ := aouAll_spec hp ss (rs.map some) s (some r) (fun b hb => hw b (by simp [hb])) hconf.1 hconf.2
      h (forall2_map_some _ _ t)
    rw [foldl_combine_some] at hmc
    exact ⟨m, hm, by simpa [Contributes] using hmc⟩

/-- C34: a field some sub-segments lack contains the rows of those that have it, nothing being
put in the place of the others. -/
theorem C34_merged_missing_partial (dflt : Items R) (s : Items R) (ss : List (Items R))
    (hw : ∀ b ∈ ss, b.WF) (hconf : (s :: ss).Pairwise (fun a b => Conform (.node a) (.node b)))
    (p : List String) (hp : Public p) (sh : List Nat) (o : Option (List R)) (os : List (Option (List R)))
    (h : Contributes p sh s o) (hs : List.Forall₂ (Contributes p sh) ss os) :
    ∃ m, segMerged dflt (s :: ss) = .ok m ∧ Contributes p sh m (os.foldl combine o) := by
  rw [List.pairwise_cons] at hconf
  exact aouAll_spec hp ss os s o hw hconf.1 hconf.2 h hs

/-- C34: the number of merged rows is the sum, and row `r` of sub-segment `i` is merged row
`(rows before i) + r`. -/
theorem C34_rows (before : List (List R)) (seg : List R) (after : List (List R)) :
    (before ++ seg :: after).flatten.length = (before.map List.length).sum + seg.length + (after.map List.length).sum ∧
    ∀ r : Nat, r < seg.length → (before ++ seg :: after).flatten[(before.map List.length).sum + r]? = seg[r]? := by
  constructor
  · simp [List.length_flatten]; omega
  · intro r hr
    rw [List.flatten_append, List.getElem?_append_right (by simp [List.length_flatten]), List.flatten_cons]
    simp only [List.length_flatten, Nat.add_sub_cancel_left]
    rw [List.getElem?_append_left hr]

/-- C34 fails when a sub-segment lacks a field: the merged field is shorter than the others and
its first row belongs to another sub-segment than the first row of `time`. -/
theorem C34_merged_counterexample :
    segMerged .nil [(.cons "time" (.leaf (.arr [1] ["a0", "a1"])) .nil : Items String),
        .cons "time" (.leaf (.arr [1] ["b0", "b1"])) (.cons "throttle" (.leaf (.arr [1] ["b0", "b1"])) .nil)] =
      .ok (.cons "time" (.leaf (.arr [1] ["a0", "a1", "b0", "b1"]))
        (.cons "throttle" (.leaf (.arr [1] ["b0", "b1"])) .nil)) := by
  decide +kernel

/-- C34 fails when one field of a nested group changes its trailing shape: the exception is
swallowed and the whole group is replaced, so that the rows of the first sub-segment are lost also
in the fields that do conform. -/
theorem C34_shape_counterexample :
    segMerged .nil [(.cons "frames" (.node (.cons "time" (.leaf (.arr [1] ["a0"])) (.cons "angle" (.leaf (.arr [1] ["a0"])) .nil))) .nil : Items String),
        .cons "frames" (.node (.cons "time" (.leaf (.arr [1] ["b0"])) (.cons "angle" (.leaf (.arr [3] ["b0"])) .nil))) .nil] =
      .ok (.cons "frames" (.node (.cons "time" (.leaf (.arr [1] ["b0"])) (.cons "angle" (.leaf (.arr [3] ["b0"])) .nil))) .nil) := by
  decide +kernel

/-! ### `State.Container.merged` -/

/-- The entries after `do_operation(A,B,C)`. -/
theorem do_find {dflt : Items R} {A : Items R} : ∀ {B : Val R} {C D : Items R}, A.WF → doItems dflt A B C = .ok D → ∀ k,
    (A.find? k = none → D.find? k = C.find? k) ∧
    (∀ a, A.find? k = some a →
      (operand B k = none → D.find? k = some a) ∧
      ∀ b, operand B k = some b → ∃ o, doVal dflt a b = .ok o ∧ D.find? k = o.or (C.find? k)) := by
  match A with
  | .nil =>
    intro B C D _ h k
    simp only [doItems, Except.ok.injEq] at h; subst h
    exact ⟨fun _ => rfl, fun a ha => by simp [Items.find?] at ha⟩
  | .cons k' a' rest =>
    intro B C D hw h k
    simp only [Items.WF] at hw
    have hn := find?_none_of_not_mem rest k' hw.1
    unfold doItems at h
    cases hop : operand B k' with
    | none =>
      simp only [hop] at h
      have ih := do_find hw.2.2 h k
      by_cases hk : k' = k
      · subst hk
        simp only [Items.find?, if_true, reduceCtorEq, false_implies, Option.some.injEq, true_and]
        rintro a rfl
        refine ⟨fun _ => ?_, fun b hb => by rw [hop] at hb; cases hb⟩
        rw [ih.1 hn, find?_set, if_pos rfl]
      · simpa only [Items.find?, if_neg hk, find?_set] using ih
    | some b' =>
      simp only [hop] at h
      rcases hv : doVal dflt a' b' with e | o
      · simp [hv] at h
      · have key : ∃ C', doItems dflt rest B C' = .ok D ∧ (C'.find? k' = o.or (C.find? k')) ∧
            (∀ q, q ≠ k' → C'.find? q = C.find? q) := by
          cases o with
          | none => simp only [hv] at h; exact ⟨C, h, rfl, fun _ _ => rfl⟩
          | some c =>
            simp only [hv] at h
            exact ⟨_, h, by simp [find?_set], fun q hq => by simp [find?_set, Ne.symm hq]⟩
        obtain ⟨C', hC', hs, hq⟩ := key
        have ih := do_find hw.2.2 hC' k
        by_cases hk : k' = k
        · subst hk
          simp only [Items.find?, if_true, reduceCtorEq, false_implies, Option.some.injEq, true_and]
          rintro a rfl
          refine ⟨fun h0 => (by rw [hop] at h0; cases h0), fun b hb => ?_⟩
          rw [hop] at hb; cases hb
          exact ⟨o, hv, by rw [ih.1 hn, hs]⟩
        · rw [hq k (Ne.symm hk)] at ih
          simpa only [Items.find?, if_neg hk] using ih

/-- The array part of the states: both have an array with the same trailing shape, or a `Data`
in both; on such paths the rows are stacked. -/
theorem do_arrays {dflt : Items R} : ∀ a : Val R, a.WF → ∀ (b : Val R) (o : Option (Val R)) (p : List String)
    (s s' : List Nat) (ra rb : List R), doVal dflt a b = .ok o → ArrayAt a p s ra → ArrayAt b p s' rb →
    s = s' ∧ ∃ c, o = some c ∧ ArrayAt c p s (ra ++ rb) := by
  refine val_ind ?_ ?_
  · intro x _ b o p s s' ra rb h h1 h2
    obtain ⟨rfl, hx⟩ := arrayAt_leaf h1
    obtain ⟨y, hy, hyr⟩ := h2
    rw [get_nil] at hy; cases hy
    simp only [doVal, appendArray, hx, hyr] at h
    by_cases hs : s = s'
    · subst hs
      simp only [if_true, Except.ok.injEq] at h
      exact ⟨rfl, _, h.symm, _, get_nil _, rfl⟩
    · simp [if_neg hs] at h
  · intro as ih hw b o p s s' ra rb h h1 h2
    simp only [Val.WF] at hw
    obtain ⟨k, p', a, rfl, ha, h1⟩ := arrayAt_node h1
    cases b with
    | leaf y => have := (arrayAt_leaf h2).1; cases this
    | node bs =>
      obtain ⟨k2, p2, b, e, hb, h2⟩ := arrayAt_node h2
      cases e
      unfold doVal at h
      rcases hd : doItems dflt as (.node bs) dflt with e | D
      · simp [hd] at h
      · simp only [hd, Except.ok.injEq] at h
        subst h
        obtain ⟨o, ho, hD⟩ := ((do_find hw hd k).2 a ha).2 b hb
        obtain ⟨hs, c, rfl, hc⟩ := ih k a ha (WF_find hw ha) b o p' s s' ra rb ho h1 h2
        exact ⟨hs, _, rfl, arrayAt_cons hD hc⟩

theorem WF_set {a : Items R} (h : a.WF) (k : String) {v : Val R} (hv : v.WF) : (a.set k v).WF := by
  have keys : ∀ (a : Items R) (q : String), q ∉ a.keys → q ≠ k → q ∉ (a.set k v).keys := by
    intro a
    exact aux a
  match a with
  | .nil => simp [Items.set, Items.WF, Items.keys, hv]
  | .cons k' v' rest =>
    simp only [Items.WF] at h
    unfold Items.set
    by_cases hk : k' = k
    · simp only [if_pos hk, Items.WF]; exact ⟨h.1, hv, h.2.2⟩
    · simp only [if_neg hk, Items.WF]; exact ⟨keys rest k' h.1 hk, h.2.1, WF_set h.2.2 k hv⟩
where
  aux {k : String} {v : Val R} : ∀ (a : Items R) (q : String), q ∉ a.keys → q ≠ k → q ∉ (a.set k v).keys
    | .nil, q, _, hne => by simpa [Items.set, Items.keys] using hne
    | .cons k' v' rest, q, h, hne => by
      simp only [Items.keys, List.mem_cons, not_or] at h
      unfold Items.set
      by_cases hk : k' = k
      · simp only [if_pos hk, Items.keys, List.mem_cons, not_or]; exact h
      · simp only [if_neg hk, Items.keys, List.mem_cons, not_or]; exact ⟨h.1, aux rest q h.2 hne⟩

mutual
theorem doVal_WF {dflt : Items R} (hd : dflt.WF) : ∀ (a b : Val R) (o : Val R), a.WF → doVal dflt a b = .ok (some o) → o.WF
  | .leaf x, b, o, _, h => by
    unfold doVal appendArray at h
    split at h
    · cases h
    · split at h
      · split at h
        · cases h; simp [Val.WF]
        · cases h
      · cases h
  | .node as, b, o, hw, h => by
    unfold doVal at h
    rcases hh : doItems dflt as b dflt with e | c
    · simp [hh] at h
    · simp only [hh, Except.ok.injEq, Option.some.injEq] at h
      subst h
      simp only [Val.WF] at hw ⊢
      exact doItems_WF hd as b dflt c hw hd hh
theorem doItems_WF {dflt : Items R} (hd : dflt.WF) : ∀ (A : Items R) (B : Val R) (C D : Items R), A.WF → C.WF →
    doItems dflt A B C = .ok D → D.WF
  | .nil, B, C, D, _, hC, h => by simp only [doItems, Except.ok.injEq] at h; exact h ▸ hC
  | .cons k a rest, B, C, D, hw, hC, h => by
    simp only [Items.WF] at hw
    unfold doItems at h
    split at h
    · exact doItems_WF hd rest B _ D hw.2.2 (WF_set hC k hw.2.1) h
    · rename_i b _
      split at h
      · rename_i c hc
        exact doItems_WF hd rest B _ D hw.2.2 (WF_set hC k (doVal_WF hd a b c hw.2.1 hc)) h
      · exact doItems_WF hd rest B _ D hw.2.2 hC h
      · cases h
end

theorem updateFresh_WF : ∀ (C B : Items R), C.WF → B.WF → (updateFresh C B).WF
  | C, .nil, hC, _ => hC
  | C, .cons k v rest, hC, hB => by
    simp only [Items.WF] at hB
    unfold updateFresh
    split
    · exact updateFresh_WF C rest hC hB.2.2
    · exact updateFresh_WF _ rest (WF_set hC k hB.2.1) hB.2.2

theorem updateFresh_find : ∀ (C B : Items R), B.WF → ∀ k v, k.front ≠ '_' → B.find? k = some v →
    (updateFresh C B).find? k = some v
  | C, .nil, _, k, v, _, h => by simp [Items.find?] at h
  | C, .cons k' v' rest, hB, k, v, hk, h => by
    simp only [Items.WF] at hB
    have hnone : ∀ (C B : Items R) k, B.find? k = none → (updateFresh C B).find? k = C.find? k := fun C B => aux C B
    unfold updateFresh
    by_cases hkk : k' = k
    · subst hkk
      simp only [Items.find?, if_true, Option.some.injEq] at h
      subst h
      rw [if_neg hk, hnone _ _ _ (find?_none_of_not_mem rest k' hB.1), find?_set, if_pos rfl]
    · simp only [Items.find?, if_neg hkk] at h
      split
      · exact updateFresh_find C rest hB.2.2 k v hk h
      · exact updateFresh_find _ rest hB.2.2 k v hk h
where
  aux : ∀ (C B : Items R) k, B.find? k = none → (updateFresh C B).find? k = C.find? k
    | C, .nil, _, _ => rfl
    | C, .cons k' v' rest, k, h => by
      have hkk : k' ≠ k := by rintro rfl; simp [Items.find?] at h
      simp only [Items.find?, if_neg hkk] at h
      unfold updateFresh
      split
      · exact aux C rest k h
      · rw [aux _ rest k h, find?_set, if_neg hkk]

theorem appendAll_arrays {dflt : Items R} (hd : dflt.WF) {p : List String} {sh : List Nat} :
    ∀ (ss : List (Items R)) (rs : List (List R)) (acc m : Items R) (r : List R), acc.WF →
      appendAll dflt acc ss = .ok m → ArrayAt (.node acc) p sh r →
      List.Forall₂ (fun s r => ArrayAt (.node s) p sh r) ss rs → ArrayAt (.node m) p sh (r ++ rs.flatten)
  | [], rs, acc, m, r, _, h, ha, hs => by
    cases hs
    simp only [appendAll, Except.ok.injEq] at h
    subst h; simpa using ha
  | s :: ss, rs, acc, m, r, hw, h, ha, hs => by
    cases hs with
    | cons hb hs =>
      rename_i r2 rs
      unfold appendAll at h
      rcases hh : doItems dflt acc (.node s) dflt with e | acc'
      · simp [hh] at h
      · simp only [hh] at h
        have hv : doVal dflt (.node acc) (.node s) = .ok (some (.node acc')) := by unfold doVal; simp only [hh]
        obtain ⟨_, c, hc, hcc⟩ := do_arrays (.node acc) hw (.node s) _ p sh sh r r2 hv ha hb
        cases hc
        have := appendAll_arrays hd ss rs acc' m _ (doItems_WF hd acc _ dflt acc' hw hd hh) h hcc hs
        simpa [List.append_assoc] using this

/-- C34 for `State.Container.merged`: a field that is an array in every sub-state holds the rows
of all sub-states in order. -/
theorem C34_container_partial (dflt : Items R) (hd : dflt.WF) (s : Items R) (ss : List (Items R)) (hw : s.WF)
    (m : Items R) (hm : merged dflt (s :: ss) = .ok m) (p : List String) (hp : Public p) (sh : List Nat)
    (r : List R) (rs : List (List R)) (h : ArrayAt (.node s) p sh r)
    (hs : List.Forall₂ (fun s r => ArrayAt (.node s) p sh r) ss rs) :
    ArrayAt (.node m) p sh (r :: rs).flatten := by
  have h0 : ArrayAt (.node (updateFresh dflt s)) p sh r := by
    obtain ⟨k, p', a, rfl, ha, h⟩ := arrayAt_node h
    exact arrayAt_cons (updateFresh_find dflt s hw k a (hp k (by simp)) ha) h
  simpa using appendAll_arrays hd ss rs _ m r (updateFresh_WF dflt s hd hw) hm h0 hs

/-- C34 fails for `State.Container.merged` when a later sub-state has a field the first lacks:
the field is dropped. -/
theorem C34_container_counterexample :
    merged .nil [(.cons "time" (.leaf (.arr [1] ["a0"])) .nil : Items String),
        .cons "time" (.leaf (.arr [1] ["b0"])) (.cons "throttle" (.leaf (.arr [1] ["b0"])) .nil)] =
      .ok (.cons "time" (.leaf (.arr [1] ["a0", "b0"])) .nil) := by
  decide +kernel

/-! ### Unpacking -/

/-- The value of a key. -/
def valueOf (k : String) (s : Unknowns R) : Option (Unknown R) := (s.find? (fun e => e.1 = k)).map Prod.snd

/-- Number of rows a sub-segment has for a key (none if it lacks the key). -/
def rowsOf (k : String) (s : Unknowns R) : Nat := ((valueOf k s).map fun u => u.rows.length).getD 0

/-- Number of entries of the array of a key. -/
def sizeOf' (k : String) (s : Unknowns R) : Nat := ((valueOf k s).map Unknown.size).getD 0

theorem valueOf_cons (k k' : String) (u : Unknown R) (s : Unknowns R) :
    valueOf k ((k', u) :: s) = if k' = k then some u else valueOf k s := by
  unfold valueOf
  by_cases h : k' = k <;> simp [h]

theorem valueOf_none (k : String) (s : Unknowns R) (h : k ∉ s.map Prod.fst) : valueOf k s = none := by
  unfold valueOf
  rw [List.find?_eq_none.2]
  · rfl
  · intro e he
    simp only [decide_eq_true_eq]
    rintro rfl
    exact h (List.mem_map_of_mem he)

theorem unpackOne_spec (M : String → Option (List R)) : ∀ (s : Unknowns R) (c : String → Nat) (s' : Unknowns R) (c' : String → Nat),
    (s.map Prod.fst).Nodup → unpackOne M s c = .ok (s', c') →
    (∀ k, c' k = c k + sizeOf' k s) ∧
    ∀ k, valueOf k s' = (valueOf k s).bind fun u => (M k).map fun rows => { u with rows := (rows.drop (c k)).take u.size }
  | [], c, s', c', _, h => by
    simp only [unpackOne, Except.ok.injEq, Prod.mk.injEq] at h
    obtain ⟨rfl, rfl⟩ := h
    exact ⟨fun k => rfl, fun k => rfl⟩
  | (k0, u) :: s, c, s', c', hn, h => by
    simp only [List.map_cons, List.nodup_cons] at hn
    unfold unpackOne at h
    cases hM : M k0 with
    | none => simp [hM] at h
    | some rows =>
      simp only [hM] at h
      rcases hu : unpackOne M s (fun q => if q = k0 then c k0 + u.size else c q) with e | ⟨s1, c1⟩
      · simp [hu] at h
      · simp only [hu, Except.ok.injEq, Prod.mk.injEq] at h
        obtain ⟨rfl, rfl⟩ := h
        obtain ⟨ih1, ih2⟩ := unpackOne_spec M s _ s1 c1 hn.2 hu
        constructor
        · intro k
          rw [ih1 k]
          unfold sizeOf'
          rw [valueOf_cons]
          by_cases hk : k0 = k
          · subst hk
            rw [valueOf_none _ _ hn.1]; simp
          · simp [hk, Ne.symm hk]
        · intro k
          rw [valueOf_cons, valueOf_cons, ih2 k]
          by_cases hk : k0 = k
          · subst hk; simp [hM]
          · simp [hk, Ne.symm hk]

theorem unpackFrom_split (M : String → Option (List R)) : ∀ (before : List (Unknowns R)) (s : Unknowns R) (after : List (Unknowns R))
    (c : String → Nat) (out : List (Unknowns R)), (∀ x ∈ before ++ s :: after, (x.map Prod.fst).Nodup) →
    unpackFrom M (before ++ s :: after) c = .ok out →
    ∃ before' s' after', out = before' ++ s' :: after' ∧ before'.length = before.length ∧ after'.length = after.length ∧
      ∀ k, valueOf k s' = (valueOf k s).bind fun u => (M k).map fun rows =>
        { u with rows := (rows.drop (c k + (before.map (sizeOf' k)).sum)).take u.size }
  | [], s, after, c, out, hn, h => by
    simp only [List.nil_append] at h hn
    unfold unpackFrom at h
    rcases hu : unpackOne M s c with e | ⟨s1, c1⟩
    · simp [hu] at h
    · simp only [hu] at h
      rcases hr : unpackFrom M after c1 with e | out'
      · simp [hr] at h
      · simp only [hr, Except.ok.injEq] at h
        refine ⟨[], s1, out', h.symm, rfl, ?_, fun k => by simpa using (unpackOne_spec M s c s1 c1 (hn s (by simp)) hu).2 k⟩
        exact len M after c1 out' hr
  | b :: before, s, after, c, out, hn, h => by
    simp only [List.cons_append] at h hn
    unfold unpackFrom at h
    rcases hu : unpackOne M b c with e | ⟨b1, c1⟩
    · simp [hu] at h
    · simp only [hu] at h
      rcases hr : unpackFrom M (before ++ s :: after) c1 with e | out'
      · simp [hr] at h
      · simp only [hr, Except.ok.injEq] at h
        obtain ⟨b', s', a', rfl, h1, h2, h3⟩ := unpackFrom_split M before s after c1 out' (fun x hx => hn x (by simp [hx])) hr
        refine ⟨b1 :: b', s', a', h.symm, by simp [h1], h2, fun k => ?_⟩
        rw [h3 k, (unpackOne_spec M b c b1 c1 (hn b (by simp)) hu).1 k]
        simp [Nat.add_assoc]
where
  len (M : String → Option (List R)) : ∀ (ss : List (Unknowns R)) (c : String → Nat) (out : List (Unknowns R)),
      unpackFrom M ss c = .ok out → out.length = ss.length
    | [], c, out, h => by simp only [unpackFrom, Except.ok.injEq] at h; subst h; rfl
    | s :: ss, c, out, h => by
      unfold unpackFrom at h
      rcases hu : unpackOne M s c with e | ⟨s1, c1⟩
      · simp [hu] at h
      · simp only [hu] at h
        rcases hr : unpackFrom M ss c1 with e | out'
        · simp [hr] at h
        · simp only [hr, Except.ok.injEq] at h
          subst h; simp [len M ss c1 out' hr]

theorem unpack_ok (M : String → Option (List R)) : ∀ (ss : List (Unknowns R)) (c : String → Nat),
    (∀ s ∈ ss, ∀ e ∈ s, (M e.1).isSome) → ∃ out, unpackFrom M ss c = .ok out := by
  have one : ∀ (s : Unknowns R) (c : String → Nat), (∀ e ∈ s, (M e.1).isSome) → ∃ r, unpackOne M s c = .ok r := by
    intro s
    induction s with
    | nil => intro c _; exact ⟨_, rfl⟩
    | cons e s ih =>
      obtain ⟨k, u⟩ := e
      intro c h
      obtain ⟨rows, hr⟩ := Option.isSome_iff_exists.1 (h (k, u) (by simp))
      obtain ⟨⟨s1, c1⟩, h1⟩ := ih (fun q => if q = k then c k + u.size else c q) fun e he => h e (by simp [he])
      exact ⟨_, by simp only [unpackOne, hr, h1]; rfl⟩
  intro ss
  induction ss with
  | nil => intro c _; exact ⟨_, rfl⟩
  | cons s ss ih =>
    intro c h
    obtain ⟨⟨s1, c1⟩, h1⟩ := one s c (h s (by simp))
    obtain ⟨out, h2⟩ := ih c1 fun x hx => h x (by simp [hx])
    exact ⟨_, by simp only [unpackFrom, h1, h2]; rfl⟩

/-- C34, unpacking: when the mission holds an array for each unknown and the unknowns are columns,
unpacking succeeds, and a sub-segment gets, for each of its unknowns, the rows that follow those
of the sub-segments before it. -/
theorem C34_unpack_partial (M : String → Option (List R)) (before : List (Unknowns R)) (s : Unknowns R) (after : List (Unknowns R))
    (hn : ∀ x ∈ before ++ s :: after, (x.map Prod.fst).Nodup)
    (hM : ∀ x ∈ before ++ s :: after, ∀ e ∈ x, (M e.1).isSome) :
    ∃ before' s' after', unpack M (before ++ s :: after) = .ok (before' ++ s' :: after') ∧
      before'.length = before.length ∧ after'.length = after.length ∧
      ∀ k u rows, M k = some rows → valueOf k s = some u → u.cols = 1 →
        (∀ b ∈ before, ∀ u, valueOf k b = some u → u.cols = 1) →
        ∃ u', valueOf k s' = some u' ∧ u'.rows = (rows.drop (before.map (rowsOf k)).sum).take u.rows.length := by
  obtain ⟨out, hout⟩ := unpack_ok M (before ++ s :: after) (fun _ => 0) hM
  obtain ⟨b', s', a', rfl, h1, h2, h3⟩ := unpackFrom_split M before s after _ out hn hout
  refine ⟨b', s', a', hout, h1, h2, ?_⟩
  intro k u rows hk hu hc hb
  have hsum : before.map (sizeOf' k) = before.map (rowsOf k) := by
    refine List.map_congr_left fun b hbm => ?_
    unfold sizeOf' rowsOf
    cases hv : valueOf k b with
    | none => rfl
    | some v => simp [Unknown.size, hb b hbm v hv]
  refine ⟨_, by rw [h3 k, hu, hk]; rfl, ?_⟩
  simp [hsum, Unknown.size, hc]

/-- C34: unpacking what merging produced gives every sub-segment its own rows back. -/
theorem C34_roundtrip_partial (M : String → Option (List R)) (before : List (Unknowns R)) (s : Unknowns R) (after : List (Unknowns R))
    (hn : ∀ x ∈ before ++ s :: after, (x.map Prod.fst).Nodup)
    (hM : ∀ k, M k = some (((before ++ s :: after).filterMap (valueOf k)).map Unknown.rows).flatten) :
    ∃ before' s' after', unpack M (before ++ s :: after) = .ok (before' ++ s' :: after') ∧
      before'.length = before.length ∧ after'.length = after.length ∧
      ∀ k u, valueOf k s = some u → u.cols = 1 → (∀ b ∈ before, ∀ u, valueOf k b = some u → u.cols = 1) →
        ∃ u', valueOf k s' = some u' ∧ u'.rows = u.rows := by
  obtain ⟨b', s', a', h, h1, h2, h3⟩ := C34_unpack_partial M before s after hn (fun x _ e _ => by rw [hM]; rfl)
  refine ⟨b', s', a', h, h1, h2, fun k u hu hc hb => ?_⟩
  obtain ⟨u', hu', hr⟩ := h3 k u _ (hM k) hu hc hb
  refine ⟨u', hu', ?_⟩
  have hlen : (before.map (rowsOf k)).sum = ((before.filterMap (valueOf k)).map Unknown.rows).flatten.length := by
    clear hn hM h h1 h2 h3 hb hr
    induction before with
    | nil => rfl
    | cons b bs ih =>
      cases hv : valueOf k b with
      | none => simp [rowsOf, hv] at ih ⊢; exact ih
      | some v => simp [rowsOf, hv] at ih ⊢; exact ih
  rw [hr, hlen, List.filterMap_append, List.map_append, List.flatten_append, List.drop_left, List.filterMap_cons, hu]
  simp

/-- C34 fails for an unknown with two columns: the slice is taken by number of entries. -/
theorem C34_columns_counterexample :
    unpack (fun _ => some ["a0", "a1", "b0", "b1"])
      [[("gear", ⟨2, ["", ""]⟩)], [("gear", ⟨2, ["", ""]⟩)]] =
    .ok [[("gear", ⟨2, ["a0", "a1", "b0", "b1"]⟩)], [("gear", ⟨2, []⟩)]] := by
  decide +kernel

/-- Three sub-segments of different lengths; the second lacks the unknown `b`. -/
example : unpack (fun _ => some [0, 1, 2, 3, 4, 5])
    [[("a", ⟨1, [9, 9]⟩), ("b", ⟨1, [9]⟩)], [("a", ⟨1, [9]⟩)], [("b", ⟨1, [9, 9]⟩), ("a", ⟨1, [9, 9, 9]⟩)]] =
    .ok [[("a", ⟨1, [0, 1]⟩), ("b", ⟨1, [0]⟩)], [("a", ⟨1, [2]⟩)], [("b", ⟨1, [1, 2]⟩), ("a", ⟨1, [3, 4, 5]⟩)]] := by
  decide +kernel

/-- Two states with a nested group, meeting the hypotheses of `C34_merged_partial`. -/
example :
    let a : Items Nat := .cons "frames" (.node (.cons "time" (.leaf (.arr [1] [0, 1])) .nil)) (.cons "tag" (.leaf (.other 7)) .nil)
    let b : Items Nat := .cons "frames" (.node (.cons "time" (.leaf (.arr [1] [2, 3, 4])) .nil)) .nil
    ∃ m, segMerged .nil [a, b] = .ok m ∧ ArrayAt (.node m) ["frames", "time"] [1] [0, 1, 2, 3, 4] := by
  intro a b
  refine C34_merged_partial .nil [a, b] (by simp) ?_ ?_ ["frames", "time"] (by unfold Public; decide +kernel) [1] [[0, 1], [2, 3, 4]] ?_
  · intro x hx
    simp only [List.mem_cons, List.not_mem_nil, or_false] at hx
    rcases hx with rfl | rfl <;> simp [a, b, Items.WF, Val.WF, Items.keys]
  · simp only [List.pairwise_cons, List.mem_cons, List.not_mem_nil, or_false, forall_eq, false_implies, implies_true,
      List.Pairwise.nil, and_true]
    intro q s s' r r' h1 h2
    obtain ⟨k, q', v, rfl, hv, h1⟩ := arrayAt_node h1
    obtain ⟨_, _, w, e, hw, h2⟩ := arrayAt_node h2
    cases e
    simp only [a, b, Items.find?] at hv hw
    split at hw
    · rename_i hk
      subst hk
      simp only [if_true, Option.some.injEq] at hv hw
      subst hv; subst hw
      obtain ⟨k, q'', v, rfl, hv, h1⟩ := arrayAt_node h1
      obtain ⟨_, _, w, e, hw, h2⟩ := arrayAt_node h2
      cases e
      simp only [Items.find?] at hv hw
      split at hw
      · rename_i hk
        subst hk
        simp only [if_true, Option.some.injEq] at hv hw
        subst hv; subst hw
        have h1 := (arrayAt_leaf h1).2
        have h2 := (arrayAt_leaf h2).2
        simp only [Leaf.rows?, Option.some.injEq, Prod.mk.injEq] at h1 h2
        rw [← h1.1, ← h2.1]
      · cases hw
    · cases hw
  · exact .cons ⟨_, rfl, rfl⟩ (.cons ⟨_, rfl, rfl⟩ .nil)

end Verif.Mission.Merge
