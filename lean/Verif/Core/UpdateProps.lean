import Verif.Core.UpdateLemmas
/-!
Properties C01 and C02: `Data.update` is a deep merge that keeps key order and uniqueness.
-/

namespace Verif.Core
variable {R : Type}

/-- Sample trees used to show that hypotheses are satisfiable. -/
private def kA : Key := ['a']
private def kB : Key := ['b']
private def kC : Key := ['c']
private def kU : Key := ['_','u']
/-- `{a: {b: 1, _u: 7}, c: 2}` -/
def exA : Items Int :=
  .cons kA (.node (.cons kB (.leaf (.num 1)) (.cons kU (.leaf (.num 7)) .nil)))
    (.cons kC (.leaf (.num 2)) .nil)
/-- `{a: {c: 5, _u: 8}, b: {c: 3}}` -/
def exB : Items Int :=
  .cons kA (.node (.cons kC (.leaf (.num 5)) (.cons kU (.leaf (.num 8)) .nil)))
    (.cons kB (.node (.cons kC (.leaf (.num 3)) .nil)) .nil)

theorem exA_wf : exA.WF := by
  simp [exA, Items.WF, Val.WF, Items.keys, kA, kB, kC, kU]
theorem exB_wf : exB.WF := by
  simp [exB, Items.WF, Val.WF, Items.keys, kA, kB, kC, kU]

/-- **C01 (leaf / wholesale).** Along public keys, what `b` has at a path is what is read
after `a.update(b)`, whenever it is a leaf, or `a` has no `Data` at that path. -/
theorem C01_update_takes (a b : Items R) (hb : b.WF) (p : List Key) (hp : PublicPath p)
    (hne : p ≠ []) (w : Val R) (hw : (Val.node b).get p = some w)
    (hcase : w.isNode = false ∨ ∀ xs, (Val.node a).get p ≠ some (.node xs)) :
    (Val.node (updItems a b)).get p = some w := by
  induction p generalizing a b with
  | nil => exact absurd rfl hne
  | cons k p ih =>
    have hk : isPrivate k = false := hp k (by simp)
    simp only [Val.get] at hw ⊢
    rw [find?_updItems a b k hb.nodup]
    simp only [hk]
    cases hfb : b.find? k with
    | none => simp [hfb] at hw
    | some v =>
      simp only [hfb] at hw
      simp only [Bool.false_eq_true, if_false]
      match hfa : a.find? k, v, hfb with
      | none, v, _ => simpa using hw
      | some (.leaf _), v, _ => simpa using hw
      | some (.node xs), .leaf y, _ => simpa [updVal_leaf] using hw
      | some (.node xs), .node ys, hfb =>
        rw [updVal_node_node]
        cases p with
        | nil =>
          simp only [Val.get, Option.some.injEq] at hw
          subst hw
          rcases hcase with h | h
          · simp [Val.isNode] at h
          · exact absurd (by simp [Val.get, hfa]) (h xs)
        | cons k' p' =>
          have hys : ys.WF := by
            have := Items.WF.find hb hfb; simpa [Val.WF] using this
          refine ih xs ys hys (fun j hj => hp j (by simp [hj])) (by simp) hw ?_
          rcases hcase with h | h
          · exact Or.inl h
          · refine Or.inr fun zs hz => h zs ?_
            simp [Val.get, hfa] at hz ⊢
            exact hz

/-- **C01 (silent).** If at some point of the path `p = q ++ k :: r` the tree `b` has a
`Data` without key `k`, the value read at `p` is the one `a` had. -/
theorem C01_update_keeps (a b : Items R) (hb : b.WF) (q : List Key) (k : Key)
    (r : List Key) (ys : Items R) (hq : (Val.node b).get q = some (.node ys))
    (hk : ys.find? k = none) :
    (Val.node (updItems a b)).get (q ++ k :: r) = (Val.node a).get (q ++ k :: r) := by
  induction q generalizing a b with
  | nil =>
    simp only [Val.get, Option.some.injEq, Val.node.injEq] at hq
    subst hq
    simp only [List.nil_append, Val.get]
    rw [find?_updItems a b k hb.nodup]
    simp [hk]
  | cons j q ih =>
    simp only [List.cons_append, Val.get]
    rw [find?_updItems a b j hb.nodup]
    by_cases hj : isPrivate j
    · simp [hj]
    · simp only [Val.get] at hq
      cases hfb : b.find? j with
      | none => simp [hfb] at hq
      | some v =>
        simp only [hfb] at hq
        simp only [hj]
        have none_of : ∀ (v : Val R) (q : List Key), v.get q = some (.node ys) →
            v.get (q ++ k :: r) = none := by
          intro v q
          induction q generalizing v with
          | nil =>
            intro h
            simp only [Val.get, Option.some.injEq] at h
            subst h
            simp [Val.get, hk]
          | cons m q ihq =>
            intro h
            match v with
            | .leaf _ => simp [Val.get] at h
            | .node zs =>
              simp only [Val.get, List.cons_append] at h ⊢
              cases hz : zs.find? m with
              | none => rfl
              | some u => simp only [hz] at h; exact ihq u h
        match hfa : a.find? j, v, hfb with
        | none, v, _ => simpa using none_of v q hq
        | some (.leaf x0), v, _ =>
          have h2 : Val.get (.leaf x0) (q ++ k :: r) = none := by
            cases q <;> simp [Val.get]
          simp only [updVal_some_leaf, Bool.false_eq_true, if_false]
          rw [none_of v q hq, h2]
        | some (.node xs), .leaf y, _ =>
          cases q <;> simp [Val.get] at hq
        | some (.node xs), .node ys', hfb =>
          simp only [updVal_node_node, Bool.false_eq_true, if_false]
          have hys : ys'.WF := by
            have := Items.WF.find hb hfb; simpa [Val.WF] using this
          exact ih xs ys' hys hq

/-- **C01 (private keys).** Where both `a` and `b` have a `Data` at `q`, everything below
an underscore key is left as it was in `a`, whatever `b` holds there. -/
theorem C01_update_private (a b : Items R) (hb : b.WF) (q : List Key) (k : Key)
    (r : List Key) (xs ys : Items R) (hqa : (Val.node a).get q = some (.node xs))
    (hqb : (Val.node b).get q = some (.node ys)) (hk : isPrivate k = true) :
    (Val.node (updItems a b)).get (q ++ k :: r) = (Val.node a).get (q ++ k :: r) := by
  induction q generalizing a b with
  | nil =>
    simp only [List.nil_append, Val.get]
    rw [find?_updItems a b k hb.nodup]
    simp [hk]
  | cons j q ih =>
    simp only [List.cons_append, Val.get] at hqa hqb ⊢
    rw [find?_updItems a b j hb.nodup]
    by_cases hj : isPrivate j
    · simp [hj]
    · simp only [hj]
      match hfa : a.find? j, hfb : b.find? j with
      | none, _ => simp [hfa] at hqa
      | some _, none => simp [hfb] at hqb
      | some (.leaf x), some v =>
        simp only [hfa] at hqa
        cases q <;> simp [Val.get] at hqa
      | some (.node xs'), some (.leaf y) =>
        simp only [hfb] at hqb
        cases q <;> simp [Val.get] at hqb
      | some (.node xs'), some (.node ys') =>
        simp only [hfa] at hqa
        simp only [hfb] at hqb
        have hys : ys'.WF := by
          have := Items.WF.find hb hfb; simpa [Val.WF] using this
        simpa [updVal_node_node] using ih xs' ys' hys hqa hqb

/-- **C01 (nested update).** Where both have a `Data` at a public path, what is read there
afterwards is `a`'s sub-tree updated with `b`'s. -/
theorem C01_update_nested (a b : Items R) (hb : b.WF) (p : List Key) (hp : PublicPath p)
    (xs ys : Items R) (ha : (Val.node a).get p = some (.node xs))
    (hb' : (Val.node b).get p = some (.node ys)) :
    (Val.node (updItems a b)).get p = some (.node (updItems xs ys)) := by
  induction p generalizing a b with
  | nil =>
    simp only [Val.get, Option.some.injEq, Val.node.injEq] at ha hb'
    subst ha; subst hb'; rfl
  | cons j q ih =>
    have hj : isPrivate j = false := hp j (by simp)
    simp only [Val.get] at ha hb' ⊢
    rw [find?_updItems a b j hb.nodup]
    simp only [hj]
    match hfa : a.find? j, hfb : b.find? j with
    | none, _ => simp [hfa] at ha
    | some _, none => simp [hfb] at hb'
    | some (.leaf x), some v =>
      simp only [hfa] at ha
      cases q <;> simp [Val.get] at ha
    | some (.node xs'), some (.leaf y) =>
      simp only [hfb] at hb'
      cases q <;> simp [Val.get] at hb'
    | some (.node xs'), some (.node ys') =>
      simp only [hfa] at ha
      simp only [hfb] at hb'
      have hys : ys'.WF := by
        have := Items.WF.find hb hfb; simpa [Val.WF] using this
      simpa [updVal_node_node] using ih xs' ys' hys (fun k hk => hp k (by simp [hk])) ha hb'

/-- **C01 (idempotent).** Updating a second time with the same data changes nothing. -/
theorem C01_update_idempotent (a b : Items R) (hb : b.WF) :
    updItems (updItems a b) b = updItems a b := by
  have := updVal_idem (.node b) (by simpa [Val.WF] using hb) (some (.node a))
  simpa [updVal_node_node] using this

/-- The hypotheses are met by non-trivial data: a leaf taken over, a value kept, a private
key kept, a whole sub-tree taken over. -/
example : exB.WF ∧ PublicPath [kA, kC] ∧ (Val.node exB).get [kA, kC] = some (.leaf (.num 5)) ∧
    (Val.node (updItems exA exB)).get [kA, kC] = some (.leaf (.num 5)) ∧
    (Val.node (updItems exA exB)).get [kA, kB] = some (.leaf (.num 1)) ∧
    (Val.node (updItems exA exB)).get [kA, kU] = some (.leaf (.num 7)) ∧
    (Val.node (updItems exA exB)).get [kB, kC] = some (.leaf (.num 3)) :=
  ⟨exB_wf, by simp [PublicPath, kA, kC, isPrivate], rfl, rfl, rfl, rfl, rfl⟩

/-- **C02 (key order).** Existing keys keep their position, the new public keys of `b`
follow in `b`'s order. -/
theorem C02_update_keys (a b : Items R) (hb : b.WF) :
    (updItems a b).keys =
      a.keys ++ b.keys.filter (fun k => !isPrivate k && !decide (k ∈ a.keys)) :=
  keys_updItems a b hb.nodup

/-- **C02 (uniqueness).** No dictionary anywhere in the result has a duplicate key. -/
theorem C02_update_wf (a b : Items R) (ha : a.WF) (hb : b.WF) : (updItems a b).WF :=
  wf_updItems b hb a ha

/-- **C02 (type check).** A non-dictionary argument raises TypeError; a dictionary never
raises. -/
theorem C02_update_error (a : Items R) (other : Val R) :
    (other.isNode = false → update a other = .error .typeError) ∧
    (other.isNode = true → ∃ b, other = .node b ∧ update a other = .ok (updItems a b)) := by
  cases other with
  | leaf x => simp [update, Val.isNode]
  | node b => simp [update, Val.isNode]

example : exA.WF ∧ exB.WF ∧ (updItems exA exB).keys = [kA, kC, kB] := ⟨exA_wf, exB_wf, rfl⟩

end Verif.Core
