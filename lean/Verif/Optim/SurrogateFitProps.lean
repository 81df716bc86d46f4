import Verif.Optim.SurrogateFit
import Mathlib.Tactic.Common

/-!
Properties of the fitting of surrogates (C442).
-/

namespace Verif.Optim

theorem fitColumns_spec {M I : Type} (learn : List I → List ℝ → M) (xs : List I) (rows : List (List ℝ)) (js : List ℕ)
    (h h' : FitStore M) (ks : List ℕ) (e : fitColumns learn xs rows js h = some (h', ks)) :
    ks.length = js.length ∧ (∀ k, k < h.length → h'[k]? = h[k]?) ∧
    ∀ i (hi : i < js.length), ∃ k ys, ks[i]? = some k ∧ column rows js[i] = some ys ∧ h'[k]? = some (some (learn xs ys)) := by
  induction js generalizing h ks with
  | nil =>
    simp only [fitColumns, Option.some.injEq, Prod.mk.injEq] at e
    obtain ⟨rfl, rfl⟩ := e
    simp
  | cons j js ih =>
    simp only [fitColumns, newModel, fitModel] at e
    cases hc : column rows j with
    | none => rw [hc] at e; simp at e
    | some ys =>
      rw [hc] at e
      simp only [Option.bind_eq_bind, Option.bind_some] at e
      cases hr : fitColumns learn xs rows js ((h ++ [none]).set h.length (some (learn xs ys))) with
      | none => rw [hr] at e; simp at e
      | some q =>
        obtain ⟨h3, ks'⟩ := q
        rw [hr] at e
        simp only [Option.bind_some, Option.some.injEq, Prod.mk.injEq] at e
        obtain ⟨rfl, rfl⟩ := e
        obtain ⟨a1, a2, a3⟩ := ih _ _ hr
        refine ⟨by simp [a1], ?_, ?_⟩
        · intro k hk
          rw [a2 k (by simp; omega), List.getElem?_set_ne (by omega), List.getElem?_append_left hk]
        · intro i hi
          cases i with
          | zero =>
            refine ⟨h.length, ys, rfl, hc, ?_⟩
            rw [a2 _ (by simp)]
            simp
          | succ i =>
            obtain ⟨k, zs, b1, b2, b3⟩ := a3 i (by simpa using hi)
            exact ⟨k, zs, by simpa using b1, by simpa using b2, b3⟩

/-- **C442, regression models.** Each of the surrogates returned has learnt its own values from all samples: the first the
objective, number `j` the column of constraint `j`; there is one for each constraint, and models fitted before are kept. -/
theorem C442_own {M I : Type} (learn : List I → List ℝ → M) (obj : List ℝ) (xs : List I) (rows : List (List ℝ))
    (h h' : FitStore M) (o : ℕ) (ks : List ℕ) (e : buildScikit learn obj xs rows h = some (h', o, ks)) :
    h'[o]? = some (some (learn xs obj)) ∧ (∀ k, k < h.length → h'[k]? = h[k]?) ∧
    ∃ r0, rows.head? = some r0 ∧ ks.length = r0.length ∧
      ∀ j, j < r0.length → ∃ k ys, ks[j]? = some k ∧ h'[k]? = some (some (learn xs ys)) ∧ ys.length = rows.length ∧
        ∀ i (hi : i < rows.length), ys[i]? = (rows[i])[j]? := by
  simp only [buildScikit, newModel, fitModel] at e
  cases hr : rows.head? with
  | none => rw [hr] at e; simp at e
  | some r0 =>
    rw [hr] at e
    simp only [Option.bind_eq_bind, Option.bind_some] at e
    cases hf : fitColumns learn xs rows (List.range r0.length) ((h ++ [none]).set h.length (some (learn xs obj))) with
    | none => rw [hf] at e; simp at e
    | some q =>
      obtain ⟨h3, ks'⟩ := q
      rw [hf] at e
      simp only [Option.bind_some, Option.some.injEq, Prod.mk.injEq] at e
      obtain ⟨rfl, rfl, rfl⟩ := e
      obtain ⟨a1, a2, a3⟩ := fitColumns_spec _ _ _ _ _ _ _ hf
      refine ⟨?_, ?_, r0, rfl, by simpa using a1, ?_⟩
      · rw [a2 _ (by simp)]; simp
      · intro k hk
        rw [a2 k (by simp; omega), List.getElem?_set_ne (by omega), List.getElem?_append_left hk]
      · intro j hj
        obtain ⟨k, ys, b1, b2, b3⟩ := a3 j (by simpa using hj)
        refine ⟨k, ys, b1, b3, ?_⟩
        simp only [List.getElem_range] at b2
        unfold column at b2
        clear a1 a2 a3 b1 b3 hf hr
        induction rows generalizing ys with
        | nil => simp at b2; subst b2; simp
        | cons r rows ih =>
          rw [List.mapM_cons] at b2
          cases hx : r[j]? with
          | none => rw [hx] at b2; simp at b2
          | some x =>
            cases hm : rows.mapM fun r => r[j]? with
            | none => rw [hx, hm] at b2; simp at b2
            | some zs =>
              rw [hx, hm] at b2
              simp only [Option.pure_def, Option.bind_eq_bind, Option.bind_some, Option.some.injEq] at b2
              subst b2
              obtain ⟨c1, c2⟩ := ih zs hm
              refine ⟨by simp [c1], ?_⟩
              intro i hi
              cases i with
              | zero => simpa using hx.symm
              | succ i => simpa using c2 i (by simpa using hi)

theorem krigeColumns_spec {M I : Type} (learn : List I → List ℝ → M) (xs : List I) (rows : List (List ℝ)) (js : List ℕ)
    (h h' : KrigeStore M I) (ks : List ℕ) (e : krigeColumns learn xs rows js h = some (h', ks)) :
    ks.length = js.length ∧ (∀ k, k < h.length → h'[k]? = h[k]?) ∧
    ∀ i (hi : i < js.length), ∃ k ys, ks[i]? = some k ∧ column rows js[i] = some ys ∧
      h'[k]? = some ((xs, ys), some (learn xs ys)) := by
  induction js generalizing h ks with
  | nil =>
    simp only [krigeColumns, Option.some.injEq, Prod.mk.injEq] at e
    obtain ⟨rfl, rfl⟩ := e
    simp
  | cons j js ih =>
    simp only [krigeColumns, newKrige, trainKrige] at e
    cases hc : column rows j with
    | none => rw [hc] at e; simp at e
    | some ys =>
      rw [hc] at e
      simp only [Option.bind_eq_bind, Option.bind_some] at e
      cases hr : krigeColumns learn xs rows js
          ((h ++ [((xs, ys), none)]).modify h.length fun o => (o.1, some (learn o.1.1 o.1.2))) with
      | none => rw [hr] at e; simp at e
      | some q =>
        obtain ⟨h3, ks'⟩ := q
        rw [hr] at e
        simp only [Option.bind_some, Option.some.injEq, Prod.mk.injEq] at e
        obtain ⟨rfl, rfl⟩ := e
        obtain ⟨a1, a2, a3⟩ := ih _ _ hr
        refine ⟨by simp [a1], ?_, ?_⟩
        · intro k hk
          rw [a2 k (by simp; omega), List.getElem?_modify, List.getElem?_append_left hk]
          have hne : h.length ≠ k := by omega
          simp only [hne, if_false]
          cases h[k]? <;> rfl
        · intro i hi
          cases i with
          | zero =>
            refine ⟨h.length, ys, rfl, hc, ?_⟩
            rw [a2 _ (by simp), List.getElem?_modify]
            simp
          | succ i =>
            obtain ⟨k, zs, b1, b2, b3⟩ := a3 i (by simpa using hi)
            exact ⟨k, zs, by simpa using b1, by simpa using b2, b3⟩

/-- **C442, kriging.** Every kriging model returned is trained, with the samples and the values it is meant for. -/
theorem C442_trained {M I : Type} (learn : List I → List ℝ → M) (obj : List ℝ) (xs : List I) (rows : List (List ℝ))
    (h h' : KrigeStore M I) (o : ℕ) (ks : List ℕ) (e : buildKriging learn obj xs rows h = some (h', o, ks)) :
    h'[o]? = some ((xs, obj), some (learn xs obj)) ∧ (∀ k, k < h.length → h'[k]? = h[k]?) ∧
    ∃ r0, rows.head? = some r0 ∧ ks.length = r0.length ∧
      ∀ j, j < r0.length → ∃ k ys, ks[j]? = some k ∧ (rows.mapM fun r => r[j]?) = some ys ∧
        h'[k]? = some ((xs, ys), some (learn xs ys)) := by
  simp only [buildKriging, newKrige, trainKrige] at e
  cases hr : rows.head? with
  | none => rw [hr] at e; simp at e
  | some r0 =>
    rw [hr] at e
    simp only [Option.bind_eq_bind, Option.bind_some] at e
    cases hf : krigeColumns learn xs rows (List.range r0.length)
        ((h ++ [((xs, obj), none)]).modify h.length fun o => (o.1, some (learn o.1.1 o.1.2))) with
    | none => rw [hf] at e; simp at e
    | some q =>
      obtain ⟨h3, ks'⟩ := q
      rw [hf] at e
      simp only [Option.bind_some, Option.some.injEq, Prod.mk.injEq] at e
      obtain ⟨rfl, rfl, rfl⟩ := e
      obtain ⟨a1, a2, a3⟩ := krigeColumns_spec _ _ _ _ _ _ _ hf
      refine ⟨?_, ?_, r0, rfl, by simpa using a1, ?_⟩
      · rw [a2 _ (by simp), List.getElem?_modify]; simp
      · intro k hk
        rw [a2 k (by simp; omega), List.getElem?_modify, List.getElem?_append_left hk]
        have hne : h.length ≠ k := by omega
        simp only [hne, if_false]
        cases h[k]? <;> rfl
      · intro j hj
        obtain ⟨k, ys, b1, b2, b3⟩ := a3 j (by simpa using hj)
        exact ⟨k, ys, b1, by simpa [column] using b2, b3⟩

/-- Three samples with two constraints: three models are fitted. -/
example : buildScikit (fun (_ : List ℕ) ys => ys) [1, 2, 3] [10, 20, 30] [[4, 5], [6, 7], [8, 9]] [] =
    some ([some [1, 2, 3], some [4, 6, 8], some [5, 7, 9]], 0, [1, 2]) := by
  simp [buildScikit, newModel, fitModel, fitColumns, column, List.range_succ]

example : (buildKriging (fun (_ : List ℕ) ys => ys) [1, 2, 3] [10, 20, 30] [[4, 5], [6, 7], [8, 9]] []).isSome := by
  simp [buildKriging, newKrige, trainKrige, krigeColumns, column, List.range_succ]

end Verif.Optim
