import Verif.Vlm.Layout
/-
C393: the books on panels, strips and surfaces agree.  C394: sums by strip and surface.  C395: values of a strip at its panels.
-/

namespace Verif.Vlm

variable {P : Type}

/-- Numbers of panels of all strips, in order. -/
def strips (v : Lay P) : List ℕ := (List.zipWith (fun c s => List.replicate s c) v.nCw v.nSw).flatten

/-- What is kept by panel, by strip and by surface fits together. -/
structure Good (v : Lay P) : Prop where
  len : v.nCw.length = v.nSw.length
  nW : v.nW = v.nSw.length
  pts : v.pts.length = (strips v).sum
  nCp : v.nCp = (strips v).sum
  id : v.id.length = (strips v).sum
  le : v.le = (strips v).flatMap leFlags
  te : v.te = (strips v).flatMap teFlags
  per : v.perStrip = (strips v).flatMap fun n => List.replicate n n
  number : v.number = (strips v).flatMap (List.range' 1)
  cb : v.chordBreaks = (List.range (strips v).length).map (chordBreak (strips v))
  sb : v.spanBreaks = (List.range v.nSw.length).map fun k => (v.nSw.take k).sum
  ex : v.exposed.length = (strips v).length
  cs : v.cs.length = (strips v).length

/-- One half of a surface. -/
def push (v : Lay P) (c s : ℕ) (ids : List ℤ) (ex : List Bool) (cs : List ℝ) (pts : List P) : Lay P :=
  { v with
    le := v.le ++ (List.replicate s (leFlags c)).flatten
    te := v.te ++ (List.replicate s (teFlags c)).flatten
    perStrip := v.perStrip ++ (List.replicate s (List.replicate c c)).flatten
    number := v.number ++ (List.replicate s (List.range' 1 c)).flatten
    exposed := v.exposed ++ ex
    nW := v.nW + 1
    nCp := v.nCp + pts.length
    chordBreaks := v.chordBreaks ++ (everyKth s c).map (v.pts.length + ·)
    spanBreaks := v.spanBreaks ++ [v.chordBreaks.length]
    nSw := v.nSw ++ [s]
    nCw := v.nCw ++ [c]
    id := v.id ++ ids
    pts := v.pts ++ pts
    cs := v.cs ++ cs }

theorem strips_push (v : Lay P) (h : v.nCw.length = v.nSw.length) (c s : ℕ) (ids : List ℤ) (ex : List Bool) (cs : List ℝ) (pts : List P) :
    strips (push v c s ids ex cs pts) = strips v ++ List.replicate s c := by
  simp [strips, push, List.zipWith_append h]

theorem strips_length (v : Lay P) (h : v.nCw.length = v.nSw.length) : (strips v).length = v.nSw.sum := by
  unfold strips
  have : ∀ (a b : List ℕ), a.length = b.length → (List.zipWith (fun c s => List.replicate s c) a b).flatten.length = b.sum := by
    intro a
    induction a with
    | nil => intro b hb; cases b with
      | nil => rfl
      | cons _ _ => simp at hb
    | cons x a ih => intro b hb; cases b with
      | nil => simp at hb
      | cons y b => simp only [List.zipWith_cons_cons, List.flatten_cons, List.length_append, List.length_replicate, List.sum_cons, ih b (by simpa using hb)]
  exact this _ _ h

theorem flatMap_replicate' {α β : Type} (n : ℕ) (a : α) (f : α → List β) : (List.replicate n a).flatMap f = (List.replicate n (f a)).flatten := by
  rw [List.flatMap_def, List.map_replicate]

theorem chordBreak_append_left (a b : List ℕ) (j : ℕ) (h : j ≤ a.length) : chordBreak (a ++ b) j = chordBreak a j := by
  unfold chordBreak
  rw [List.take_append_of_le_length h]

theorem Good.push {v : Lay P} (g : Good v) {c s : ℕ} {ids : List ℤ} {ex : List Bool} {cs : List ℝ} {pts : List P}
    (hi : ids.length = c * s) (hp : pts.length = c * s) (he : ex.length = s) (hc : cs.length = s) : Good (push v c s ids ex cs pts) := by
  have hs := strips_push v g.len c s ids ex cs pts
  have hl := strips_length v g.len
  have hsum : (strips v ++ List.replicate s c).sum = (strips v).sum + c * s := by
    simp [List.sum_append, mul_comm]
  refine ⟨?_, ?_, ?_, ?_, ?_, ?_, ?_, ?_, ?_, ?_, ?_, ?_, ?_⟩ <;> (try rw [hs]) <;> (try rw [hsum])
  · simp [Verif.Vlm.push, g.len]
  · simp [Verif.Vlm.push, g.nW]
  · simp [Verif.Vlm.push, g.pts, hp]
  · simp [Verif.Vlm.push, g.nCp, hp]
  · simp [Verif.Vlm.push, g.id, hi]
  · rw [List.flatMap_append, flatMap_replicate', ← g.le]; rfl
  · rw [List.flatMap_append, flatMap_replicate', ← g.te]; rfl
  · rw [List.flatMap_append, flatMap_replicate', ← g.per]; rfl
  · rw [List.flatMap_append, flatMap_replicate', ← g.number]; rfl
  · rw [List.length_append, List.length_replicate, List.range_add, List.map_append]
    change v.chordBreaks ++ (everyKth s c).map (v.pts.length + ·) = _
    rw [g.cb]
    congr 1
    · refine List.map_congr_left fun j hj => ?_
      rw [chordBreak_append_left _ _ _ (List.mem_range.1 hj).le]
    · rw [everyKth, List.map_map, List.map_map]
      refine List.map_congr_left fun j hj => ?_
      have hj' := List.mem_range.1 hj
      simp only [Function.comp, chordBreak, g.pts]
      rw [List.take_append, List.take_of_length_le (by omega), show (strips v).length + j - (strips v).length = j by omega, List.sum_append,
        List.take_replicate, List.sum_replicate, Nat.min_eq_left hj'.le]
      simp
  · change v.spanBreaks ++ [v.chordBreaks.length] = (List.range (v.nSw ++ [s]).length).map fun k => ((v.nSw ++ [s]).take k).sum
    rw [List.length_append, List.length_singleton, List.range_succ, List.map_append, g.sb, g.cb]
    congr 1
    · refine List.map_congr_left fun j hj => ?_
      rw [List.take_append_of_le_length (List.mem_range.1 hj).le]
    · simp [hl]
  · simp [Verif.Vlm.push, g.ex, he]
  · simp [Verif.Vlm.push, g.cs, hc]

/-- Wings and bodies as they are handed over. -/
structure WingIn.WF (w : WingIn P) : Prop where
  pts : ∀ s, (w.pts s).length = w.ncw * w.nsw
  exposed : w.exposed.length = w.nsw
  cs : w.cs.length = w.nsw
  pos : 0 < w.ncw ∧ 0 < w.nsw

structure BodyIn.WF (b : BodyIn P) : Prop where
  first : b.first.length = b.ncw * b.nsw
  second : b.second.length = b.ncw * b.nsw
  cs : b.cs.length = b.nsw
  pos : 0 < b.ncw ∧ 0 < b.nsw

theorem addHalf_eq (w : WingIn P) (v : Lay P) (sign : ℤ) :
    addHalf w v sign = push v w.ncw w.nsw (List.replicate (w.ncw * w.nsw) ((v.counter : ℤ) * sign)) w.exposed w.cs (w.pts sign) := rfl

theorem everyKth_add (m n k : ℕ) (x : ℕ) : (everyKth (m + n) k).map (x + ·) =
    (everyKth m k).map (x + ·) ++ (everyKth n k).map (x + m * k + ·) := by
  simp only [everyKth, List.range_add, List.map_append, List.map_map]
  congr 1
  refine List.map_congr_left fun j _ => ?_
  simp only [Function.comp]
  ring

theorem addBody_eq (v : Lay P) (b : BodyIn P) (h : b.WF) : addBody true v b =
    { push (push v b.ncw b.nsw (List.replicate b.first.length ((v.counter : ℤ) + 1)) (List.replicate b.nsw true) b.cs b.first)
        b.ncw b.nsw (List.replicate b.second.length ((v.counter : ℤ) + 1)) (List.replicate b.nsw true) b.cs b.second with
      counter := v.counter + 1, areas := v.areas ++ [b.area, b.area], lift := v.lift ++ [false, false] } := by
  have hk := everyKth_add b.nsw b.nsw b.ncw v.pts.length
  have h2 : b.nsw + b.nsw = 2 * b.nsw := by ring
  rw [h2] at hk
  have h3 : v.pts.length + b.nsw * b.ncw = (v.pts ++ b.first).length := by rw [List.length_append, h.first, mul_comm]
  rw [h3] at hk
  simp only [addBody, if_true, push, hk]
  simp [List.append_assoc, everyKth, add_assoc]

theorem Good.empty : Good (Lay.empty P) := by
  constructor <;> rfl

theorem Good.wing {v : Lay P} (g : Good v) {w : WingIn P} (h : w.WF) : Good (addWing v w) := by
  have g0 : Good { v with lift := v.lift ++ List.replicate (if w.sym then 2 else 1) w.lift, counter := v.counter + 1 } := by
    obtain ⟨a1, a2, a3, a4, a5, a6, a7, a8, a9, a10, a11, a12, a13⟩ := g
    exact ⟨a1, a2, a3, a4, a5, a6, a7, a8, a9, a10, a11, a12, a13⟩
  have g1 := g0.push (c := w.ncw) (s := w.nsw) (ids := List.replicate (w.ncw * w.nsw) (((v.counter + 1 : ℕ) : ℤ) * 1)) (ex := w.exposed) (cs := w.cs)
    (pts := w.pts 1) (by simp) (h.pts 1) h.exposed h.cs
  have g2 := g1.push (c := w.ncw) (s := w.nsw) (ids := List.replicate (w.ncw * w.nsw) (((v.counter + 1 : ℕ) : ℤ) * -1)) (ex := w.exposed) (cs := w.cs)
    (pts := w.pts (-1)) (by simp) (h.pts (-1)) h.exposed h.cs
  unfold addWing
  simp only [addHalf_eq]
  cases hs : w.sym
  · rw [hs] at g1
    obtain ⟨a1, a2, a3, a4, a5, a6, a7, a8, a9, a10, a11, a12, a13⟩ := g1
    exact ⟨a1, a2, a3, a4, a5, a6, a7, a8, a9, a10, a11, a12, a13⟩
  · rw [hs] at g2
    obtain ⟨a1, a2, a3, a4, a5, a6, a7, a8, a9, a10, a11, a12, a13⟩ := g2
    exact ⟨a1, a2, a3, a4, a5, a6, a7, a8, a9, a10, a11, a12, a13⟩

theorem Good.body {v : Lay P} (g : Good v) {b : BodyIn P} (h : b.WF) (m : Bool) : Good (addBody m v b) := by
  cases m
  · exact g
  · rw [addBody_eq v b h]
    have g1 := g.push (c := b.ncw) (s := b.nsw) (ids := List.replicate b.first.length ((v.counter : ℤ) + 1)) (ex := List.replicate b.nsw true)
      (cs := b.cs) (pts := b.first) (by simp [h.first]) h.first (by simp) h.cs
    have g2 := g1.push (c := b.ncw) (s := b.nsw) (ids := List.replicate b.second.length ((v.counter : ℤ) + 1)) (ex := List.replicate b.nsw true)
      (cs := b.cs) (pts := b.second) (by simp [h.second]) h.second (by simp) h.cs
    obtain ⟨a1, a2, a3, a4, a5, a6, a7, a8, a9, a10, a11, a12, a13⟩ := g2
    exact ⟨a1, a2, a3, a4, a5, a6, a7, a8, a9, a10, a11, a12, a13⟩

theorem foldl_inv {α β : Type} (p : β → Prop) (f : β → α → β) (l : List α) (q : α → Prop) (hf : ∀ b a, p b → q a → p (f b a)) (b : β)
    (hb : p b) (hl : ∀ a ∈ l, q a) : p (l.foldl f b) := by
  induction l generalizing b with
  | nil => exact hb
  | cons a l ih => exact ih _ (hf b a hb (hl a (by simp))) fun x hx => hl x (List.mem_cons_of_mem _ hx)

variable {wings controls : List (WingIn P)} {nacelles fuselages : List (BodyIn P)}

theorem lattice_inv (p : Lay P → Prop) (h0 : p (Lay.empty P)) (hw : ∀ v (w : WingIn P), p v → w.WF → p (addWing v w))
    (hb : ∀ v (b : BodyIn P) m, p v → b.WF → p (addBody m v b)) (h1 : ∀ w ∈ wings, w.WF) (h2 : ∀ w ∈ controls, w.WF) (h3 : ∀ b ∈ nacelles, b.WF)
    (h4 : ∀ b ∈ fuselages, b.WF) (mn mf : Bool) : p (lattice wings controls nacelles fuselages mn mf) :=
  foldl_inv p _ _ BodyIn.WF (fun v b => hb v b mf) _
    (foldl_inv p _ _ BodyIn.WF (fun v b => hb v b mn) _ (foldl_inv p _ _ WingIn.WF hw _ (foldl_inv p _ _ WingIn.WF hw _ h0 h1) h2) h3) h4

theorem flatMap_getElem? {β : Type} (f : ℕ → List β) (hf : ∀ n, (f n).length = n) (lens : List ℕ) :
    ∀ (j n k : ℕ), lens[j]? = some n → k < n → (lens.flatMap f)[chordBreak lens j + k]? = (f n)[k]? := by
  induction lens with
  | nil => intro j n k h; simp at h
  | cons m l ih =>
    intro j n k h hk
    cases j with
    | zero =>
      simp only [List.getElem?_cons_zero, Option.some.injEq] at h
      subst h
      simp only [chordBreak, List.take_zero, List.sum_nil, zero_add, List.flatMap_cons]
      rw [List.getElem?_append_left (by rw [hf]; exact hk)]
    | succ j =>
      rw [List.getElem?_cons_succ] at h
      simp only [chordBreak, List.take_succ_cons, List.sum_cons, List.flatMap_cons]
      rw [List.getElem?_append_right (by rw [hf]; omega), hf, show m + (l.take j).sum + k - m = chordBreak l j + k by unfold chordBreak; omega]
      exact ih j n k h hk

/-- Every panel is in one strip. -/
theorem panel_in_strip (lens : List ℕ) : ∀ i < lens.sum, ∃ j n k, lens[j]? = some n ∧ k < n ∧ i = chordBreak lens j + k := by
  induction lens with
  | nil => intro i h; simp at h
  | cons m l ih =>
    intro i h
    by_cases hm : i < m
    · exact ⟨0, m, i, rfl, hm, by simp [chordBreak]⟩
    · obtain ⟨j, n, k, h1, h2, h3⟩ := ih (i - m) (by simp at h; omega)
      exact ⟨j + 1, n, k, h1, h2, by simp only [chordBreak, List.take_succ_cons, List.sum_cons] at h3 ⊢; omega⟩

/-- **C393, panels.** For every vehicle: every panel belongs to a strip; from the number at which the strip begins one counts its
panels; the first is marked as leading edge and no other, the last as trailing edge and no other; every panel has its
number in the strip and the number of panels of its strip. -/
theorem C393_panels (h1 : ∀ w ∈ wings, w.WF) (h2 : ∀ w ∈ controls, w.WF) (h3 : ∀ b ∈ nacelles, b.WF) (h4 : ∀ b ∈ fuselages, b.WF) (mn mf : Bool) :
    let v := lattice wings controls nacelles fuselages mn mf
    v.nCp = v.pts.length ∧ v.id.length = v.pts.length ∧
    (∀ i < v.pts.length, ∃ j n k : ℕ, (strips v)[j]? = some n ∧ k < n ∧ (v.chordBreaks[j]?).map (· + k) = some i) ∧
    ∀ j n k b : ℕ, (strips v)[j]? = some n → k < n → v.chordBreaks[j]? = some b →
      v.le[b + k]? = some (decide (k = 0)) ∧ v.te[b + k]? = some (decide (k + 1 = n)) ∧ v.perStrip[b + k]? = some n ∧ v.number[b + k]? = some (k + 1) := by
  intro v
  have g : Good v := lattice_inv Good Good.empty (fun v w g h => g.wing h) (fun v b m g h => g.body h m) h1 h2 h3 h4 mn mf
  have cb : ∀ j, j < (strips v).length → v.chordBreaks[j]? = some (chordBreak (strips v) j) := by
    intro j hj; rw [g.cb, List.getElem?_map, List.getElem?_range hj]; rfl
  refine ⟨by rw [g.nCp, g.pts], by rw [g.id, g.pts], ?_, ?_⟩
  · intro i hi
    rw [g.pts] at hi
    obtain ⟨j, n, k, e1, e2, e3⟩ := panel_in_strip _ i hi
    have hj : j < (strips v).length := (List.getElem?_eq_some_iff.1 e1).1
    exact ⟨j, n, k, e1, e2, by rw [cb j hj, e3]; rfl⟩
  · intro j n k b hn hk hb
    have hj : j < (strips v).length := (List.getElem?_eq_some_iff.1 hn).1
    rw [cb j hj, Option.some.injEq] at hb
    subst hb
    refine ⟨?_, ?_, ?_, ?_⟩
    · rw [g.le, flatMap_getElem? _ (by simp [leFlags]) _ j n k hn hk, leFlags, List.getElem?_map, List.getElem?_range hk]; rfl
    · rw [g.te, flatMap_getElem? _ (by simp [teFlags]) _ j n k hn hk, teFlags, List.getElem?_map, List.getElem?_range hk]; rfl
    · rw [g.per, flatMap_getElem? _ (by simp) _ j n k hn hk, List.getElem?_replicate, if_pos hk]
    · rw [g.number, flatMap_getElem? _ (by simp) _ j n k hn hk, List.getElem?_range' hk]; simp [add_comm]

/-- **C393, strips and surfaces.** There are as many chords and flags of exposed edges as strips, as many areas and flags of vortex lift as
surfaces; from the number at which a surface begins one counts its strips, all with its number of panels. -/
theorem C393_strips (h1 : ∀ w ∈ wings, w.WF) (h2 : ∀ w ∈ controls, w.WF) (h3 : ∀ b ∈ nacelles, b.WF) (h4 : ∀ b ∈ fuselages, b.WF) (mn mf : Bool) :
    let v := lattice wings controls nacelles fuselages mn mf
    v.chordBreaks.length = (strips v).length ∧ v.exposed.length = (strips v).length ∧ v.cs.length = (strips v).length ∧
    v.spanBreaks.length = v.nW ∧ v.nSw.length = v.nW ∧ v.nCw.length = v.nW ∧ v.areas.length = v.nW ∧ v.lift.length = v.nW ∧
    ∀ k b s c t : ℕ, v.spanBreaks[k]? = some b → v.nSw[k]? = some s → v.nCw[k]? = some c → t < s → (strips v)[b + t]? = some c := by
  intro v
  have g : Good v := lattice_inv Good Good.empty (fun v w g h => g.wing h) (fun v b m g h => g.body h m) h1 h2 h3 h4 mn mf
  have hal : v.areas.length = v.nW ∧ v.lift.length = v.nW := by
    refine lattice_inv (fun v => v.areas.length = v.nW ∧ v.lift.length = v.nW) ⟨rfl, rfl⟩ ?_ ?_ h1 h2 h3 h4 mn mf
    · rintro v w ⟨e1, e2⟩ _
      unfold addWing addHalf
      cases w.sym <;> simp [e1, e2]
    · rintro v b m ⟨e1, e2⟩ _
      cases m <;> simp [addBody, e1, e2]
  refine ⟨by rw [g.cb]; simp, g.ex, g.cs, by rw [g.sb, g.nW]; simp, g.nW.symm, by rw [g.len, g.nW], hal.1, hal.2, ?_⟩
  intro k b s c t hb hs hc ht
  have hk : k < v.nSw.length := (List.getElem?_eq_some_iff.1 hs).1
  rw [g.sb, List.getElem?_map, List.getElem?_range hk, Option.map_some, Option.some.injEq] at hb
  subst hb
  unfold strips
  have key : ∀ (a l : List ℕ) (k : ℕ), a[k]? = some c → l[k]? = some s →
      (List.zipWith (fun c s => List.replicate s c) a l).flatten[(l.take k).sum + t]? = some c := by
    intro a
    induction a with
    | nil => intro l k h; simp at h
    | cons x a ih =>
      intro l k ha hl
      cases l with
      | nil => simp at hl
      | cons y l =>
        cases k with
        | zero =>
          simp only [List.getElem?_cons_zero, Option.some.injEq] at ha hl
          subst ha hl
          simp only [List.zipWith_cons_cons, List.flatten_cons, List.take_zero, List.sum_nil, zero_add]
          rw [List.getElem?_append_left (by simpa using ht), List.getElem?_replicate, if_pos ht]
        | succ k =>
          rw [List.getElem?_cons_succ] at ha hl
          simp only [List.zipWith_cons_cons, List.flatten_cons, List.take_succ_cons, List.sum_cons]
          rw [List.getElem?_append_right (by rw [List.length_replicate]; omega), List.length_replicate,
            show y + (l.take k).sum + t - y = (l.take k).sum + t by omega]
          exact ih l k ha hl
  exact key _ _ k hc hs

/-! ### Numbers of surfaces -/

/-- Panels of wings with the numbers of their surfaces, from the number `c` on. -/
def tagged (c : ℕ) : List (WingIn P) → List (ℤ × P)
  | [] => []
  | w :: ws => ((w.pts 1).map fun p => (((c + 1 : ℕ) : ℤ), p)) ++ (if w.sym then (w.pts (-1)).map fun p => (-((c + 1 : ℕ) : ℤ), p) else []) ++
    tagged (c + 1) ws

theorem zip_replicate {α β : Type} (a : α) (l : List β) (n : ℕ) (h : l.length = n) : (List.replicate n a).zip l = l.map fun p => (a, p) := by
  subst h
  induction l with
  | nil => rfl
  | cons x l ih => simp [List.replicate_succ, ih]

theorem addWing_tag (v : Lay P) (w : WingIn P) (h : w.WF) (hl : v.id.length = v.pts.length) :
    (addWing v w).id.zip (addWing v w).pts = v.id.zip v.pts ++ tagged v.counter [w] ∧ (addWing v w).counter = v.counter + 1 ∧
    (addWing v w).id.length = (addWing v w).pts.length := by
  unfold addWing addHalf
  cases hs : w.sym
  · refine ⟨?_, rfl, by simp [hl, h.pts]⟩
    simp only [Bool.false_eq_true, if_false, tagged, hs, List.append_nil]
    rw [List.zip_append hl, zip_replicate _ _ _ (h.pts 1)]
    simp
  · refine ⟨?_, rfl, by simp [hl, h.pts]⟩
    simp only [if_true, tagged, hs, List.append_nil]
    rw [List.zip_append (by simp [hl, h.pts]), List.zip_append hl, zip_replicate _ _ _ (h.pts 1), zip_replicate _ _ _ (h.pts (-1)), List.append_assoc]
    simp

theorem foldWings_tag (ws : List (WingIn P)) (h : ∀ w ∈ ws, w.WF) : ∀ v : Lay P, v.id.length = v.pts.length →
    (ws.foldl addWing v).id.zip (ws.foldl addWing v).pts = v.id.zip v.pts ++ tagged v.counter ws ∧
    (ws.foldl addWing v).counter = v.counter + ws.length ∧ (ws.foldl addWing v).id.length = (ws.foldl addWing v).pts.length := by
  induction ws with
  | nil => intro v hl; exact ⟨by simp [tagged], rfl, hl⟩
  | cons w ws ih =>
    intro v hl
    obtain ⟨e1, e2, e3⟩ := addWing_tag v w (h w (by simp)) hl
    obtain ⟨f1, f2, f3⟩ := ih (fun x hx => h x (List.mem_cons_of_mem _ hx)) (addWing v w) e3
    rw [List.foldl_cons]
    refine ⟨?_, by rw [f2, e2, List.length_cons]; omega, f3⟩
    rw [f1, e1, e2]
    simp [tagged, List.append_assoc]

/-- Bodies come after the wings, with larger numbers. -/
theorem foldBodies_tag (bs : List (BodyIn P)) (m : Bool) (h : ∀ b ∈ bs, b.WF) : ∀ v : Lay P, v.id.length = v.pts.length →
    ∃ rest : List (ℤ × P), (bs.foldl (addBody m) v).id.zip (bs.foldl (addBody m) v).pts = v.id.zip v.pts ++ rest ∧
      (∀ r ∈ rest, (v.counter : ℤ) < r.1) ∧ v.counter ≤ (bs.foldl (addBody m) v).counter ∧
      (bs.foldl (addBody m) v).id.length = (bs.foldl (addBody m) v).pts.length := by
  induction bs with
  | nil => intro v hl; exact ⟨[], by simp, by simp, le_refl _, hl⟩
  | cons b bs ih =>
    intro v hl
    cases m with
    | false => exact ih (fun x hx => h x (List.mem_cons_of_mem _ hx)) v hl
    | true =>
      have e3 : (addBody true v b).id.length = (addBody true v b).pts.length := by simp [addBody, hl]
      obtain ⟨rest, f1, f2, f3, f4⟩ := ih (fun x hx => h x (List.mem_cons_of_mem _ hx)) (addBody true v b) e3
      have ec : (addBody true v b).counter = v.counter + 1 := rfl
      rw [List.foldl_cons]
      refine ⟨(b.first ++ b.second).map (fun p => ((v.counter : ℤ) + 1, p)) ++ rest, ?_, ?_, by omega, f4⟩
      · rw [f1, ← List.append_assoc]
        congr 1
        change (v.id ++ List.replicate (b.first ++ b.second).length ((v.counter : ℤ) + 1)).zip (v.pts ++ (b.first ++ b.second)) = _
        rw [List.zip_append hl, zip_replicate _ _ _ rfl]
      · intro r hr
        rcases List.mem_append.1 hr with hr | hr
        · obtain ⟨p, _, rfl⟩ := List.mem_map.1 hr
          simp
        · have := f2 r hr
          rw [ec] at this
          push_cast at this
          omega

theorem tagged_bounds (ws : List (WingIn P)) : ∀ c : ℕ, ∀ r ∈ tagged c ws, (c : ℤ) < |r.1| ∧ |r.1| ≤ (c + ws.length : ℕ) := by
  induction ws with
  | nil => intro c r h; simp [tagged] at h
  | cons w ws ih =>
    intro c r h
    have key : |r.1| = (c : ℤ) + 1 → (c : ℤ) < |r.1| ∧ |r.1| ≤ (c + (w :: ws).length : ℕ) := by
      intro e; rw [e]; push_cast [List.length_cons]; omega
    simp only [tagged, List.mem_append] at h
    rcases h with (h | h) | h
    · obtain ⟨p, _, rfl⟩ := List.mem_map.1 h
      apply key
      rw [abs_of_nonneg (by positivity)]; push_cast; ring
    · split_ifs at h
      · obtain ⟨p, _, rfl⟩ := List.mem_map.1 h
        apply key
        rw [abs_neg, abs_of_nonneg (by positivity)]; push_cast; ring
      · simp at h
    · have := ih (c + 1) r h
      push_cast [List.length_cons] at this ⊢
      omega

theorem lattice_tag (h1 : ∀ w ∈ wings, w.WF) (h2 : ∀ w ∈ controls, w.WF) (h3 : ∀ b ∈ nacelles, b.WF) (h4 : ∀ b ∈ fuselages, b.WF) (mn mf : Bool) :
    ∃ rest : List (ℤ × P), (lattice wings controls nacelles fuselages mn mf).id.zip (lattice wings controls nacelles fuselages mn mf).pts =
      tagged 0 (wings ++ controls) ++ rest ∧ ∀ r ∈ rest, ((wings ++ controls).length : ℤ) < r.1 := by
  have hw : ∀ w ∈ wings ++ controls, w.WF := fun w hw => (List.mem_append.1 hw).elim (h1 w) (h2 w)
  obtain ⟨a1, a2, a3⟩ := foldWings_tag (wings ++ controls) hw (Lay.empty P) rfl
  have ea : (wings ++ controls).foldl addWing (Lay.empty P) = controls.foldl addWing (wings.foldl addWing (Lay.empty P)) := List.foldl_append
  rw [ea] at a1 a2 a3
  obtain ⟨r1, b1, b2, b3, b4⟩ := foldBodies_tag nacelles mn h3 _ a3
  obtain ⟨r2, c1, c2, -, -⟩ := foldBodies_tag fuselages mf h4 _ b4
  have h0 : (Lay.empty P).counter = 0 := rfl
  rw [h0] at a1 a2
  refine ⟨r1 ++ r2, ?_, ?_⟩
  · unfold lattice
    rw [c1, b1, a1]
    simp [Lay.empty]
  · intro r hr
    rcases List.mem_append.1 hr with hr | hr
    · have := b2 r hr; rw [a2] at this; simpa using this
    · have := c2 r hr
      have h5 : ((wings ++ controls).length : ℤ) ≤ ((nacelles.foldl (addBody mn) (controls.foldl addWing (wings.foldl addWing (Lay.empty P)))).counter : ℤ) := by
        rw [a2] at b3; exact_mod_cast (by simpa using b3)
      omega

theorem tagged_select (ws : List (WingIn P)) : ∀ (c k : ℕ) (w : WingIn P), ws[k]? = some w →
    ((tagged c ws).filter fun r => decide (r.1 = ((c + k + 1 : ℕ) : ℤ))).map (·.2) = w.pts 1 ∧
    ((tagged c ws).filter fun r => decide (r.1 = -((c + k + 1 : ℕ) : ℤ))).map (·.2) = if w.sym then w.pts (-1) else [] := by
  induction ws with
  | nil => intro c k w h; simp at h
  | cons x ws ih =>
    intro c k w h
    have hz : ∀ (l : List (ℤ × P)) (m : ℤ), (∀ r ∈ l, r.1 ≠ m) → l.filter (fun r => decide (r.1 = m)) = [] := by
      intro l m hl
      rw [List.filter_eq_nil_iff]
      intro r hr
      simpa using hl r hr
    have ha : ∀ (l : List P) (m : ℤ), ((l.map fun p => (m, p)).filter fun r => decide (r.1 = m)).map (·.2) = l := by
      intro l m
      induction l with
      | nil => rfl
      | cons a l ih => simp [ih]
    cases k with
    | zero =>
      simp only [List.getElem?_cons_zero, Option.some.injEq] at h
      subst h
      have hb := tagged_bounds ws (c + 1)
      have n1 : ∀ r ∈ tagged (c + 1) ws, r.1 ≠ ((c + 0 + 1 : ℕ) : ℤ) := by
        intro r hr e; have := (hb r hr).1; rw [e, abs_of_nonneg (by positivity)] at this; push_cast at this; omega
      have n2 : ∀ r ∈ tagged (c + 1) ws, r.1 ≠ -((c + 0 + 1 : ℕ) : ℤ) := by
        intro r hr e; have := (hb r hr).1; rw [e, abs_neg, abs_of_nonneg (by positivity)] at this; push_cast at this; omega
      have n3 : ∀ r ∈ (x.pts (-1)).map (fun p => (-((c + 1 : ℕ) : ℤ), p)), r.1 ≠ ((c + 0 + 1 : ℕ) : ℤ) := by
        intro r hr e; obtain ⟨p, _, rfl⟩ := List.mem_map.1 hr; push_cast at e; omega
      have n4 : ∀ r ∈ (x.pts 1).map (fun p => (((c + 1 : ℕ) : ℤ), p)), r.1 ≠ -((c + 0 + 1 : ℕ) : ℤ) := by
        intro r hr e; obtain ⟨p, _, rfl⟩ := List.mem_map.1 hr; push_cast at e; omega
      constructor
      · simp only [tagged, List.filter_append, List.map_append]
        rw [hz _ _ n1, ha]
        cases x.sym
        · simp
        · rw [if_pos rfl, hz _ _ n3]; simp
      · simp only [tagged, List.filter_append, List.map_append]
        rw [hz _ _ n2, hz _ _ n4]
        cases x.sym
        · simp
        · rw [if_pos rfl, if_pos rfl, ha]; simp
    | succ k =>
      rw [List.getElem?_cons_succ] at h
      obtain ⟨i1, i2⟩ := ih (c + 1) k w h
      rw [show c + 1 + k + 1 = c + (k + 1) + 1 by omega] at i1 i2
      have n1 : ∀ r ∈ (x.pts 1).map (fun p => (((c + 1 : ℕ) : ℤ), p)), r.1 ≠ ((c + (k + 1) + 1 : ℕ) : ℤ) ∧ r.1 ≠ -((c + (k + 1) + 1 : ℕ) : ℤ) := by
        intro r hr; obtain ⟨p, _, rfl⟩ := List.mem_map.1 hr; push_cast; constructor <;> (intro e; omega)
      have n2 : ∀ r ∈ (if x.sym then (x.pts (-1)).map (fun p => (-((c + 1 : ℕ) : ℤ), p)) else []),
          r.1 ≠ ((c + (k + 1) + 1 : ℕ) : ℤ) ∧ r.1 ≠ -((c + (k + 1) + 1 : ℕ) : ℤ) := by
        intro r hr
        split_ifs at hr
        · obtain ⟨p, _, rfl⟩ := List.mem_map.1 hr; push_cast; constructor <;> (intro e; omega)
        · simp at hr
      constructor
      · simp only [tagged, List.filter_append, List.map_append]
        rw [hz _ _ fun r hr => (n1 r hr).1, hz _ _ fun r hr => (n2 r hr).1, i1]; rfl
      · simp only [tagged, List.filter_append, List.map_append]
        rw [hz _ _ fun r hr => (n1 r hr).2, hz _ _ fun r hr => (n2 r hr).2, i2]; rfl

/-- **C393, numbers of surfaces.** The panels that carry the number of a wing or control surface, with the sign of a half, are those of this
half of it and no others, whatever else the vehicle has. -/
theorem C393_surface (h1 : ∀ w ∈ wings, w.WF) (h2 : ∀ w ∈ controls, w.WF) (h3 : ∀ b ∈ nacelles, b.WF) (h4 : ∀ b ∈ fuselages, b.WF) (mn mf : Bool)
    (k : ℕ) (w : WingIn P) (hw : (wings ++ controls)[k]? = some w) :
    let v := lattice wings controls nacelles fuselages mn mf
    ((v.id.zip v.pts).filter fun r => decide (r.1 = ((k + 1 : ℕ) : ℤ))).map (·.2) = w.pts 1 ∧
    ((v.id.zip v.pts).filter fun r => decide (r.1 = -((k + 1 : ℕ) : ℤ))).map (·.2) = if w.sym then w.pts (-1) else [] := by
  intro v
  obtain ⟨rest, e, hr⟩ := lattice_tag h1 h2 h3 h4 mn mf
  have hk : k < (wings ++ controls).length := (List.getElem?_eq_some_iff.1 hw).1
  obtain ⟨t1, t2⟩ := tagged_select (wings ++ controls) 0 k w hw
  rw [Nat.zero_add] at t1 t2
  have z1 : rest.filter (fun r => decide (r.1 = ((k + 1 : ℕ) : ℤ))) = [] := by
    rw [List.filter_eq_nil_iff]; intro r h'; have := hr r h'; simp only [decide_eq_true_eq]; push_cast; omega
  have z2 : rest.filter (fun r => decide (r.1 = -((k + 1 : ℕ) : ℤ))) = [] := by
    rw [List.filter_eq_nil_iff]; intro r h'; have := hr r h'; simp only [decide_eq_true_eq]; push_cast; omega
  refine ⟨?_, ?_⟩
  · rw [e, List.filter_append, List.map_append, t1, z1]; simp
  · rw [e, List.filter_append, List.map_append, t2, z2]; simp

theorem lattice_good (h1 : ∀ w ∈ wings, w.WF) (h2 : ∀ w ∈ controls, w.WF) (h3 : ∀ b ∈ nacelles, b.WF) (h4 : ∀ b ∈ fuselages, b.WF) (mn mf : Bool) :
    Good (lattice wings controls nacelles fuselages mn mf) :=
  lattice_inv Good Good.empty (fun _ _ g h => g.wing h) (fun _ _ m g h => g.body h m) h1 h2 h3 h4 mn mf

/-- No strip is empty and no surface is without strips. -/
theorem lattice_pos (h1 : ∀ w ∈ wings, w.WF) (h2 : ∀ w ∈ controls, w.WF) (h3 : ∀ b ∈ nacelles, b.WF) (h4 : ∀ b ∈ fuselages, b.WF) (mn mf : Bool) :
    (∀ n ∈ (lattice wings controls nacelles fuselages mn mf).nSw, 0 < n) ∧ ∀ n ∈ (lattice wings controls nacelles fuselages mn mf).nCw, 0 < n := by
  refine lattice_inv (fun v => (∀ n ∈ v.nSw, 0 < n) ∧ ∀ n ∈ v.nCw, 0 < n) ⟨by simp [Lay.empty], by simp [Lay.empty]⟩ ?_ ?_ h1 h2 h3 h4 mn mf
  · rintro v w ⟨e1, e2⟩ h
    unfold addWing addHalf
    have := h.pos
    cases w.sym
    · simp only [Bool.false_eq_true, if_false, List.mem_append, List.mem_singleton]
      exact ⟨fun n hn => hn.elim (e1 n) fun e => e ▸ this.2, fun n hn => hn.elim (e2 n) fun e => e ▸ this.1⟩
    · simp only [if_true, List.mem_append, List.mem_singleton]
      exact ⟨fun n hn => hn.elim (fun hn => hn.elim (e1 n) fun e => e ▸ this.2) fun e => e ▸ this.2,
        fun n hn => hn.elim (fun hn => hn.elim (e2 n) fun e => e ▸ this.1) fun e => e ▸ this.1⟩
  · rintro v b m ⟨e1, e2⟩ h
    have := h.pos
    cases m
    · exact ⟨e1, e2⟩
    · simp only [addBody, if_true, List.mem_append, List.mem_cons, List.not_mem_nil, or_false, or_self]
      exact ⟨fun n hn => hn.elim (e1 n) fun e => e ▸ this.2, fun n hn => hn.elim (e2 n) fun e => e ▸ this.1⟩

theorem strips_pos (v : Lay P) (h : ∀ n ∈ v.nCw, 0 < n) : ∀ n ∈ strips v, 0 < n := by
  unfold strips
  have : ∀ (a b : List ℕ), (∀ n ∈ a, 0 < n) → ∀ n ∈ (List.zipWith (fun c s => List.replicate s c) a b).flatten, 0 < n := by
    intro a
    induction a with
    | nil => intro b _ n hn; simp at hn
    | cons x a ih =>
      intro b ha n hn
      cases b with
      | nil => simp at hn
      | cons y b =>
        simp only [List.zipWith_cons_cons, List.flatten_cons, List.mem_append, List.mem_replicate] at hn
        rcases hn with hn | hn
        · rw [hn.2]; exact ha x (by simp)
        · exact ih b (fun m hm => ha m (List.mem_cons_of_mem _ hm)) n hn
  exact this _ _ h

/-! ### Sums -/

/-- The parts of a row with the given numbers of entries. -/
def parts {α : Type} : List ℕ → List α → List (List α)
  | [], _ => []
  | n :: l, a => a.take n :: parts l (a.drop n)

theorem reduceat_parts (lens : List ℕ) (hp : ∀ n ∈ lens, 0 < n) : ∀ (a : List ℝ) (off : ℕ), a.length = off + lens.sum →
    reduceat a ((List.range lens.length).map fun j => off + chordBreak lens j) = (parts lens (a.drop off)).map List.sum := by
  induction lens with
  | nil => intro a off _; rfl
  | cons n l ih =>
    intro a off ha
    have hn : 0 < n := hp n (by simp)
    have ht : (List.range (n :: l).length).map (fun j => off + chordBreak (n :: l) j) = off :: (List.range l.length).map fun j => (off + n) + chordBreak l j := by
      rw [List.length_cons, List.range_succ_eq_map, List.map_cons, List.map_map]
      congr 1
      refine List.map_congr_left fun j _ => ?_
      simp only [Function.comp, chordBreak, List.take_succ_cons, List.sum_cons]
      omega
    rw [ht]
    have hr := ih (fun m hm => hp m (List.mem_cons_of_mem _ hm)) a (off + n) (by rw [ha, List.sum_cons]; omega)
    cases l with
    | nil =>
      simp only [List.length_nil, List.range_zero, List.map_nil, reduceat, parts, List.map_cons]
      rw [List.take_of_length_le (by rw [List.length_drop, ha]; simp)]
    | cons m l =>
      have h0 : ((List.range (m :: l).length).map fun j => (off + n) + chordBreak (m :: l) j) =
          (off + n) :: (List.range l.length).map fun j => (off + n) + chordBreak (m :: l) (j + 1) := by
        rw [List.length_cons, List.range_succ_eq_map, List.map_cons, List.map_map]
        rfl
      rw [h0] at hr ⊢
      rw [reduceat, if_pos (by omega), hr]
      simp only [parts, List.map_cons, List.drop_drop]
      rw [show off + n - off = n by omega]

theorem sum_parts (lens : List ℕ) : ∀ a : List ℝ, a.length = lens.sum → ((parts lens a).map List.sum).sum = a.sum := by
  induction lens with
  | nil => intro a h; simp only [List.sum_nil, List.length_eq_zero_iff] at h; subst h; rfl
  | cons n l ih =>
    intro a h
    simp only [parts, List.map_cons, List.sum_cons]
    rw [ih (a.drop n) (by rw [List.length_drop, h, List.sum_cons]; omega), ← List.sum_append, List.take_append_drop]

/-- **C394, strips.** The sums over the panels of the strips, and over the strips of the surfaces, are taken over the panels and the strips of
each, and nothing is lost or counted twice. -/
theorem C394_sums (h1 : ∀ w ∈ wings, w.WF) (h2 : ∀ w ∈ controls, w.WF) (h3 : ∀ b ∈ nacelles, b.WF) (h4 : ∀ b ∈ fuselages, b.WF) (mn mf : Bool)
    (panel : List ℝ) (hl : panel.length = (lattice wings controls nacelles fuselages mn mf).nCp) :
    let v := lattice wings controls nacelles fuselages mn mf
    let strip := reduceat panel v.chordBreaks
    strip = (parts (strips v) panel).map List.sum ∧ reduceat strip v.spanBreaks = (parts v.nSw strip).map List.sum ∧
    strip.sum = panel.sum ∧ (reduceat strip v.spanBreaks).sum = panel.sum := by
  intro v strip
  have g : Good v := lattice_good h1 h2 h3 h4 mn mf
  obtain ⟨p1, p2⟩ := lattice_pos h1 h2 h3 h4 mn mf
  have hp := strips_pos v p2
  have e1 : strip = (parts (strips v) panel).map List.sum := by
    have := reduceat_parts (strips v) hp panel 0 (by rw [hl, zero_add]; exact g.nCp)
    simp only [zero_add, List.drop_zero] at this
    rw [← this]
    change reduceat panel v.chordBreaks = _
    rw [g.cb]
  have hsl : strip.length = v.nSw.sum := by
    rw [e1, List.length_map, ← strips_length v g.len]
    have : ∀ (l : List ℕ) (a : List ℝ), (parts l a).length = l.length := by
      intro l; induction l with
      | nil => intro a; rfl
      | cons n l ih => intro a; simp [parts, ih]
    exact this _ _
  have e2 : reduceat strip v.spanBreaks = (parts v.nSw strip).map List.sum := by
    have := reduceat_parts v.nSw p1 strip 0 (by rw [hsl, zero_add])
    simp only [zero_add, List.drop_zero] at this
    rw [← this, g.sb]
    rfl
  have e3 : strip.sum = panel.sum := by rw [e1]; exact sum_parts _ _ (by rw [hl]; exact g.nCp)
  exact ⟨e1, e2, e3, by rw [e2, sum_parts _ _ hsl, e3]⟩

/-- **C394, coefficients.** The lift of the vehicle is that of its surfaces: the coefficients of the surfaces, weighted with
their areas, add up to the coefficient of the vehicle times the reference area. -/
theorem C394_coefficients (h1 : ∀ w ∈ wings, w.WF) (h2 : ∀ w ∈ controls, w.WF) (h3 : ∀ b ∈ nacelles, b.WF) (h4 : ∀ b ∈ fuselages, b.WF) (mn mf : Bool)
    (force : List ℝ) (hl : force.length = (strips (lattice wings controls nacelles fuselages mn mf)).length) (sref : ℝ) (hs : sref ≠ 0)
    (ha : ∀ a ∈ (lattice wings controls nacelles fuselages mn mf).areas, a ≠ 0) :
    let v := lattice wings controls nacelles fuselages mn mf
    (List.zipWith (· * ·) (surfaceCoefficients v force) v.areas).sum = totalCoefficient sref force * sref := by
  intro v
  have g : Good v := lattice_good h1 h2 h3 h4 mn mf
  obtain ⟨p1, -⟩ := lattice_pos h1 h2 h3 h4 mn mf
  have hal : v.areas.length = v.nSw.length := by
    have := C393_strips h1 h2 h3 h4 mn mf
    exact this.2.2.2.2.2.2.1.trans this.2.2.2.2.1.symm
  have hsl : force.length = v.nSw.sum := by rw [hl]; exact strips_length v g.len
  have e2 : reduceat force v.spanBreaks = (parts v.nSw force).map List.sum := by
    have := reduceat_parts v.nSw p1 force 0 (by rw [hsl, zero_add])
    simp only [zero_add, List.drop_zero] at this
    rw [← this, g.sb]
    rfl
  have hpl : ∀ (l : List ℕ) (a : List ℝ), (parts l a).length = l.length := by
    intro l; induction l with
    | nil => intro a; rfl
    | cons n l ih => intro a; simp [parts, ih]
  have key : ∀ (x A : List ℝ), x.length = A.length → (∀ a ∈ A, a ≠ 0) → List.zipWith (· * ·) (List.zipWith (· / ·) x A) A = x := by
    intro x
    induction x with
    | nil => intro A _ _; rfl
    | cons y x ih =>
      intro A hA h
      cases A with
      | nil => simp at hA
      | cons b A =>
        simp only [List.zipWith_cons_cons, List.cons.injEq]
        exact ⟨div_mul_cancel₀ _ (h b (by simp)), ih A (by simpa using hA) fun a ha => h a (List.mem_cons_of_mem _ ha)⟩
  unfold surfaceCoefficients totalCoefficient
  rw [key _ _ (by rw [e2, List.length_map, hpl, hal]) ha, e2, sum_parts _ _ hsl, div_mul_cancel₀ _ hs]

/-! ### Values of a strip -/

theorem select_append {α : Type} (m m' : List Bool) (a a' : List α) (h : m.length = a.length) : select (m ++ m') (a ++ a') = select m a ++ select m' a' := by
  unfold select
  rw [List.zip_append h, List.filter_append, List.map_append]

theorem select_false {α : Type} (n : ℕ) (a : List α) : select (List.replicate n false) a = [] := by
  unfold select
  rw [List.map_eq_nil_iff, List.filter_eq_nil_iff]
  intro r hr
  have := (List.of_mem_zip (a := r.1) (b := r.2) hr).1
  simp [(List.mem_replicate.1 this).2]

theorem teFlags_succ (n : ℕ) : teFlags (n + 1) = List.replicate n false ++ [true] := by
  refine List.ext_getElem (by simp [teFlags]) fun i h _ => ?_
  simp only [teFlags, List.getElem_map, List.getElem_range, List.getElem_append, List.length_replicate, List.getElem_replicate, List.getElem_singleton]
  have : i < n + 1 := by simpa [teFlags] using h
  split_ifs with hi
  · simp; omega
  · simp; omega

theorem leFlags_succ (n : ℕ) : leFlags (n + 1) = true :: List.replicate n false := by
  refine List.ext_getElem (by simp [leFlags]) fun i h _ => ?_
  cases i <;> simp [leFlags]

theorem select_lens (lens : List ℕ) (hp : ∀ n ∈ lens, 0 < n) : select (lens.flatMap leFlags) (lens.flatMap fun n => List.replicate n n) = lens := by
  induction lens with
  | nil => rfl
  | cons n l ih =>
    rw [List.flatMap_cons, List.flatMap_cons, select_append _ _ _ _ (by simp [leFlags]), ih fun m hm => hp m (List.mem_cons_of_mem _ hm)]
    obtain ⟨k, rfl⟩ : ∃ k, n = k + 1 := ⟨n - 1, by have := hp n (by simp); omega⟩
    have : select (leFlags (k + 1)) (List.replicate (k + 1) (k + 1)) = [k + 1] := by
      rw [leFlags_succ, List.replicate_succ (n := k) (a := k + 1)]
      have := select_append [true] (List.replicate k false) [k + 1] (List.replicate k (k + 1)) rfl
      rw [select_false] at this
      exact this
    rw [this]
    rfl

theorem select_te {α : Type} (n : ℕ) (hn : 0 < n) (b : List α) (hb : b.length = n) : select (teFlags n) b = (b[n - 1]?).toList := by
  obtain ⟨k, rfl⟩ : ∃ k, n = k + 1 := ⟨n - 1, by omega⟩
  have h : b = b.take k ++ [b[k]'(by omega)] := by
    rw [List.take_append_getElem, List.take_of_length_le (by omega)]
  rw [teFlags_succ]
  conv_lhs => rw [h]
  rw [select_append _ _ _ _ (by simp; omega), select_false]
  rw [List.nil_append, Nat.add_sub_cancel, List.getElem?_eq_getElem (by omega)]
  rfl

theorem spread_getElem? {α : Type} (lens : List ℕ) (hp : ∀ n ∈ lens, 0 < n) : ∀ (a : List α), a.length = lens.sum →
    ∀ (j n k : ℕ), lens[j]? = some n → k < n →
      (repeatEach (select (lens.flatMap teFlags) a) lens)[chordBreak lens j + k]? = a[chordBreak lens j + (n - 1)]? := by
  induction lens with
  | nil => intro a _ j n k h; simp at h
  | cons m l ih =>
    intro a ha j n k hj hk
    have hm : 0 < m := hp m (by simp)
    have hal : m ≤ a.length := by rw [ha, List.sum_cons]; omega
    have h1 : select ((m :: l).flatMap teFlags) a = (a.take m)[m - 1]?.toList ++ select (l.flatMap teFlags) (a.drop m) := by
      conv_lhs => rw [← List.take_append_drop m a]
      rw [List.flatMap_cons, select_append _ _ _ _ (by simp [teFlags]; omega), select_te m hm _ (by simp; omega)]
    have h2 : (a.take m)[m - 1]?.toList = [a[m - 1]'(by omega)] := by
      rw [List.getElem?_take_of_lt (by omega), List.getElem?_eq_getElem (by omega)]; rfl
    have h3 : repeatEach (select ((m :: l).flatMap teFlags) a) (m :: l) =
        List.replicate m (a[m - 1]'(by omega)) ++ repeatEach (select (l.flatMap teFlags) (a.drop m)) l := by
      rw [h1, h2]; rfl
    rw [h3]
    cases j with
    | zero =>
      simp only [List.getElem?_cons_zero, Option.some.injEq] at hj
      subst hj
      simp only [chordBreak, List.take_zero, List.sum_nil, zero_add]
      rw [List.getElem?_append_left (by simpa using hk), List.getElem?_replicate, if_pos hk, List.getElem?_eq_getElem (by omega)]
    | succ j =>
      rw [List.getElem?_cons_succ] at hj
      simp only [chordBreak, List.take_succ_cons, List.sum_cons]
      rw [List.getElem?_append_right (by rw [List.length_replicate]; omega), List.length_replicate,
        show m + (l.take j).sum + k - m = chordBreak l j + k by unfold chordBreak; omega,
        ih (fun x hx => hp x (List.mem_cons_of_mem _ hx)) (a.drop m) (by rw [List.length_drop, ha, List.sum_cons]; omega) j n k hj hk,
        List.getElem?_drop]
      congr 1
      unfold chordBreak
      omega

/-- **C395, spread.** Every panel is given the value that the quantity has at the trailing edge of its own strip. -/
theorem C395_spread {α : Type} (h1 : ∀ w ∈ wings, w.WF) (h2 : ∀ w ∈ controls, w.WF) (h3 : ∀ b ∈ nacelles, b.WF) (h4 : ∀ b ∈ fuselages, b.WF)
    (mn mf : Bool) (a : List α) (hl : a.length = (lattice wings controls nacelles fuselages mn mf).nCp) :
    let v := lattice wings controls nacelles fuselages mn mf
    ∀ j n k b : ℕ, (strips v)[j]? = some n → k < n → v.chordBreaks[j]? = some b → (spreadLast v a)[b + k]? = a[b + (n - 1)]? := by
  intro v j n k b hn hk hb
  have g : Good v := lattice_good h1 h2 h3 h4 mn mf
  obtain ⟨-, p2⟩ := lattice_pos h1 h2 h3 h4 mn mf
  have hp := strips_pos v p2
  have hj : j < (strips v).length := (List.getElem?_eq_some_iff.1 hn).1
  rw [g.cb, List.getElem?_map, List.getElem?_range hj, Option.map_some, Option.some.injEq] at hb
  subst hb
  unfold spreadLast
  rw [g.te, g.le, g.per, select_lens _ hp]
  exact spread_getElem? _ hp a (by rw [hl]; exact g.nCp) j n k hn hk

/-- **C395, wings.** A panel counts as one of a wing exactly if it is one of a wing or control surface: the panels of the wings come first,
and the stations along the wings are those of the vehicle without its bodies. -/
theorem C395_stations {α : Type} (h1 : ∀ w ∈ wings, w.WF) (h2 : ∀ w ∈ controls, w.WF) (h3 : ∀ b ∈ nacelles, b.WF) (h4 : ∀ b ∈ fuselages, b.WF)
    (mn mf : Bool) (yc : List α) (hl : yc.length = (lattice wings controls nacelles fuselages mn mf).nCp) :
    let v := lattice wings controls nacelles fuselages mn mf
    let u := lattice wings controls [] [] mn mf
    isWing v (wings ++ controls).length = List.replicate u.nCp true ++ List.replicate (v.nCp - u.nCp) false ∧
    wingStations v (wings ++ controls).length yc = select u.te (yc.take u.nCp) ∧ (select u.te (yc.take u.nCp)).length = (strips u).length := by
  intro v u
  have g : Good v := lattice_good h1 h2 h3 h4 mn mf
  have gu : Good u := lattice_good h1 h2 (by simp) (by simp) mn mf
  obtain ⟨-, p2⟩ := lattice_pos (mn := mn) (mf := mf) h1 h2 (nacelles := []) (fuselages := []) (by simp) (by simp)
  have hpu := strips_pos u p2
  -- the bodies only append
  have happ : ∃ ids ts, v.id = u.id ++ ids ∧ v.te = u.te ++ ts ∧ ids.length = ts.length := by
    have step : ∀ (bs : List (BodyIn P)) (m : Bool) (x : Lay P), (∀ b ∈ bs, b.WF) → ∃ ids ts, (bs.foldl (addBody m) x).id = x.id ++ ids ∧
        (bs.foldl (addBody m) x).te = x.te ++ ts ∧ ids.length = ts.length := by
      intro bs m
      induction bs with
      | nil => intro x _; exact ⟨[], [], by simp, by simp, rfl⟩
      | cons b bs ih =>
        intro x hb
        obtain ⟨i, t, e1, e2, e3⟩ := ih (addBody m x b) fun y hy => hb y (List.mem_cons_of_mem _ hy)
        have hw := hb b (by simp)
        rw [List.foldl_cons]
        cases m with
        | false => exact ⟨i, t, e1, e2, e3⟩
        | true =>
          refine ⟨_, _, e1.trans (List.append_assoc _ _ _), e2.trans (List.append_assoc _ _ _), ?_⟩
          simp [e3, hw.first, hw.second, teFlags, mul_comm, add_assoc]
    obtain ⟨i1, t1, a1, a2, a3⟩ := step nacelles mn (controls.foldl addWing (wings.foldl addWing (Lay.empty P))) h3
    obtain ⟨i2, t2, b1, b2, b3⟩ := step fuselages mf (nacelles.foldl (addBody mn) (controls.foldl addWing (wings.foldl addWing (Lay.empty P)))) h4
    refine ⟨i1 ++ i2, t1 ++ t2, ?_, ?_, by simp [a3, b3]⟩
    · change (fuselages.foldl (addBody mf) _).id = _
      rw [b1, a1, List.append_assoc]; rfl
    · change (fuselages.foldl (addBody mf) _).te = _
      rw [b2, a2, List.append_assoc]; rfl
  obtain ⟨ids, ts, ei, et, eit⟩ := happ
  have hiu : u.id.length = u.nCp := by rw [gu.id, gu.nCp]
  have hiv : v.id.length = v.nCp := by rw [g.id, g.nCp]
  have htu : u.te.length = u.nCp := by
    rw [gu.te, gu.nCp]
    generalize strips u = l
    induction l with
    | nil => rfl
    | cons n l ih => simp [teFlags, ih]
  -- the numbers
  obtain ⟨rest, z1, z2⟩ := lattice_tag h1 h2 h3 h4 mn mf
  obtain ⟨rest', y1, y2⟩ := lattice_tag h1 h2 (nacelles := []) (fuselages := []) (by simp) (by simp) mn mf
  have hr' : rest' = [] := by
    have hw : ∀ w ∈ wings ++ controls, w.WF := fun w hw => (List.mem_append.1 hw).elim (h1 w) (h2 w)
    obtain ⟨a1, -, -⟩ := foldWings_tag (wings ++ controls) hw (Lay.empty P) rfl
    have ea : (wings ++ controls).foldl addWing (Lay.empty P) = lattice wings controls [] [] mn mf := List.foldl_append
    rw [ea, y1] at a1
    have h0 : (Lay.empty P).counter = 0 := rfl
    rw [h0] at a1
    simpa [Lay.empty] using a1
  rw [hr', List.append_nil] at y1
  have hids : u.id = (tagged 0 (wings ++ controls)).map (·.1) := by
    rw [← y1]
    exact (List.map_fst_zip (by rw [gu.id, gu.pts])).symm
  have hidv : v.id = (tagged 0 (wings ++ controls)).map (·.1) ++ rest.map (·.1) := by
    rw [← List.map_append, ← z1]
    exact (List.map_fst_zip (by rw [g.id, g.pts])).symm
  have hids' : ids = rest.map (·.1) := by
    rw [ei, hids] at hidv
    exact List.append_cancel_left hidv
  have hw : isWing v (wings ++ controls).length = List.replicate u.nCp true ++ List.replicate (v.nCp - u.nCp) false := by
    unfold isWing
    rw [ei, List.map_append]
    congr 1
    · rw [List.eq_replicate_iff]
      refine ⟨by simp [hiu], fun b hb => ?_⟩
      obtain ⟨k, hk, rfl⟩ := List.mem_map.1 hb
      rw [hids] at hk
      obtain ⟨r, hr, rfl⟩ := List.mem_map.1 hk
      have := (tagged_bounds _ 0 r hr).2
      rw [Nat.zero_add] at this
      simpa using this
    · rw [List.eq_replicate_iff]
      refine ⟨by rw [List.length_map, ← hiv, ← hiu, ei]; simp, fun b hb => ?_⟩
      obtain ⟨k, hk, rfl⟩ := List.mem_map.1 hb
      rw [hids'] at hk
      obtain ⟨r, hr, rfl⟩ := List.mem_map.1 hk
      have h5 := z2 r hr
      have h6 := le_abs_self r.1
      simp only [decide_eq_false_iff_not, not_le]
      omega
  have hlen : v.nCp = u.nCp + ts.length := by rw [← hiv, ← hiu, ei, List.length_append, eit]
  refine ⟨hw, ?_, ?_⟩
  · unfold wingStations
    rw [hw, et, List.zipWith_append (by simp [htu])]
    have w1 : ∀ l : List Bool, List.zipWith (· && ·) (List.replicate l.length true) l = l := by
      intro l; induction l with
      | nil => rfl
      | cons b l ih => simp [List.replicate_succ, ih]
    have w2 : ∀ l : List Bool, List.zipWith (· && ·) (List.replicate l.length false) l = List.replicate l.length false := by
      intro l; induction l with
      | nil => rfl
      | cons b l ih => simp [List.replicate_succ, ih]
    rw [show v.nCp - u.nCp = ts.length by omega, w2, ← htu, w1]
    conv_lhs => rw [← List.take_append_drop u.te.length yc]
    rw [select_append _ _ _ _ (by rw [List.length_take, hl]; change _ = min _ v.nCp; omega), select_false, List.append_nil]
  · have hy : (yc.take u.nCp).length = (strips u).sum := by rw [List.length_take, hl, ← gu.nCp]; change min _ v.nCp = _; omega
    rw [gu.te]
    generalize yc.take u.nCp = y at hy
    clear hids hidv y1 htu et ei hw hlen hiu p2
    revert y
    generalize strips u = l at hpu
    induction l with
    | nil => intro y _; rfl
    | cons n l ih =>
      intro y hy
      have hn : 0 < n := hpu n (by simp)
      rw [List.sum_cons] at hy
      conv_lhs => rw [← List.take_append_drop n y]
      rw [List.flatMap_cons, select_append _ _ _ _ (by simp [teFlags]; omega), List.length_append, select_te n hn _ (by simp; omega),
        ih (fun x hx => hpu x (List.mem_cons_of_mem _ hx)) _ (by rw [List.length_drop]; omega), List.getElem?_take_of_lt (by omega),
        List.getElem?_eq_getElem (by omega)]
      simp [add_comm]

/-- **C395, vortex lift.** Every strip has the flag of vortex lift of its surface. -/
theorem C395_lift (h1 : ∀ w ∈ wings, w.WF) (h2 : ∀ w ∈ controls, w.WF) (h3 : ∀ b ∈ nacelles, b.WF) (h4 : ∀ b ∈ fuselages, b.WF) (mn mf : Bool) :
    let v := lattice wings controls nacelles fuselages mn mf
    ∀ k b s t : ℕ, v.spanBreaks[k]? = some b → v.nSw[k]? = some s → t < s → (stripLift v)[b + t]? = v.lift[k]? := by
  intro v k b s t hb hs ht
  have g : Good v := lattice_good h1 h2 h3 h4 mn mf
  have hll : v.lift.length = v.nSw.length := by
    have := C393_strips h1 h2 h3 h4 mn mf
    exact this.2.2.2.2.2.2.2.1.trans this.2.2.2.2.1.symm
  have hk : k < v.nSw.length := (List.getElem?_eq_some_iff.1 hs).1
  rw [g.sb, List.getElem?_map, List.getElem?_range hk, Option.map_some, Option.some.injEq] at hb
  subst hb
  unfold stripLift repeatEach
  have key : ∀ (a : List Bool) (l : List ℕ) (k : ℕ), a.length = l.length → l[k]? = some s →
      (List.zipWith (fun x n => List.replicate n x) a l).flatten[(l.take k).sum + t]? = a[k]? := by
    intro a
    induction a with
    | nil => intro l k h hl; cases l with
      | nil => simp at hl
      | cons _ _ => simp at h
    | cons x a ih =>
      intro l k h hl
      cases l with
      | nil => simp at hl
      | cons y l =>
        cases k with
        | zero =>
          simp only [List.getElem?_cons_zero, Option.some.injEq] at hl
          subst hl
          simp only [List.zipWith_cons_cons, List.flatten_cons, List.take_zero, List.sum_nil, zero_add]
          rw [List.getElem?_append_left (by simpa using ht), List.getElem?_replicate, if_pos ht]; rfl
        | succ k =>
          rw [List.getElem?_cons_succ] at hl
          simp only [List.zipWith_cons_cons, List.flatten_cons, List.take_succ_cons, List.sum_cons]
          rw [List.getElem?_append_right (by rw [List.length_replicate]; omega), List.length_replicate,
            show y + (l.take k).sum + t - y = (l.take k).sum + t by omega]
          exact ih l k (by simpa using h) hl
  exact key _ _ k hll hs

/-- A symmetric wing of two strips of three panels and one body. -/
def tinyWing : WingIn ℕ := ⟨3, 2, true, true, 5, [true, true], [1, 1], fun s => if s = 1 then [0, 1, 2, 3, 4, 5] else [10, 11, 12, 13, 14, 15]⟩
def tinyBody : BodyIn ℕ := ⟨2, 1, 3, [4], [20, 21], [30, 31]⟩

example : tinyWing.WF := ⟨fun s => by unfold tinyWing; dsimp only; split_ifs <;> rfl, rfl, rfl, by decide, by decide⟩
example : tinyBody.WF := ⟨rfl, rfl, rfl, by decide, by decide⟩
example : (lattice [tinyWing] [] [] [tinyBody] true true).chordBreaks = [0, 3, 6, 9, 12, 14] := by decide
example : (lattice [tinyWing] [] [] [tinyBody] true true).id = [1, 1, 1, 1, 1, 1, -1, -1, -1, -1, -1, -1, 2, 2, 2, 2] := by decide
example : spreadLast (lattice [tinyWing] [] [] [tinyBody] true true) (List.range 16) = [2, 2, 2, 5, 5, 5, 8, 8, 8, 11, 11, 11, 13, 13, 15, 15] := by decide
example : ∀ a ∈ (lattice [tinyWing] [] [] [tinyBody] true true).areas, a ≠ 0 := by
  have : (lattice [tinyWing] [] [] [tinyBody] true true).areas = [5, 5, 3, 3] := rfl
  rw [this]; norm_num

end Verif.Vlm
