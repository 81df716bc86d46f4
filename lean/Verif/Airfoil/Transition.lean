import Verif.Airfoil.CoordinatesProps
import Mathlib.Tactic.FieldSimp
import Mathlib.Tactic.Ring
import Mathlib.Algebra.Order.Field.Basic

/-!
# Sections between two sections

Model of `trunk/SUAVE/Methods/Geometry/Two_Dimensional/Cross_Section/Airfoil/generate_interpolated_airfoils.py`: the points and the
files written, read back by the model of `import_airfoil_geometry.py`.
-/

namespace Verif.Airfoil

/-- Lines 51-54: one coordinate of a section between, for the weight `z`. -/
def blend (z p q : ℚ) : ℚ := z * (q - p) + p

/-- Weight of the file number `k` (from zero) of `n` sections (lines 38, 68-71). -/
def transitionWeight (n k : ℕ) : ℚ := (k + 1 : ℕ) / (n - 1 : ℕ)

/-- One surface between two surfaces. -/
def blendSurface (z : ℚ) (a b : List (ℚ × ℚ)) : List (ℚ × ℚ) :=
  List.zipWith (fun p q => (blend z p.1 q.1, blend z p.2 q.2)) a b

/-- A line of the file (lines 79, 85) for a way `fmt` of printing numbers. -/
def pointLine (fmt : ℚ → List Char) (p : ℚ × ℚ) : List Char := fmt p.1 ++ ' ' :: fmt p.2 ++ ['\n']

/-- The lines of a file (lines 63-86); `title` is what follows the first letter of the title. -/
def transitionFile (fmt : ℚ → List Char) (title : List Char) (s : Surfaces) : List (List Char) :=
  ('A' :: title) :: [' ', '6', '1', '.', ' ', '6', '1', '.', '\n'] :: ['\n'] ::
    (s.1.map (pointLine fmt) ++ ['\n'] :: s.2.map (pointLine fmt))

/-- All files (lines 61-88). -/
def transitionFiles (fmt : ℚ → List Char) (title : ℕ → List Char) (n : ℕ) (a b : Surfaces) : List (List (List Char)) :=
  (List.range (n - 2)).map fun k =>
    transitionFile fmt (title k)
      (blendSurface (transitionWeight n k) a.1 b.1, blendSurface (transitionWeight n k) a.2 b.2)

/-- **C230.** There are two sections less than asked for, each coordinate lies strictly between those of the two sections given
when these differ, and the steps from one section to the next are equal, the given ones included. -/
theorem C230_steps (fmt : ℚ → List Char) (title : ℕ → List Char) (n : ℕ) (hn : 3 ≤ n) (a b : Surfaces) (p q : ℚ) :
    (transitionFiles fmt title n a b).length = n - 2 ∧
      (∀ k, k < n - 2 → p < q → p < blend (transitionWeight n k) p q ∧ blend (transitionWeight n k) p q < q) ∧
      (∀ k, k + 1 < n - 2 → blend (transitionWeight n (k + 1)) p q - blend (transitionWeight n k) p q = (q - p) / ((n - 1 : ℕ) : ℚ)) ∧
      blend (transitionWeight n 0) p q - p = (q - p) / ((n - 1 : ℕ) : ℚ) ∧
      q - blend (transitionWeight n (n - 3)) p q = (q - p) / ((n - 1 : ℕ) : ℚ) := by
  obtain ⟨m, rfl⟩ : ∃ m, n = m + 3 := ⟨n - 3, by omega⟩
  have hpos : (0 : ℚ) < ((m + 3 - 1 : ℕ) : ℚ) := by exact_mod_cast (by omega : 0 < m + 3 - 1)
  refine ⟨by simp [transitionFiles], ?_, ?_, ?_, ?_⟩
  · intro k hk hpq
    have hw0 : 0 < transitionWeight (m + 3) k := by
      unfold transitionWeight
      apply div_pos _ hpos
      exact_mod_cast Nat.succ_pos k
    have hw1 : transitionWeight (m + 3) k < 1 := by
      unfold transitionWeight
      rw [div_lt_one hpos]
      exact_mod_cast (by omega : k + 1 < m + 3 - 1)
    unfold blend
    constructor <;> nlinarith
  · intro k _
    unfold blend transitionWeight
    push_cast
    field_simp
    ring
  · unfold blend transitionWeight
    push_cast
    field_simp
    ring
  · unfold blend transitionWeight
    simp only [Nat.add_sub_cancel]
    have : ((m + 3 - 1 : ℕ) : ℚ) = m + 2 := by
      rw [show m + 3 - 1 = m + 2 by omega]; push_cast; ring
    rw [this]
    have h2 : (m : ℚ) + 2 ≠ 0 := by positivity
    push_cast
    field_simp
    ring

/-- A number is printed as one word that reads as the number. -/
def Prints (fmt : ℚ → List Char) (x : ℚ) : Prop :=
  parseFloat (fmt x) = some x ∧ fmt x ≠ [] ∧ ∀ c ∈ fmt x, isBlank c = false

theorem words_pointLine (fmt : ℚ → List Char) (p : ℚ × ℚ) (h1 : Prints fmt p.1) (h2 : Prints fmt p.2) :
    words (pointLine fmt p) = [fmt p.1, fmt p.2] := by
  unfold words pointLine
  rw [List.append_assoc, List.cons_append,
    List.splitOnP_append_cons_of_forall_mem h1.2.2 ' ' (by decide),
    List.splitOnP_append_cons_of_forall_mem h2.2.2 '\n' (by decide)]
  simp [h1.2.1, h2.2.1]

/-- **C230.** A file written is read back as the points it was written from, whatever the number of points (the numbers of points
in its second line are always 61). -/
theorem C230_read_back (fmt : ℚ → List Char) (title : List Char) (s : Surfaces)
    (h : ∀ p ∈ s.1 ++ s.2, Prints fmt p.1 ∧ Prints fmt p.2) : readSection (transitionFile fmt title s) = some s := by
  have holds : ∀ l : List (ℚ × ℚ), (∀ p ∈ l, Prints fmt p.1 ∧ Prints fmt p.2) → List.Forall₂ Holds (l.map (pointLine fmt)) l := by
    intro l hl
    induction l with
    | nil => exact List.Forall₂.nil
    | cons p l ih =>
      refine List.Forall₂.cons ?_ (ih fun q hq => hl q (List.mem_cons_of_mem _ hq))
      obtain ⟨h1, h2⟩ := hl p List.mem_cons_self
      unfold Holds
      rw [words_pointLine fmt p h1 h2]
      exact ⟨by simp, by simp [pointOf, h1.1, h2.1]⟩
  unfold transitionFile
  have := C220_blocks ('A' :: title) [' ', '6', '1', '.', ' ', '6', '1', '.', '\n'] ['\n'] ['\n'] (s.1.map (pointLine fmt))
    (s.2.map (pointLine fmt)) s.1 s.2 61 (by
      intro c hc
      simp only [List.head?_cons, Option.some.injEq] at hc
      subst hc
      decide +kernel) (by decide +kernel) (by norm_num) (by decide +kernel)
    (holds s.1 fun p hp => h p (List.mem_append_left _ hp)) (holds s.2 fun p hp => h p (List.mem_append_right _ hp))
  exact this

/-- A printer of the numbers 0, 1 and 1/2, enough for a wedge. -/
def wedgeFmt (x : ℚ) : List Char := if x = 0 then ['0'] else if x = 1 then ['1'] else ['0', '.', '5']

example : readSection (transitionFile wedgeFmt [] ([(0, 0), (1, 1 / 2)], [(0, 0), (1, 0)])) =
    some ([(0, 0), (1, 1 / 2)], [(0, 0), (1, 0)]) := by
  apply C230_read_back
  unfold Prints
  decide +kernel

end Verif.Airfoil
