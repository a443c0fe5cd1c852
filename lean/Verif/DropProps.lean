import Verif.DropLemmas

/-
C143 and C144: removing a row or a column, and the marks of the cells.
-/
namespace Verif

open Res

/-- **C143**: `RemoveColumn` with the number of a column leaves the other columns, in their order. -/
theorem c143_column {α : Type} (A : ColMatrix α) (k : Nat) (hk : k < A.columns.length) :
    ∃ B, dropColumn A k = ok B ∧ B.rows = A.rows ∧ IsWithout A.columns k B.columns := by
  obtain ⟨M, e, h⟩ := dropEntry_without A.columns k hk
  exact ⟨⟨A.rows, M⟩, by simp [dropColumn, e], rfl, h⟩

/-- **C143**: `RemoveRow` with the number of a row leaves the other rows, in their order, in each column. -/
theorem c143_row {α : Type} (A : ColMatrix α) (k : Nat) (hA : ∀ c ∈ A.columns, c.length = A.rows) (hk : k < A.rows) :
    ∃ B, dropRow A k = ok B ∧ B.rows + 1 = A.rows ∧ List.Forall₂ (fun c d => IsWithout c k d) A.columns B.columns := by
  obtain ⟨C, e, h⟩ := mapRes_forall₂ (f := fun c => dropEntry c k) (R := fun c d => IsWithout c k d) (l := A.columns)
    (fun c hc => dropEntry_without c k (by rw [hA c hc]; exact hk))
  refine ⟨⟨usub A.rows 1, C⟩, by simp [dropRow, e], ?_, h⟩
  show usub A.rows 1 + 1 = A.rows
  rw [usub_of_le (by omega)]; omega

/-- **C143**: the number is not checked: with a number that no column has, the last column is lost. -/
theorem c143_beyond {α : Type} (A : ColMatrix α) (k : Nat) (h0 : A.columns ≠ []) (hk : A.columns.length ≤ k) :
    dropColumn A k = ok ⟨A.rows, A.columns.dropLast⟩ := by
  simp [dropColumn, dropEntry_beyond A.columns k h0 hk]

example : dropColumn ⟨2, [[1, 2], [3, 4], [5, 6]]⟩ 1 = ok ⟨2, [[1, 2], [5, 6]]⟩ := by decide

example : dropRow ⟨3, [[1, 2, 3], [4, 5, 6]]⟩ 0 = ok ⟨2, [[2, 3], [5, 6]]⟩ := by decide

example : dropColumn ⟨1, [[1], [2], [3]]⟩ 7 = ok ⟨1, [[1], [2]]⟩ := by decide

/-- **C144** (partial: the full statement has no condition on the sign of the marks; it is false without it, see `c144_marks_violated`): if
the marking function gives every cell with points a mark that is not negative, `MarkCells` gives each cell the largest
mark of its points, and the default mark to a cell without points. -/
theorem c144_marks_partial {P : Type} (marking : List P → Res (List Int)) (cells : List (List P)) (default : Nat)
    (h : ∀ c ∈ cells, c ≠ [] → ∃ marks, marking c = ok marks ∧ ∃ z ∈ marks, 0 ≤ z) :
    ∃ M, markCells marking cells default = ok M ∧ List.Forall₂ (fun c m => IsCellMark marking default c m) cells M := by
  apply mapRes_forall₂
  intro c hc
  by_cases h0 : c = []
  · subst h0
    exact ⟨default, by simp, fun _ => rfl, fun g => absurd rfl g⟩
  · obtain ⟨marks, e, z, hz, hz0⟩ := h c hc h0
    cases marks with
    | nil => simp at hz
    | cons x xs =>
      obtain ⟨h1, h2⟩ := foldl_max_spec xs x
      have h3 : 0 ≤ xs.foldl max x := le_trans hz0 (h2 z hz)
      have h4 : uaddi 0 (xs.foldl max x) = (xs.foldl max x).toNat := by
        rw [uaddi_of_nonneg (by simpa using h3)]; simp
      have h5 : (((xs.foldl max x).toNat : Nat) : Int) = xs.foldl max x := Int.toNat_of_nonneg h3
      refine ⟨(xs.foldl max x).toNat, ?_, fun g => absurd g h0, fun _ => ⟨x :: xs, e, by rw [h5]; exact h1, by rw [h5]; exact h2⟩⟩
      rw [if_neg (by simpa using h0), e, ok_bind]
      simp only [largestCoeff, ok_bind, h4]

/-- **C144**: when all the marks of a cell are negative the mark of the cell is not one of them: it wraps around. -/
theorem c144_marks_violated : ∃ (marking : List Nat → Res (List Int)) (cells : List (List Nat)) (M : List Nat),
    markCells marking cells 0 = ok M ∧ ¬ List.Forall₂ (fun c m => IsCellMark marking 0 c m) cells M := by
  refine ⟨fun _ => ok [-1], [[0]], [4294967295], by decide, ?_⟩
  intro h
  cases h with
  | cons h _ =>
    obtain ⟨marks, e, hm, _⟩ := h.largest (by simp)
    cases e
    simp at hm

example : markCells (fun c => ok (c.map fun p => (p : Int) - 1)) [[0, 3, 2], [], [1, 0]] 9 = ok [2, 9, 0] := by decide

end Verif
