import Verif.DropModel

/-
What a list without one entry and the mark of a cell are.
-/
namespace Verif

open Res

/-- `M` is `L` without entry `k`: the entries before it stay, those after it come one place earlier. -/
structure IsWithout {α : Type} (L : List α) (k : Nat) (M : List α) : Prop where
  number : M.length + 1 = L.length
  before : ∀ i, i < k → i < M.length → M[i]? = L[i]?
  after : ∀ i, k ≤ i → M[i]? = L[i + 1]?

/-- `m` is the mark of cell `c`: the default one for a cell without points, otherwise the largest of the marks of its points. -/
structure IsCellMark {P : Type} (marking : List P → Res (List Int)) (default : Nat) (c : List P) (m : Nat) : Prop where
  empty : c = [] → m = default
  largest : c ≠ [] → ∃ marks, marking c = ok marks ∧ (m : Int) ∈ marks ∧ ∀ z ∈ marks, z ≤ m

end Verif
