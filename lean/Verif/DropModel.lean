import Verif.MeshModel

/-
Removing a row or a column of a matrix, and the marks of the cells of a mesh.
-/
namespace Verif

open Res

/-- A matrix by columns, as `Eigen::MatrixXd` stores it. -/
structure ColMatrix (α : Type) where
  rows : Nat
  columns : List (List α)
  deriving DecidableEq, Repr

/-- The move of the entries after entry `k` one place down and the cut to `n` entries, common to `RemoveRow` and `RemoveColumn`
(`GeDiM/src/Algebra/Eigen_Utilities.cpp:63-69` and `:74-80`). The source is the last `n - k` entries (`bottomRows`, `rightCols`), the target
begins at `k`; the two overlap and Eigen copies the entries in increasing order, as here. A resize to more entries than there are
would leave entries without a value; it is `ub` here. -/
def dropEntry {α : Type} (L : List α) (k : Nat) : Res (List α) := do
  let n := usub L.length 1
  let M ← if k < n then
      foldRes (fun M i => do
        let x ← vget M (L.length - (n - k) + i)
        vset M (k + i) x) L (List.range (n - k))
    else ok L
  if n ≤ M.length then ok (M.take n) else ub

/-- `Eigen_Utilities::RemoveColumn` (`GeDiM/src/Algebra/Eigen_Utilities.cpp:72-81`). -/
def dropColumn {α : Type} (A : ColMatrix α) (k : Nat) : Res (ColMatrix α) := do
  let C ← dropEntry A.columns k
  ok { rows := A.rows, columns := C }

/-- `Eigen_Utilities::RemoveRow` (`GeDiM/src/Algebra/Eigen_Utilities.cpp:61-70`). The block is copied column by column. -/
def dropRow {α : Type} (A : ColMatrix α) (k : Nat) : Res (ColMatrix α) := do
  let C ← mapRes (fun c => dropEntry c k) A.columns
  ok { rows := usub A.rows 1, columns := C }

/-- `maxCoeff()` of an `Eigen::VectorXi`; Eigen requires an entry. -/
def largestCoeff : List Int → Res Int
  | [] => ub
  | x :: xs => ok (xs.foldl max x)

/-- `MeshUtilities::MarkCells` (`GeDiM/src/Mesh/MeshUtilities.cpp:1125-1144`). A cell is the list of its points; `marking` is the
function given by the caller. The largest mark is an `int` and is stored in an `unsigned int`: a negative one wraps around. -/
def markCells {P : Type} (marking : List P → Res (List Int)) (cells : List (List P)) (default : Nat) : Res (List Nat) :=
  mapRes (fun c =>
    if c.length = 0 then ok default
    else do
      let marks ← marking c
      let m ← largestCoeff marks
      ok (uaddi 0 m)) cells

end Verif
