import Verif.MeshModel

/-
`MeshUtilities::ComputeMesh2DCell1Ds` (`GeDiM/src/Mesh/MeshUtilities2D.cpp:195-267`). The
coordinates of the vertices only serve for their number.

`Eigen::SparseMatrix<unsigned int>` is stored by columns: a column is the list of its (row, value)
pairs in increasing order of rows.
-/
namespace Verif

open Res

/-- A compressed sparse matrix by columns. -/
abbrev SpMat := List (List (Nat × Nat))

/-- Add `v` to the entry `r` of a column; `setFromTriplets` of Eigen sums up duplicates and leaves
the rows of a column sorted. -/
def spInsert (r v : Nat) : List (Nat × Nat) → List (Nat × Nat)
  | [] => [(r, v)]
  | (r', v') :: t =>
    if r < r' then (r, v) :: (r', v') :: t
    else if r = r' then (r', v' + v) :: t
    else (r', v') :: spInsert r v t

/-- Eigen `setFromTriplets` on an empty square matrix; indices outside of it are undefined
behaviour (an assertion in debug builds). -/
def setFromTriplets (n : Nat) (triplets : List (Nat × Nat × Nat)) : Res SpMat :=
  foldRes (fun cols t => do
    if t.1 < n then do
      let col ← vget cols t.2.1
      vset cols t.2.1 (spInsert t.1 t.2.2 col)
    else ub) (List.replicate n []) triplets

/-- Eigen `coeff(row, col)`: entries that are not stored are zero. -/
def spCoeff (m : SpMat) (row col : Nat) : Res Nat := do
  let c ← vget m col
  match c.find? fun e => e.1 = row with
  | some e => ok e.2
  | none => ok 0

/-- One column of the numbering loop (`GeDiM/src/Mesh/MeshUtilities2D.cpp:224-228`): the entries above
the diagonal become `1 + numEdges++`. -/
def numberColumn (k : Nat) : Nat → List (Nat × Nat) → List (Nat × Nat) × Nat
  | numEdges, [] => ([], numEdges)
  | numEdges, (r, v) :: t =>
    if r < k then
      let rest := numberColumn k (numEdges + 1) t
      ((r, 1 + numEdges) :: rest.1, rest.2)
    else
      let rest := numberColumn k numEdges t
      ((r, v) :: rest.1, rest.2)

/-- The numbering loop (`GeDiM/src/Mesh/MeshUtilities2D.cpp:221-229`) from column `k` on. -/
def numberColumns : Nat → Nat → SpMat → SpMat × Nat
  | _, numEdges, [] => ([], numEdges)
  | k, numEdges, c :: m =>
    let col := numberColumn k numEdges c
    let rest := numberColumns (k + 1) col.2 m
    (col.1 :: rest.1, rest.2)

/-- The loop that stores the edges (`GeDiM/src/Mesh/MeshUtilities2D.cpp:233-241`). It writes column
`numEdges++` of a matrix that has been given the size counted by the loop before; the result is the
list of the columns. -/
def collectEdges (numEdges : Nat) (m : SpMat) : Res (List (Nat × Nat)) := do
  let r ← foldRes (fun (s : List (Nat × Nat) × Nat) k => do
    let col ← vget m k
    foldRes (fun (s : List (Nat × Nat) × Nat) (e : Nat × Nat) =>
      if e.1 < k then do
        let l ← vset s.1 s.2 (e.1, k)
        ok (l, s.2 + 1)
      else ok s) s col) (List.replicate numEdges (0, 0), 0) (List.range m.length)
  ok r.1

/-- `ComputeMesh2DCell1DsResult` (`GeDiM/src/Mesh/MeshUtilities.hpp`): ends of each edge and, for
each polygon, pairs of vertex and edge. -/
structure Cell1DsResult where
  cell1Ds : List (Nat × Nat)
  cell2Ds : List (List (Nat × Nat))

/-- The triplets of the sides of the polygons
(`GeDiM/src/Mesh/MeshUtilities2D.cpp:206-219`). -/
def sideTriplets (cell2Ds : List (List Nat)) : Res (List (Nat × Nat × Nat)) :=
  foldRes (fun ts cell => foldRes (fun ts v => do
      let origin ← vget cell v
      let end_ ← vget cell ((v + 1) % cell.length)
      ok (ts ++ [(origin, end_, 1), (end_, origin, 1)])) ts (List.range cell.length)) [] cell2Ds

/-- `ComputeMesh2DCell1Ds` (`GeDiM/src/Mesh/MeshUtilities2D.cpp:195-267`). -/
def computeMesh2DCell1Ds (numVertices : Nat) (cell2Ds : List (List Nat)) : Res Cell1DsResult := do
  let triplets ← sideTriplets cell2Ds
  let edges ← setFromTriplets numVertices triplets
  let numbered := numberColumns 0 0 edges
  let cell1Ds ← collectEdges numbered.2 numbered.1
  let cells ← mapRes (fun cell => mapRes (fun v => do
      let origin ← vget cell v
      let end_ ← vget cell ((v + 1) % cell.length)
      let n ← if origin < end_ then spCoeff numbered.1 origin end_
        else spCoeff numbered.1 end_ origin
      ok (origin, usub n 1)) (List.range cell.length)) cell2Ds
  ok ⟨cell1Ds, cells⟩

end Verif
