import Verif.MeshModel

/-
The labels of the edges during a refinement, `Cell1D_GeometricData` (`GeDiM/src/Mesh/RefinementUtilities.hpp:280-292`):
the parts of `RefinePolygonCell_InitializeGeometricData` and `RefinePolygonCell_UpdateGeometricData` about them
(`GeDiM/src/Mesh/RefinementUtilities2D.cpp:701-717`, `:758-760`, `:777-780`, `:848-863`). The data of the polygons, which
is computed in between and does not depend on the labels, is left out. `unsigned int` is `Nat`.
-/
namespace Verif

open Res

variable {α σ : Type}

/-- `Cell1D_GeometricData` (`GeDiM/src/Mesh/RefinementUtilities.hpp:280-292`), for any type of states of edges. -/
structure EdgeLabels (σ : Type) where
  maxAligned : Nat
  aligned : List Nat
  status : List σ
  deriving DecidableEq, Repr

/-- The loop body over the edges of a polygon (`GeDiM/src/Mesh/RefinementUtilities2D.cpp:850-862`). -/
def labelEdge (m : Mesh α) (s : EdgeLabels σ) (e : Nat) : Res (EdgeLabels σ) := do
  let has ← m.hasOriginal .d1 e
  if has = true then do
    let o ← m.original .d1 e
    let l ← vget s.aligned o
    let aligned ← vset s.aligned e l
    let t ← vget s.status o
    let status ← vset s.status e t
    ok { s with aligned := aligned, status := status }
  else do
    let l ← vget s.aligned e
    if l = 0 then do
      let aligned ← vset s.aligned e (s.maxAligned + 1)
      ok { s with maxAligned := s.maxAligned + 1, aligned := aligned }
    else ok s

/-- The edges of one polygon (`GeDiM/src/Mesh/RefinementUtilities2D.cpp:779-780`, `:848-863`). -/
def labelCell (m : Mesh α) (s : EdgeLabels σ) (c : Nat) : Res (EdgeLabels σ) := do
  let n ← m.rowSize .edge2 c
  foldRes (fun s k => do
    let e ← m.entry .edge2 c k
    labelEdge m s e) s (List.range n)

/-- The labels in `RefinePolygonCell_UpdateGeometricData`
(`GeDiM/src/Mesh/RefinementUtilities2D.cpp:754-865`). -/
def updateLabels (m : Mesh α) (checked : σ) (cells : List Nat) (s : EdgeLabels σ) : Res (EdgeLabels σ) :=
  foldRes (labelCell m)
    { s with
      aligned := vresize s.aligned (m.num .d1) 0
      status := vresize s.status (m.num .d1) checked } cells

/-- The labels in `RefinePolygonCell_InitializeGeometricData`
(`GeDiM/src/Mesh/RefinementUtilities2D.cpp:701-717`). -/
def initialLabels (m : Mesh α) (checked : σ) : Res (EdgeLabels σ) :=
  updateLabels m checked (List.range (m.num .d2))
    { maxAligned := m.num .d1, aligned := (List.range (m.num .d1)).map (· + 1), status := [] }

end Verif
