import Verif.SplitModel
import Verif.MetisModel

/-
A new vertex on an edge is passed on to the polygons of the edge: `UpdateCell2D_NewVertex`
(`GeDiM/src/Mesh/RefinementUtilities.cpp:50-85`) and `RefinePolygonCell_UpdateNeighbours`
(`GeDiM/src/Mesh/RefinementUtilities2D.cpp:1696-1765`). The conversion of the indices to `int` in the matrix of the new
polygon is left out.
-/
namespace Verif

open Res

namespace Mesh

variable {α : Type} [Zero α]

/-- A column of the new polygon from the copies of the vertices and edges, read with `at`
(`GeDiM/src/Mesh/RefinementUtilities.cpp:65`, `:79`). -/
def columnAt (vs es : List Nat) (e : Nat) : Res (Nat × Nat) := do
  let v ← vat vs e
  let x ← vat es e
  ok (v, x)

/-- `UpdateCell2D_NewVertex` (`GeDiM/src/Mesh/RefinementUtilities.cpp:50-85`): the mesh and the new polygon. A position
beyond the edges is found by `at` in the first loop or right after it, before a column of the matrix is missing. -/
def addVertexOnEdge (m : Mesh α) (c : Nat) (direction : Bool) (position : Nat) (halves : List Nat) (w : Nat) :
    Res (Mesh α × Nat) := do
  let n ← m.rowSize .vert2 c
  let vs ← m.row .vert2 c
  let es ← m.row .edge2 c
  let start ← mapRes (columnAt vs es) (List.range position)
  let v ← vat vs position
  let before ← vat halves (if direction then 0 else 1)
  let after ← vat halves (if direction then 1 else 0)
  let rest ← mapRes (columnAt vs es) (List.range' (position + 1) (n - (position + 1)))
  let (m, news) ← m.splitCell2D c [start ++ (v, before) :: (w, after) :: rest]
  assert (news.length = 1)
  let new ← vat news 0
  ok (m, new)

/-- A column of the new polygon, read from the mesh (`GeDiM/src/Mesh/RefinementUtilities2D.cpp:1732-1733`,
`:1744-1745`). -/
def column (m : Mesh α) (c e : Nat) : Res (Nat × Nat) := do
  let v ← m.entry .vert2 c e
  let x ← m.entry .edge2 c e
  ok (v, x)

/-- One round of `RefinePolygonCell_UpdateNeighbours` (`GeDiM/src/Mesh/RefinementUtilities2D.cpp:1711-1757`). The state is
the mesh and the list of pairs (neighbour, new polygon). -/
def passToNeighbour (c e w : Nat) (halves : List Nat) (directions : List (List Bool)) (s : Mesh α × List (Nat × Nat))
    (k : Nat) : Res (Mesh α × List (Nat × Nat)) := do
  let (m, out) := s
  let has ← m.hasEntry .nb12 e k
  if !has then ok (m, out)
  else do
    let neigh ← m.entry .nb12 e k
    if neigh = c then ok (m, out)
    else do
      let u ← m.updated .d2 neigh
      if u.isSome then ok (m, out)
      else do
        let n ← m.rowSize .vert2 neigh
        let i ← m.findEntry .edge2 neigh e
        let ds ← vget directions neigh
        let direction ← vget ds i
        let start ← mapRes (m.column neigh) (List.range i)
        let v ← m.entry .vert2 neigh i
        let before ← vget halves (if direction then 0 else 1)
        let after ← vget halves (if direction then 1 else 0)
        let rest ← mapRes (m.column neigh) (List.range' (i + 1) (n - (i + 1)))
        let (m, news) ← m.splitCell2D neigh [start ++ (v, before) :: (w, after) :: rest]
        ok (m, out ++ news.map fun x => (neigh, x))

/-- `RefinePolygonCell_UpdateNeighbours` (`GeDiM/src/Mesh/RefinementUtilities2D.cpp:1696-1765`). The number of neighbours
of the edge does not change during the loop; the model reads it once. -/
def passToNeighbours (m : Mesh α) (c e w : Nat) (halves : List Nat) (directions : List (List Bool)) :
    Res (Mesh α × List (Nat × Nat)) := do
  let n ← m.rowSize .nb12 e
  foldRes (passToNeighbour c e w halves directions) (m, []) (List.range n)

end Mesh

end Verif
