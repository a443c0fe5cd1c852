import Verif.CommonModel
import Verif.MetisModel

/-
`AgglomerateTriangles` (`GeDiM/src/Mesh/MeshUtilities2D.cpp:1401-1466`): the polygon of triangles around a common vertex.
-/
namespace Verif

open Res

/-- `AgglomerateTrianglesResult` (`GeDiM/src/Mesh/MeshUtilities.hpp:259-264`). -/
structure FanPolygon where
  vertices : List Nat
  edges : List Nat
  removed : List Nat
  deriving DecidableEq, Repr

namespace Mesh

variable {α : Type}

/-- One round of the loop over the middle triangles (`GeDiM/src/Mesh/MeshUtilities2D.cpp:1424-1438`). -/
def fanRound (m : Mesh α) (ts : List Nat) (s : FanPolygon) (t : Nat) : Res FanPolygon := do
  let t0 ← vat ts t
  let t1 ← vat ts (t + 1)
  let common ← m.findCommonEdges [t0, t1]
  assert (common.length = 1)
  let e ← vget common 0
  let k ← m.findEntry .edge2 t0 e
  let v ← m.entry .vert2 t0 ((k + 2) % 3)
  let f ← m.entry .edge2 t0 ((k + 2) % 3)
  ok ⟨s.vertices ++ [v], s.edges ++ [f], s.removed ++ [e]⟩

/-- The last triangle (`GeDiM/src/Mesh/MeshUtilities2D.cpp:1441-1457`); `commonEdges.back()` of an empty list is undefined. -/
def fanLast (m : Mesh α) (ts : List Nat) (v : Nat) (s : FanPolygon) : Res FanPolygon := do
  let last ← vat ts (ts.length - 1)
  let back ← vget s.removed (s.removed.length - 1)
  let k ← m.findEntry .edge2 last back
  let j ← m.findEntry .vert2 last v
  let x ← m.entry .vert2 last ((j + 1) % 3)
  let y ← m.entry .vert2 last ((k + 2) % 3)
  let e ← m.entry .edge2 last ((j + 1) % 3)
  let f ← m.entry .edge2 last ((k + 2) % 3)
  ok ⟨s.vertices ++ [x, y], s.edges ++ [e, f], s.removed⟩

/-- `AgglomerateTriangles` (`GeDiM/src/Mesh/MeshUtilities2D.cpp:1401-1466`). -/
def agglomerateTriangles (m : Mesh α) (ts : List Nat) : Res FanPolygon := do
  let common ← m.findCommonVertices ts
  assert (common.length = 1)
  let v ← vget common 0
  let t0 ← vat ts 0
  let k ← m.findEntry .vert2 t0 v
  let e ← m.entry .edge2 t0 k
  let s ← foldRes (m.fanRound ts) ⟨[v], [e], []⟩ (List.range (ts.length - 1))
  m.fanLast ts v s

end Mesh
end Verif
