import Verif.RectModel

/-
`MeshUtilities::Mesh2DFromPolygon` (`GeDiM/src/Mesh/MeshUtilities2D.cpp:500-555`).
-/
namespace Verif

open Res

/-- The marker of cell `i`: the given one if there are `n` given markers, else `d`
(`GeDiM/src/Mesh/MeshUtilities2D.cpp:518-521`, `:532-535`). -/
def givenMarker (ms : List Nat) (n i d : Nat) : Res Nat := if ms.length = n then vget ms i else ok d

namespace Mesh

variable {K : Type} [Field K]

/-- The points (`GeDiM/src/Mesh/MeshUtilities2D.cpp:511-522`): state, coordinates and marker. -/
def polygonPoints (ps : List (V3 K)) (vm : List Nat) (m : Mesh K) : Res (Mesh K) :=
  foldRes (fun (m : Mesh K) v => do
    let p ← vget ps v
    let k ← givenMarker vm ps.length v (v + 1)
    m.putPoint v p k) m (List.range ps.length)

/-- The edges (`GeDiM/src/Mesh/MeshUtilities2D.cpp:527-536`): extremes, state and marker. -/
def polygonEdges (n : Nat) (em : List Nat) (m : Mesh K) : Res (Mesh K) :=
  foldRes (fun (m : Mesh K) e => do
    let k ← givenMarker em n e (n + e + 1)
    m.putEdge e e ((e + 1) % n) k) m (List.range n)

/-- The neighbours of the edges: the polygon is in the second slot
(`GeDiM/src/Mesh/MeshUtilities2D.cpp:553-554`). -/
def polygonNeighbours (n : Nat) (m : Mesh K) : Res (Mesh K) :=
  foldRes (fun (m : Mesh K) e => m.insertEntry .nb12 e 1 0) m (List.range n)

/-- `Mesh2DFromPolygon` (`GeDiM/src/Mesh/MeshUtilities2D.cpp:500-555`); the matrix of the vertices is the list
of its columns, so it has three rows. -/
def mesh2DFromPolygon (ps : List (V3 K)) (vm em : List Nat) (m : Mesh K) : Res (Mesh K) := do
  let n := ps.length
  let m : Mesh K := { m with dimension := 2 }
  assert (2 < n)
  let m ← polygonPoints ps vm (m.init .d0 n)
  let m ← polygonEdges n em (m.init .d1 n)
  let m := m.init .d2 1
  let m ← m.resizeRowOf .vert2 0 n
  let m ← m.resizeRowOf .edge2 0 n
  let m ← m.putPolygon 0 (List.range n) (List.range n) 0
  polygonNeighbours n (m.initRowsConst .nb12 2)

end Mesh
end Verif
