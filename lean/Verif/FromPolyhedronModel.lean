import Verif.FromPolygonModel
import Verif.FillModel
import Verif.BisectModel
import Verif.ActiveModel

/-
`MeshUtilities::Mesh3DFromPolyhedron` and `MeshCell3DToPolyhedron` (`GeDiM/src/Mesh/MeshUtilities3D.cpp:565-648`, `:2411-2451`).

Matrices are lists of their columns. The entries of the matrices of integers are given by their values after the conversion to
`unsigned int`.
-/
namespace Verif

open Res

namespace Mesh

variable {K : Type} [Field K]

/-- The edges (`GeDiM/src/Mesh/MeshUtilities3D.cpp:599-610`). -/
def polyhedronEdges (n : Nat) (es : List (Nat × Nat)) (em : List Nat) (m : Mesh K) : Res (Mesh K) :=
  foldRes (fun (m : Mesh K) e => do
    let x ← vget es e
    let k ← givenMarker em es.length e (n + e + 1)
    m.putEdge e x.1 x.2 k) m (List.range es.length)

/-- The faces (`GeDiM/src/Mesh/MeshUtilities3D.cpp:612-632`). -/
def polyhedronFaces (n : Nat) (fs : List (List (Nat × Nat))) (fm : List Nat) (m : Mesh K) : Res (Mesh K) :=
  foldRes (fun (m : Mesh K) f => do
    let p ← vget fs f
    let m ← m.resizeRowOf .vert2 f p.length
    let m ← m.resizeRowOf .edge2 f p.length
    let k ← givenMarker fm fs.length f (n + f + 1)
    m.putPolygon f (p.map Prod.fst) (p.map Prod.snd) k) m (List.range fs.length)

/-- The polyhedron (`GeDiM/src/Mesh/MeshUtilities3D.cpp:634-647`). -/
def polyhedronCell (nv ne nf : Nat) (m : Mesh K) : Res (Mesh K) := do
  let m := m.init .d3 1
  let m ← m.resizeRowOf .vert3 0 nv
  let m ← m.resizeRowOf .edge3 0 ne
  let m ← m.resizeRowOf .face3 0 nf
  let m ← m.insertFrom .vert3 0 0 (List.range nv)
  let m ← m.insertFrom .edge3 0 0 (List.range ne)
  let m ← m.insertFrom .face3 0 0 (List.range nf)
  let m ← m.setAct .d3 0 true
  m.setMark .d3 0 0

/-- `Mesh3DFromPolyhedron` (`GeDiM/src/Mesh/MeshUtilities3D.cpp:565-648`). The points are made as in `Mesh2DFromPolygon` (`:582-595`). -/
def mesh3DFromPolyhedron (ps : List (V3 K)) (es : List (Nat × Nat)) (fs : List (List (Nat × Nat))) (vm em fm : List Nat)
    (m : Mesh K) : Res (Mesh K) := do
  let m : Mesh K := { m with dimension := 3 }
  assert (3 < ps.length)
  let m ← polygonPoints ps vm (m.init .d0 ps.length)
  let m ← polyhedronEdges ps.length es em (m.init .d1 es.length)
  let m ← polyhedronFaces (ps.length + es.length) fs fm (m.init .d2 fs.length)
  polyhedronCell ps.length es.length fs.length m

end Mesh

/-- `GeometryUtilities::Polyhedron` (`GeDiM/src/Geometry/GeometryUtilities.hpp`): vertices, edges and faces with local indices. -/
structure LocalPolyhedron (K : Type) where
  vertices : List (V3 K)
  edges : List (Nat × Nat)
  faces : List (List (Nat × Nat))

/-- The map from the indices in the mesh to the local ones (`GeDiM/src/Mesh/MeshUtilities3D.cpp:2422-2425`, `:2430`). -/
def localMap : List Nat → Nat → NatMap → NatMap
  | [], _, m => m
  | x :: xs, k, m => localMap xs (k + 1) (natInsert m x k)

/-- `unordered_map::at` (`GeDiM/src/Mesh/MeshUtilities3D.cpp:2432-2433`, `:2444-2445`). -/
def localAt (m : NatMap) (x : Nat) : Res Nat :=
  match natFind m x with
  | some i => ok i
  | none => throw

namespace Mesh

variable {K : Type}

/-- A column of a face (`GeDiM/src/Mesh/MeshUtilities3D.cpp:2444-2445`). -/
def localColumn (m : Mesh K) (V E : NatMap) (f j : Nat) : Res (Nat × Nat) := do
  let v ← m.entry .vert2 f j
  let a ← localAt V v
  let e ← m.entry .edge2 f j
  let b ← localAt E e
  ok (a, b)

/-- `MeshCell3DToPolyhedron` (`GeDiM/src/Mesh/MeshUtilities3D.cpp:2411-2451`). The lists of the polyhedron are read at once, and the map
of the edges is made before the edges; an edge of the list is in the map as soon as its turn comes, and only the faces use the map. -/
def cellToPolyhedron (m : Mesh K) (c : Nat) : Res (LocalPolyhedron K) := do
  let vs ← m.row .vert3 c
  let ps ← mapRes m.point vs
  let es ← m.row .edge3 c
  let fs ← m.row .face3 c
  let V := localMap vs 0 []
  let edges ← mapRes (fun e => do
    let x ← m.extremes e
    let a ← localAt V x.1
    let b ← localAt V x.2
    ok (a, b)) es
  let E := localMap es 0 []
  let faces ← mapRes (fun f => do
    let n ← m.rowSize .vert2 f
    mapRes (m.localColumn V E f) (List.range n)) fs
  ok ⟨ps, edges, faces⟩

end Mesh
end Verif
