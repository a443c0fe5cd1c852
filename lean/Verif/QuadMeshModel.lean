import Verif.RectModel
import Verif.CheckModel

/-
`MeshUtilities::CreateQuadrilateralMeshFromTriangularMesh`
(`GeDiM/src/Mesh/MeshUtilities_MeshGenerators.cpp:2198-2310`). `double` is an arbitrary field. An access of the matrix
`edge_structure` out of its range is undefined.
-/
namespace Verif

open Res

/-- `SimplexBarycenter` and `PolygonBarycenter` (`GeDiM/src/Geometry/GeometryUtilities.hpp:1682-1686`, `:1710-1714`). -/
def polygonBarycenter {K : Type} [Field K] (ps : List (V3 K)) : Res (V3 K) := do
  assert (2 < ps.length)
  ok ⟨(ps.map (·.x)).sum / ps.length, (ps.map (·.y)).sum / ps.length, (ps.map (·.z)).sum / ps.length⟩

/-- The new mesh, `cell0DIndex`, `cell1DIndex`, `cell2DIndex` and the rows of `edge_structure`
(`GeDiM/src/Mesh/MeshUtilities_MeshGenerators.cpp:2211-2223`). -/
structure QuadState (K : Type) where
  mesh : Mesh K
  points : Nat
  edges : Nat
  cells : Nat
  halves : List (Nat × Nat × Nat)

namespace Mesh

variable {K : Type} [Field K] [LinearOrder K]

/-- `Cell1DSetState`, `Cell1DInsertExtremes`, `Cell1DSetMarker`
(`GeDiM/src/Mesh/MeshUtilities_MeshGenerators.cpp:2240-2242`). -/
def quadEdge (m : Mesh K) (i o e mark : Nat) : Res (Mesh K) := do
  let m ← m.setAct .d1 i true
  let m ← m.insertExt i o e
  m.setMark .d1 i mark

/-- The copy of a vertex (`GeDiM/src/Mesh/MeshUtilities_MeshGenerators.cpp:2215-2221`). -/
def quadCopy (t : Mesh K) (s : Mesh K × Nat) (v : Nat) : Res (Mesh K × Nat) := do
  let p ← t.point v
  let k ← t.marker .d0 v
  let m ← s.1.putPoint s.2 p k
  ok (m, s.2 + 1)

/-- One round of the loop over the edges (`GeDiM/src/Mesh/MeshUtilities_MeshGenerators.cpp:2224-2254`). -/
def quadSplitEdge (t : Mesh K) (s : QuadState K) (e : Nat) : Res (QuadState K) := do
  let x ← t.extremes e
  let p ← t.point x.1
  let q ← t.point x.2
  let k ← t.marker .d1 e
  let m ← s.mesh.putPoint s.points (p.add (V3.smul (1 / 2) (q.sub p))) k
  let m ← m.quadEdge s.edges x.1 s.points k
  let m ← m.quadEdge (s.edges + 1) s.points x.2 k
  let halves ← vset s.halves e (usub (s.edges + 2) 2, usub (s.edges + 2) 1, s.points)
  ok ⟨m, s.points + 1, s.edges + 2, s.cells, halves⟩

/-- One round of the loop over the three corners of a triangle
(`GeDiM/src/Mesh/MeshUtilities_MeshGenerators.cpp:2268-2308`). -/
def quadCorner (t : Mesh K) (c : Nat) (s : QuadState K) (i : Nat) : Res (QuadState K) := do
  let prev ← t.entry .edge2 c (if 0 < i then (i - 1) % 3 else 2)
  let edge ← t.entry .edge2 c i
  let h ← vget s.halves edge
  let m ← s.mesh.quadEdge s.edges h.2.2 (usub s.points 1) 0
  let v ← t.entry .vert2 c i
  let h' ← vget s.halves prev
  let x ← t.extremes edge
  let y ← t.extremes prev
  let m ← m.putPolygon s.cells [v, h.2.2, usub s.points 1, h'.2.2]
    [if x.1 = v then h.1 else h.2.1, usub (s.edges + 1) 1, if i = 0 then s.edges + 1 + 1 else usub (s.edges + 1) 2,
      if y.2 = v then h'.2.1 else h'.1] 0
  ok ⟨m, s.points, s.edges + 1, s.cells + 1, s.halves⟩

/-- One round of the loop over the triangles (`GeDiM/src/Mesh/MeshUtilities_MeshGenerators.cpp:2256-2309`). -/
def quadCell (t : Mesh K) (s : QuadState K) (c : Nat) : Res (QuadState K) := do
  let ps ← t.cellPoints c
  let b ← polygonBarycenter ps
  let m ← s.mesh.putPoint s.points b 0
  foldRes (quadCorner t c) { s with mesh := m, points := s.points + 1 } (List.range 3)

/-- `CreateQuadrilateralMeshFromTriangularMesh` (`GeDiM/src/Mesh/MeshUtilities_MeshGenerators.cpp:2198-2310`). -/
def createQuadrilateralMesh (t m : Mesh K) : Res (Mesh K) := do
  let m : Mesh K := { m with dimension := 2 }
  let m := m.init .d0 (t.num .d0 + t.num .d1 + t.num .d2)
  let m := m.init .d1 (2 * t.num .d1 + 3 * t.num .d2)
  let m := m.init .d2 (3 * t.num .d2)
  let m := (m.initRowsConst .vert2 4).initRowsConst .edge2 4
  let s ← foldRes (quadCopy t) (m, 0) (List.range (t.num .d0))
  let s ← foldRes (quadSplitEdge t) ⟨s.1, s.2, 0, 0, List.replicate (t.num .d1) (0, 0, 0)⟩ (List.range (t.num .d1))
  let s ← foldRes (quadCell t) s (List.range (t.num .d2))
  ok s.mesh

end Mesh
end Verif
