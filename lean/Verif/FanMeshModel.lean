import Verif.FanModel

/-
`AgglomerateMeshFromTriangularMesh` (`GeDiM/src/Mesh/MeshUtilities2D.cpp:1468-1525`).
-/
namespace Verif

open Res

/-- The mesh and `AgglomerateMeshFromTriangularMeshResult` (`GeDiM/src/Mesh/MeshUtilities.hpp:266-277`): the new polygons
with their triangles, the removed edges and the removed polygons. -/
structure FanMesh (α : Type) where
  mesh : Mesh α
  cells : List (Nat × List Nat)
  edges : List Nat
  polygons : List Nat

namespace Mesh

variable {α : Type}

/-- The loop over the triangles (`GeDiM/src/Mesh/MeshUtilities2D.cpp:1496-1504`). -/
def takeTriangles (m : Mesh α) (new : Nat) (ts : List Nat) : Res (Mesh α) :=
  foldRes (fun (m : Mesh α) c => do
    let b ← m.active .d2 c
    assert b
    let m ← m.setAct .d2 c false
    m.insertUpd .d2 c new) m ts

/-- The loop over the removed edges (`GeDiM/src/Mesh/MeshUtilities2D.cpp:1506-1513`). -/
def takeEdges (m : Mesh α) (es : List Nat) : Res (Mesh α) :=
  foldRes (fun (m : Mesh α) c => do
    let b ← m.active .d1 c
    assert b
    m.setAct .d1 c false) m es

/-- One round of the loop over the groups of triangles (`GeDiM/src/Mesh/MeshUtilities2D.cpp:1479-1514`). -/
def fanMeshRound [Zero α] (s : FanMesh α) (ts : List Nat) : Res (FanMesh α) := do
  let P ← s.mesh.agglomerateTriangles ts
  let r ← s.mesh.append .d2 1
  let m ← r.1.addRow .vert2 r.2 P.vertices
  let m ← m.addRow .edge2 r.2 P.edges
  let m ← m.setMark .d2 r.2 0
  let m ← m.setAct .d2 r.2 true
  let m ← m.takeTriangles r.2 ts
  let m ← m.takeEdges P.removed
  ok ⟨m, s.cells ++ [(r.2, ts)], s.edges ++ P.removed, s.polygons ++ ts⟩

/-- `AgglomerateMeshFromTriangularMesh` (`GeDiM/src/Mesh/MeshUtilities2D.cpp:1468-1525`). -/
def agglomerateFans [Zero α] (m : Mesh α) (groups : List (List Nat)) : Res (FanMesh α) := do
  let s ← foldRes fanMeshRound ⟨m, [], [], []⟩ groups
  ok ⟨s.mesh, s.cells, sortNat s.edges, sortNat s.polygons⟩

end Mesh
end Verif
