import Verif.MeshModel
import Verif.GeomModel

/-
`MeshUtilities::FillMesh1D`, `FillMesh2D` and the two overloads of `FillMesh3D`
(`GeDiM/src/Mesh/MeshUtilities1D.cpp:22-51`, `GeDiM/src/Mesh/MeshUtilities2D.cpp:23-74`,
`GeDiM/src/Mesh/MeshUtilities3D.cpp:24-220`).

Matrices with three or two rows are lists of columns, so the checks on the number of rows hold by
construction. Entries of integer matrices are given by their value after conversion to `unsigned int`.
-/
namespace Verif

open Res

namespace Mesh

variable {α : Type}

/-- `Cell0DsInsertCoordinates(coordinates)` (`GeDiM/src/Mesh/MeshMatricesDAO.cpp:264-270`). -/
def insertCoords (m : Mesh α) (ps : List (V3 α)) : Res (Mesh α) := do
  assert (ps.length = m.num .d0)
  foldRes (fun (s : Mesh α) c => do
    let p ← vget ps c
    s.insertCoord c p.x p.y p.z) m (List.range (m.num .d0))

/-- `Cell1DsInsertExtremes(cell1DExtremes)` (`GeDiM/src/Mesh/MeshMatricesDAO.cpp:591-608`); the local
list of triplets has no effect. -/
def insertExtremes (m : Mesh α) (es : List (Nat × Nat)) : Res (Mesh α) := do
  assert (es.length = m.num .d1)
  foldRes (fun (s : Mesh α) c => do
    let e ← vget es c
    assert (e.1 < s.num .d0)
    assert (e.2 < s.num .d0)
    let x ← vset s.ext (2 * c) e.1
    let x ← vset x (2 * c + 1) e.2
    ok { s with ext := x }) m (List.range (m.num .d1))

/-- `for (c = 0; c < n; c++) mesh.CellXDSetState(c, true)`
(for instance `GeDiM/src/Mesh/MeshUtilities2D.cpp:35-36`). -/
def activateAll (m : Mesh α) (d : Dim) (n : Nat) : Res (Mesh α) :=
  foldRes (fun (s : Mesh α) c => s.setAct d c true) m (List.range n)

/-- The points (`GeDiM/src/Mesh/MeshUtilities2D.cpp:30-36`, `GeDiM/src/Mesh/MeshUtilities3D.cpp:35-41`). -/
def fillPoints [Zero α] (m : Mesh α) (ps : List (V3 α)) : Res (Mesh α) := do
  let m := m.init .d0 ps.length
  let m ← m.insertCoords ps
  m.activateAll .d0 ps.length

/-- The edges (`GeDiM/src/Mesh/MeshUtilities2D.cpp:38-44`, `GeDiM/src/Mesh/MeshUtilities3D.cpp:46-51`). -/
def fillEdges [Zero α] (m : Mesh α) (es : List (Nat × Nat)) : Res (Mesh α) := do
  let m := m.init .d1 es.length
  let m ← m.insertExtremes es
  m.activateAll .d1 es.length

/-- The polygons, given by their columns of a vertex and an edge
(`GeDiM/src/Mesh/MeshUtilities2D.cpp:46-73`, `GeDiM/src/Mesh/MeshUtilities3D.cpp:57-84`). -/
def fillPolygons [Zero α] (m : Mesh α) (fs : List (List (Nat × Nat))) : Res (Mesh α) := do
  let m := m.init .d2 fs.length
  let m ← m.initRows .vert2 (fs.map List.length)
  let m ← m.initRows .edge2 (fs.map List.length)
  foldRes (fun (s : Mesh α) f => do
    let p ← vget fs f
    let s ← s.insertFrom .vert2 f 0 (p.map Prod.fst)
    let s ← s.insertFrom .edge2 f 0 (p.map Prod.snd)
    s.setAct .d2 f true) m (List.range fs.length)

/-- `MeshUtilities::Mesh3DPolyhedron` (`GeDiM/src/Mesh/MeshUtilities.hpp`): the vertices, edges and faces
of a polyhedron. -/
structure Polyhedron where
  verts : List Nat
  edges : List Nat
  faces : List Nat

/-- The polyhedra (`GeDiM/src/Mesh/MeshUtilities3D.cpp:88-119`). -/
def fillPolyhedra [Zero α] (m : Mesh α) (cs : List Polyhedron) : Res (Mesh α) := do
  let m := m.init .d3 cs.length
  let m ← m.initRows .vert3 (cs.map (·.verts.length))
  let m ← m.initRows .edge3 (cs.map (·.edges.length))
  let m ← m.initRows .face3 (cs.map (·.faces.length))
  foldRes (fun (s : Mesh α) c => do
    let p ← vget cs c
    let s ← s.insertFrom .vert3 c 0 p.verts
    let s ← s.insertFrom .edge3 c 0 p.edges
    let s ← s.insertFrom .face3 c 0 p.faces
    s.setAct .d3 c true) m (List.range cs.length)

/-- A part that is skipped when there are no cells of its dimension, as `if (cell0Ds.size() > 0)`
(`GeDiM/src/Mesh/MeshUtilities3D.cpp:33`, `:45`, `:56`, `:87`). -/
def fillWhen (p : Prop) [Decidable p] (r : Res (Mesh α)) (m : Mesh α) : Res (Mesh α) :=
  if p then r else ok m

/-- `FillMesh1D` (`GeDiM/src/Mesh/MeshUtilities1D.cpp:22-51`). -/
def fillMesh1D {K : Type} [Field K] (o t : V3 K) (cs : List K) (m : Mesh K) : Res (Mesh K) := do
  if cs.length = 0 then
    ok m
  else
    let m : Mesh K := { m with dimension := 1 }
    let m := m.init .d0 cs.length
    let m ← foldRes (fun (s : Mesh K) c => do
      let s ← s.setAct .d0 c true
      let x ← vget cs c
      let p := o.add (V3.smul x t)
      s.insertCoord c p.x p.y p.z) m (List.range cs.length)
    let m ← m.setMark .d0 0 1
    let m ← m.setMark .d0 (usub cs.length 1) 2
    let m := m.init .d1 (usub cs.length 1)
    foldRes (fun (s : Mesh K) e => do
      let s ← s.insertExt e e (e + 1)
      let s ← s.setAct .d1 e true
      s.setMark .d1 e 0) m (List.range (usub cs.length 1))

/-- `FillMesh2D` (`GeDiM/src/Mesh/MeshUtilities2D.cpp:23-74`). -/
def fillMesh2D [Zero α] (ps : List (V3 α)) (es : List (Nat × Nat)) (fs : List (List (Nat × Nat)))
    (m : Mesh α) : Res (Mesh α) := do
  let m : Mesh α := { m with dimension := 2 }
  let m ← m.fillPoints ps
  let m ← m.fillEdges es
  m.fillPolygons fs

/-- `FillMesh3D` for matrices (`GeDiM/src/Mesh/MeshUtilities3D.cpp:24-120`). -/
def fillMesh3D [Zero α] (ps : List (V3 α)) (es : List (Nat × Nat)) (fs : List (List (Nat × Nat)))
    (cs : List Polyhedron) (m : Mesh α) : Res (Mesh α) := do
  let m : Mesh α := { m with dimension := 3 }
  let m ← fillWhen (ps.length > 0) (m.fillPoints ps) m
  let m ← fillWhen (es.length > 0) (m.fillEdges es) m
  let m ← fillWhen (fs.length > 0) (m.fillPolygons fs) m
  fillWhen (cs.length > 0) (m.fillPolyhedra cs) m

/-- The edges in the overload of `FillMesh3D` for vectors
(`GeDiM/src/Mesh/MeshUtilities3D.cpp:147-154`). -/
def fillEdgesVec [Zero α] (m : Mesh α) (es : List (Nat × Nat)) : Res (Mesh α) := do
  let m := m.init .d1 es.length
  foldRes (fun (s : Mesh α) e => do
    let x ← vget es e
    let s ← s.insertExt e x.1 x.2
    s.setAct .d1 e true) m (List.range es.length)

/-- The polygons in the overload of `FillMesh3D` for vectors
(`GeDiM/src/Mesh/MeshUtilities3D.cpp:158-184`). The calls of `assert` are taken as active; a build with
`NDEBUG` does not stop there. `Cell2DInsertVertices` and `Cell2DInsertEdges` write one entry after the
other (`GeDiM/src/Mesh/IMeshDAO.hpp:1718-1722`). -/
def fillPolygonsVec [Zero α] (m : Mesh α) (vs es : List (List Nat)) : Res (Mesh α) := do
  assert (vs.length = es.length)
  let m := m.init .d2 vs.length
  assert (vs.map List.length = es.map List.length)
  let m ← m.initRows .vert2 (vs.map List.length)
  let m ← m.initRows .edge2 (vs.map List.length)
  foldRes (fun (s : Mesh α) f => do
    let v ← vget vs f
    let s ← s.insertFrom .vert2 f 0 v
    let e ← vget es f
    let s ← s.insertFrom .edge2 f 0 e
    s.setAct .d2 f true) m (List.range vs.length)

/-- `FillMesh3D` for vectors (`GeDiM/src/Mesh/MeshUtilities3D.cpp:122-220`); the three vectors of
polyhedra are given as one list, so their equal length, which `assert` checks, holds by construction. -/
def fillMesh3DVec [Zero α] (ps : List (V3 α)) (es : List (Nat × Nat)) (vs fs : List (List Nat))
    (cs : List Polyhedron) (m : Mesh α) : Res (Mesh α) := do
  let m : Mesh α := { m with dimension := 3 }
  let m ← fillWhen (ps.length > 0) (m.fillPoints ps) m
  let m ← fillWhen (es.length > 0) (m.fillEdgesVec es) m
  let m ← fillWhen (vs.length > 0 ∧ fs.length > 0) (m.fillPolygonsVec vs fs) m
  fillWhen (cs.length > 0) (m.fillPolyhedra cs) m

end Mesh
end Verif
