import Verif.FillModel
import Verif.MetisModel
import Verif.StringModel

/-
`MeshUtilities::FilterMesh1D/2D/3D` and `ExtractMesh1D/2D/3D`
(`GeDiM/src/Mesh/MeshUtilities1D.cpp:53-131`, `GeDiM/src/Mesh/MeshUtilities2D.cpp:76-192`,
`GeDiM/src/Mesh/MeshUtilities3D.cpp:2840-3003`).
-/
namespace Verif

open Res

/-- `MeshUtilities::FilterMeshData` (`GeDiM/src/Mesh/MeshUtilities.hpp`): cells of every dimension. Also
used for the two directions of `ExtractMeshData`. -/
structure CellLists where
  c0 : List Nat
  c1 : List Nat
  c2 : List Nat
  c3 : List Nat

/-- The cells of one dimension. -/
def CellLists.cells (f : CellLists) : Dim → List Nat
  | .d0 => f.c0
  | .d1 => f.c1
  | .d2 => f.c2
  | .d3 => f.c3

/-- `MeshUtilities::ExtractMeshData` (`GeDiM/src/Mesh/MeshUtilities.hpp`). -/
structure CellMaps where
  newToOld : CellLists
  oldToNew : CellLists

namespace Mesh

variable {α : Type}

/-- Insert the entries of a list of a cell into a set, as
`GeDiM/src/Mesh/MeshUtilities3D.cpp:2853-2859`. `std::set` is a sorted list without repetitions. -/
def collectRow (m : Mesh α) (l : Lst) (c : Nat) (s : List Nat) : Res (List Nat) := do
  let n ← m.rowSize l c
  foldRes (fun (s : List Nat) v => do
    let x ← m.entry l c v
    ok (sortedInsert x s)) s (List.range n)

/-- `FilterMesh1D` (`GeDiM/src/Mesh/MeshUtilities1D.cpp:53-81`); `Cell1DVertex` reads one of the two
extremes. -/
def filterMesh1D (m : Mesh α) (cells : List Nat) : Res CellLists := do
  let r ← foldRes (fun (s : List Nat × List Nat) c => do
    let a ← m.active .d1 c
    if a = true then
      let e ← m.extremes c
      ok (s.1 ++ [c], sortedInsert e.2 (sortedInsert e.1 s.2))
    else
      ok s) ([], []) cells
  ok ⟨r.2, r.1, [], []⟩

/-- `FilterMesh2D` (`GeDiM/src/Mesh/MeshUtilities2D.cpp:76-110`): the loop runs over the number of
vertices and reads a vertex and an edge in every round. -/
def filterMesh2D (m : Mesh α) (cells : List Nat) : Res CellLists := do
  let r ← foldRes (fun (s : List Nat × List Nat × List Nat) c => do
    let a ← m.active .d2 c
    if a = true then
      let n ← m.rowSize .vert2 c
      let t ← foldRes (fun (t : List Nat × List Nat) v => do
        let x ← m.entry .vert2 c v
        let y ← m.entry .edge2 c v
        ok (sortedInsert x t.1, sortedInsert y t.2)) s.2 (List.range n)
      ok (s.1 ++ [c], t)
    else
      ok s) ([], [], []) cells
  ok ⟨r.2.1, r.2.2, r.1, []⟩

/-- `FilterMesh3D` (`GeDiM/src/Mesh/MeshUtilities3D.cpp:2840-2886`). -/
def filterMesh3D (m : Mesh α) (cells : List Nat) : Res CellLists := do
  foldRes (fun (s : CellLists) c => do
    let a ← m.active .d3 c
    if a = true then
      let s0 ← m.collectRow .vert3 c s.c0
      let s1 ← m.collectRow .edge3 c s.c1
      let s2 ← m.collectRow .face3 c s.c2
      ok ⟨s0, s1, s2, s.c3 ++ [c]⟩
    else
      ok s) ⟨[], [], [], []⟩ cells

/-- The loop over the selected cells of one dimension: both maps and the data of the new cells
(for instance `GeDiM/src/Mesh/MeshUtilities2D.cpp:126-135`). `n` is the number of cells of the original
mesh. -/
def extractLoop {β : Type} (f : List Nat) (n : Nat) (read : Nat → Res β) :
    Res (List Nat × List Nat × List β) :=
  foldRes (fun (s : List Nat × List Nat × List β) v => do
    let old ← vget f v
    let n2o ← vset s.1 v old
    let o2n ← vset s.2.1 old v
    let b ← read old
    ok (n2o, o2n, s.2.2 ++ [b]))
    (List.replicate f.length UINT_MAX, List.replicate n UINT_MAX, []) (List.range f.length)

/-- The coordinates of an original point. -/
def readPoint (m : Mesh α) (old : Nat) : Res (V3 α) := do
  let c ← m.coordinates old
  ok ⟨c.1, c.2.1, c.2.2⟩

/-- The renumbered extremes of an edge (`GeDiM/src/Mesh/MeshUtilities2D.cpp:143-147`). The value of a
point that is not selected, `UINT_MAX`, becomes -1 in the integer matrix and `UINT_MAX` again when the
mesh is filled. -/
def readEdge (m : Mesh α) (o0 : List Nat) (old : Nat) : Res (Nat × Nat) := do
  let e ← m.extremes old
  let a ← vat o0 e.1
  let b ← vat o0 e.2
  ok (a, b)

/-- The renumbered vertices and edges of a polygon (`GeDiM/src/Mesh/MeshUtilities2D.cpp:157-168`). -/
def readPolygon (m : Mesh α) (o0 o1 : List Nat) (old : Nat) : Res (List (Nat × Nat)) := do
  let vs ← m.row .vert2 old
  let es ← m.row .edge2 old
  assert (vs.length = es.length)
  mapRes (fun p => do
    let a ← vat o0 p.1
    let b ← vat o1 p.2
    ok (a, b)) (vs.zip es)

/-- The renumbered vertices, edges and faces of a polyhedron
(`GeDiM/src/Mesh/MeshUtilities3D.cpp:2953-2967`). -/
def readPolyhedron (m : Mesh α) (o0 o1 o2 : List Nat) (old : Nat) : Res Polyhedron := do
  let vs ← m.row .vert3 old
  let es ← m.row .edge3 old
  let fs ← m.row .face3 old
  let vs ← mapRes (vat o0) vs
  let es ← mapRes (vat o1) es
  let fs ← mapRes (vat o2) fs
  ok ⟨vs, es, fs⟩

/-- Copy markers and states (for instance `GeDiM/src/Mesh/MeshUtilities2D.cpp:173-178`). -/
def copyMarks (m : Mesh α) (d : Dim) (n2o : List Nat) (m' : Mesh α) : Res (Mesh α) :=
  foldRes (fun (s : Mesh α) v => do
    let old ← vget n2o v
    let k ← m.marker d old
    let s ← s.setMark d v k
    let a ← m.active d old
    s.setAct d v a) m' (List.range n2o.length)

/-- `ExtractMesh1D` (`GeDiM/src/Mesh/MeshUtilities1D.cpp:83-131`). -/
def extractMesh1D [Zero α] (f0 f1 : List Nat) (m m' : Mesh α) : Res (CellMaps × Mesh α) := do
  let r0 ← extractLoop f0 (m.num .d0) m.readPoint
  let r1 ← extractLoop f1 (m.num .d1) (m.readEdge r0.2.1)
  let m' : Mesh α := { m' with dimension := 1 }
  let m' ← m'.fillPoints r0.2.2
  let m' ← m'.fillEdges r1.2.2
  ok (⟨⟨r0.1, r1.1, [], []⟩, ⟨r0.2.1, r1.2.1, [], []⟩⟩, m')

/-- `ExtractMesh2D` (`GeDiM/src/Mesh/MeshUtilities2D.cpp:112-192`). -/
def extractMesh2D [Zero α] (f0 f1 f2 : List Nat) (m m' : Mesh α) : Res (CellMaps × Mesh α) := do
  let r0 ← extractLoop f0 (m.num .d0) m.readPoint
  let r1 ← extractLoop f1 (m.num .d1) (m.readEdge r0.2.1)
  let r2 ← extractLoop f2 (m.num .d2) (m.readPolygon r0.2.1 r1.2.1)
  let m' ← fillMesh2D r0.2.2 r1.2.2 r2.2.2 m'
  let m' ← m.copyMarks .d0 r0.1 m'
  let m' ← m.copyMarks .d1 r1.1 m'
  let m' ← m.copyMarks .d2 r2.1 m'
  ok (⟨⟨r0.1, r1.1, r2.1, []⟩, ⟨r0.2.1, r1.2.1, r2.2.1, []⟩⟩, m')

/-- `ExtractMesh3D` (`GeDiM/src/Mesh/MeshUtilities3D.cpp:2888-3003`). -/
def extractMesh3D [Zero α] (f0 f1 f2 f3 : List Nat) (m m' : Mesh α) :
    Res (CellMaps × Mesh α) := do
  let r0 ← extractLoop f0 (m.num .d0) m.readPoint
  let r1 ← extractLoop f1 (m.num .d1) (m.readEdge r0.2.1)
  let r2 ← extractLoop f2 (m.num .d2) (m.readPolygon r0.2.1 r1.2.1)
  let r3 ← extractLoop f3 (m.num .d3) (m.readPolyhedron r0.2.1 r1.2.1 r2.2.1)
  let m' ← fillMesh3D r0.2.2 r1.2.2 r2.2.2 r3.2.2 m'
  let m' ← m.copyMarks .d0 r0.1 m'
  let m' ← m.copyMarks .d1 r1.1 m'
  let m' ← m.copyMarks .d2 r2.1 m'
  let m' ← m.copyMarks .d3 r3.1 m'
  ok (⟨⟨r0.1, r1.1, r2.1, r3.1⟩, ⟨r0.2.1, r1.2.1, r2.2.1, r3.2.1⟩⟩, m')

end Mesh
end Verif
