import Verif.MetisModel

/-!
# The edges and faces of a mesh of tetrahedra

`InsertNewEdge`, `InsertNewFace` and `ComputeVtkMesh3D` (`GeDiM/src/Mesh/VtkMeshInterface.cpp:38-183`). A `std::map` is
the list of its pairs in the order of their insertion: the loops at the end of `ComputeVtkMesh3D` go through the maps in
the order of the keys, but write to places that do not depend on the order, apart from the marks of the vertices and the
edges, which all get the same value. The coordinates are left out, they are copied.
-/

namespace Verif
open Res

/-- `InsertNewEdge` (`GeDiM/src/Mesh/VtkMeshInterface.cpp:38-52`). -/
def vtkInsertEdge (origin finish : Nat) (edges : List ((Nat × Nat) × Nat)) : Nat × List ((Nat × Nat) × Nat) :=
  let edge := (min origin finish, max origin finish)
  match edges.lookup edge with
  | some i => (i, edges)
  | none => (edges.length, edges ++ [(edge, edges.length)])

/-- `Mesh_Face` (`GeDiM/src/Mesh/VtkMeshInterface.hpp`); the two rows of `Extremes` are `vertices` and `edges`. -/
structure VtkFace where
  vertices : List Nat
  edges : List Nat
  index : Nat
  marker : Nat
  deriving DecidableEq, Repr

/-- Takes the mark of the face with the given key away. -/
def vtkUnmark (key : Nat × Nat) (faces : List ((Nat × Nat) × VtkFace)) : List ((Nat × Nat) × VtkFace) :=
  faces.map fun f => if f.1 = key then (f.1, { f.2 with marker := 0 }) else f

/-- The loop of `InsertNewFace` over the three keys that the face may have
(`GeDiM/src/Mesh/VtkMeshInterface.cpp:58-68`): the index of the face with the first of the keys that is in the map. -/
def vtkFindFace (vertices edges : List Nat) (faces : List ((Nat × Nat) × VtkFace)) :
    List Nat → Res (Option ((Nat × Nat) × Nat))
  | [] => ok none
  | v :: rest => do
      let e ← vat edges v
      let w ← vat vertices ((v + 2) % 3)
      match faces.lookup (e, w) with
      | some f => ok (some ((e, w), f.index))
      | none => vtkFindFace vertices edges faces rest

/-- `InsertNewFace` (`GeDiM/src/Mesh/VtkMeshInterface.cpp:54-77`). -/
def vtkInsertFace (vertices edges : List Nat) (faces : List ((Nat × Nat) × VtkFace)) :
    Res (Nat × List ((Nat × Nat) × VtkFace)) := do
  match ← vtkFindFace vertices edges faces [0, 1, 2] with
  | some (key, i) => ok (i, vtkUnmark key faces)
  | none => do
      let v0 ← vat vertices 0
      let v1 ← vat vertices 1
      let v2 ← vat vertices 2
      let e0 ← vat edges 0
      let e1 ← vat edges 1
      let e2 ← vat edges 2
      ok (faces.length, faces ++ [((e0, v2), ⟨[v0, v1, v2], [e0, e1, e2], faces.length, 1⟩)])

/-- A cell of the result: `Mesh3DPolyhedron`. -/
structure VtkCell where
  vertices : List Nat
  edges : List Nat
  faces : List Nat
  deriving DecidableEq, Repr

/-- The two maps and the cells so far. -/
structure VtkState where
  edges : List ((Nat × Nat) × Nat)
  faces : List ((Nat × Nat) × VtkFace)
  cells : List VtkCell
  deriving DecidableEq, Repr

/-- The body of the loop over the cells (`GeDiM/src/Mesh/VtkMeshInterface.cpp:94-157`). A cell is given by its vertices
and whether it is a tetrahedron. -/
def vtkCell (s : VtkState) (cell : List Nat × Bool) : Res VtkState :=
  if cell.2 = false then throw
  else do
    assert (cell.1.length = 4)
    let v0 ← vat cell.1 0
    let v1 ← vat cell.1 1
    let v2 ← vat cell.1 2
    let v3 ← vat cell.1 3
    let (e0, E) := vtkInsertEdge v0 v1 s.edges
    let (e1, E) := vtkInsertEdge v1 v2 E
    let (e2, E) := vtkInsertEdge v2 v0 E
    let (e3, E) := vtkInsertEdge v0 v3 E
    let (e4, E) := vtkInsertEdge v1 v3 E
    let (e5, E) := vtkInsertEdge v2 v3 E
    let (f0, F) ← vtkInsertFace [v0, v1, v2] [e0, e1, e2] s.faces
    let (f1, F) ← vtkInsertFace [v0, v1, v3] [e0, e4, e3] F
    let (f2, F) ← vtkInsertFace [v1, v2, v3] [e1, e5, e4] F
    let (f3, F) ← vtkInsertFace [v2, v3, v0] [e5, e3, e2] F
    ok ⟨E, F, s.cells ++ [⟨cell.1, [e0, e1, e2, e3, e4, e5], [f0, f1, f2, f3]⟩]⟩

/-- `VtkMesh3D`, without the coordinates. -/
structure VtkMesh3D where
  cell1Ds : List (Nat × Nat)
  cell2Ds : List (List Nat × List Nat)
  cell3Ds : List VtkCell
  markers0 : List Nat
  markers1 : List Nat
  markers2 : List Nat
  markers3 : List Nat
  deriving DecidableEq, Repr

/-- The marks of the vertices and edges of a face (`GeDiM/src/Mesh/VtkMeshInterface.cpp:173-180`). -/
def vtkMarkBorder (f : VtkFace) (marks : List Nat × List Nat) : Res (List Nat × List Nat) :=
  if 0 < f.marker then do
    let m0 ← foldRes (fun m v => vset m v f.marker) marks.1 f.vertices
    let m1 ← foldRes (fun m e => vset m e f.marker) marks.2 f.edges
    ok (m0, m1)
  else ok marks

/-- `ComputeVtkMesh3D` (`GeDiM/src/Mesh/VtkMeshInterface.cpp:79-183`) with `num` vertices. -/
def computeVtkMesh3D (num : Nat) (cells : List (List Nat × Bool)) : Res VtkMesh3D := do
  let s ← foldRes vtkCell ⟨[], [], []⟩ cells
  let cell1Ds ← foldRes (fun l (e : (Nat × Nat) × Nat) => vset l e.2 e.1) (List.replicate s.edges.length (0, 0)) s.edges
  let r ← foldRes (fun (r : List (List Nat × List Nat) × List Nat × List Nat × List Nat) (f : (Nat × Nat) × VtkFace) => do
      let cell2Ds ← vset r.1 f.2.index (f.2.vertices, f.2.edges)
      let m2 ← vset r.2.1 f.2.index f.2.marker
      let m ← vtkMarkBorder f.2 r.2.2
      ok (cell2Ds, m2, m))
    (List.replicate s.faces.length ([], []), List.replicate s.faces.length 0, List.replicate num 0,
      List.replicate s.edges.length 0) s.faces
  ok ⟨cell1Ds, r.1, s.cells, r.2.2.1, r.2.2.2, r.2.1, List.replicate cells.length 0⟩

end Verif
