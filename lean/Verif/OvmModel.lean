import Verif.FillModel
import Verif.BisectModel
import Verif.OffModel

/-
Meshes of polyhedra in the format OVM: `OpenVolumeMeshInterface` (`GeDiM/src/Mesh/OpenVolumeMeshInterface.cpp:28-354`).

An edge `e` has the half edges `2 e` and `2 e + 1`, a polygon `f` the half faces `2 f` and `2 f + 1`. The products of `unsigned int` and
the conversions to `int` are taken as exact.
-/
namespace Verif

open Res

/-- `OVMMesh` (`GeDiM/src/Mesh/OpenVolumeMeshInterface.hpp:23-41`). The matrices are lists of columns; a polyhedron is given by
`FacesIndex` and `FacesOrientation`. -/
structure OvmMesh (K : Type) where
  num0 : Nat
  num1 : Nat
  num2 : Nat
  num3 : Nat
  points : List (V3 K)
  halfEdges : List (Nat × Nat)
  faces : List (List (Nat × Nat))
  solids : List (List Nat × List Bool)

variable {K : Type}

/-- A column of a polygon (`GeDiM/src/Mesh/OpenVolumeMeshInterface.cpp:205-210`). -/
def Mesh.ovmSide (m : Mesh K) (vs es : List Nat) (v : Nat) : Res (Nat × Nat) := do
  let a ← vget vs v
  let e ← vget es v
  let x ← m.extremes e
  ok (a, if x.1 = a then 2 * e else 2 * e + 1)

/-- A polygon (`GeDiM/src/Mesh/OpenVolumeMeshInterface.cpp:200-211`). -/
def Mesh.ovmFace (m : Mesh K) (f : Nat) : Res (List (Nat × Nat)) := do
  let vs ← m.row .vert2 f
  let es ← m.row .edge2 f
  mapRes (m.ovmSide vs es) (List.range vs.length)

/-- A polyhedron (`GeDiM/src/Mesh/OpenVolumeMeshInterface.cpp:214-225`). -/
def Mesh.ovmBody (m : Mesh K) (orientation : List (List Bool)) (p : Nat) : Res (List Nat × List Bool) := do
  let fs ← m.row .face3 p
  let o ← vget orientation p
  let hs ← mapRes (fun i => do
    let f ← vget fs i
    let b ← vget o i
    ok (if b = true then 2 * f else 2 * f + 1)) (List.range fs.length)
  ok (hs, o)

/-- `MeshDAOToOVMMesh` (`GeDiM/src/Mesh/OpenVolumeMeshInterface.cpp:176-228`). -/
def Mesh.toOvm (m : Mesh K) (orientation : List (List Bool)) : Res (OvmMesh K) := do
  let points ← mapRes m.point (List.range (m.num .d0))
  let edges ← mapRes m.extremes (List.range (m.num .d1))
  let faces ← mapRes m.ovmFace (List.range (m.num .d2))
  let solids ← mapRes (m.ovmBody orientation) (List.range (m.num .d3))
  ok ⟨m.num .d0, m.num .d1, m.num .d2, m.num .d3, points, edges.flatMap fun e => [(e.1, e.2), (e.2, e.1)], faces, solids⟩

/-- `edgeIndex` (`GeDiM/src/Mesh/OpenVolumeMeshInterface.cpp:274-275`). -/
def ovmEdgeOf (h : Nat) : Nat := if h % 2 = 0 then h / 2 else (h - 1) / 2

/-- `faceIndex` (`GeDiM/src/Mesh/OpenVolumeMeshInterface.cpp:303-304`, `:341-342`). -/
def ovmFaceOf (h : Nat) (b : Bool) : Nat := if b = true then h / 2 else usub h 1 / 2

/-- The vertices and edges of a face are put into the sets of the polyhedron (`GeDiM/src/Mesh/OpenVolumeMeshInterface.cpp:305-315`). -/
def Mesh.ovmCollect (m : Mesh K) (s : List Nat × List Nat) (f : Nat) : Res (List Nat × List Nat) := do
  let n ← m.rowSize .vert2 f
  foldRes (fun (s : List Nat × List Nat) k => do
    let v ← m.entry .vert2 f k
    let e ← m.entry .edge2 f k
    ok (setInsert s.1 v, setInsert s.2 e)) s (List.range n)

/-- A polyhedron (`GeDiM/src/Mesh/OpenVolumeMeshInterface.cpp:291-321`, `:331-350`). The order in which an `unordered_set` is gone
through is `order`. -/
def Mesh.ovmSolid (order : List Nat → List Nat) (m : Mesh K) (s : List Nat × List Bool) : Res Mesh.Polyhedron := do
  let fs ← mapRes (fun i => do
    let h ← vget s.1 i
    let b ← vget s.2 i
    ok (ovmFaceOf h b)) (List.range s.1.length)
  let r ← foldRes m.ovmCollect ([], []) fs
  ok ⟨order r.1, order r.2, fs⟩

/-- `OVMMeshToMeshDAO` (`GeDiM/src/Mesh/OpenVolumeMeshInterface.cpp:229-354`): the mesh and the orientations of the faces. The columns
are taken out of the OVM mesh before the cells of each dimension are made. -/
def Mesh.ofOvm [Zero K] (order : List Nat → List Nat) (m : Mesh K) (o : OvmMesh K) : Res (Mesh K × List (List Bool)) := do
  let m : Mesh K := { m with dimension := 3 }
  let m := m.init .d0 o.num0
  let m ← m.insertCoords o.points
  let m ← m.activateAll .d0 o.num0
  let es ← mapRes (fun e => vget o.halfEdges (2 * e)) (List.range o.num1)
  let m ← m.fillEdgesVec es
  let fs ← mapRes (fun f => do
    let c ← vget o.faces f
    ok (c.map fun x => (x.1, ovmEdgeOf x.2))) (List.range o.num2)
  let m ← m.fillPolygons fs
  let cs ← mapRes (fun c => do
    let s ← vget o.solids c
    let p ← m.ovmSolid order s
    ok (p, s.2)) (List.range o.num3)
  let m ← m.fillPolyhedra (cs.map Prod.fst)
  ok (m, cs.map Prod.snd)

end Verif
