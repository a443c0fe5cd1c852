import Verif.EdgeModel
import Verif.FillModel
import Verif.BisectModel

/-
Meshes of polygons in files of the format OFF: `ObjectFileFormatInterface`
(`GeDiM/src/Mesh/ObjectFileFormatInterface.cpp:28-173`).

A line is the list of its words, with numbers already converted: reading a number that was printed gives the number (coordinates are
printed with 17 digits). A line with too few words leaves variables without a value; this is `ub`, except for the number of vertices
of a face, which is 0 before the line is read. A word of another kind is `ub` as well, although the first number that cannot be read is
set to 0 by the stream.
The sums of `unsigned int` in the assertions are taken as exact, and so is the conversion of the indices to `int`.
-/
namespace Verif

open Res

/-- A word of a line. -/
inductive OffWord (K : Type) where
  | word (s : String)
  | nat (n : Nat)
  | num (x : K)
  deriving DecidableEq

/-- `OFFMesh` (`GeDiM/src/Mesh/ObjectFileFormatInterface.hpp:23-31`); the matrices are lists of columns. -/
structure OffMesh (K : Type) where
  num0 : Nat
  num1 : Nat
  num2 : Nat
  points : List (V3 K)
  faces : List (List Nat)

variable {K : Type}

/-- `converter >> n` for an `unsigned int`: the number and the rest of the line. -/
def offNat : List (OffWord K) → Res (Nat × List (OffWord K))
  | .nat n :: l => ok (n, l)
  | _ => ub

/-- `converter >> numFaceVertices` (`GeDiM/src/Mesh/ObjectFileFormatInterface.cpp:60-61`): 0 on a line without words. -/
def offCount : List (OffWord K) → Res (Nat × List (OffWord K))
  | .nat n :: l => ok (n, l)
  | [] => ok (0, [])
  | _ => ub

/-- `converter >> x` for a `double`. -/
def offNum : List (OffWord K) → Res (K × List (OffWord K))
  | .num x :: l => ok (x, l)
  | _ => ub

/-- The loop over the vertices of a face (`GeDiM/src/Mesh/ObjectFileFormatInterface.cpp:64-66`). -/
def offNats : Nat → List (OffWord K) → Res (List Nat)
  | 0, _ => ok []
  | n + 1, l => do
      let r ← offNat l
      let rs ← offNats n r.2
      ok (r.1 :: rs)

/-- A line with the coordinates of a vertex (`GeDiM/src/Mesh/ObjectFileFormatInterface.cpp:47-49`). -/
def offPointOf (l : List (OffWord K)) : Res (V3 K) := do
  let x ← offNum l
  let y ← offNum x.2
  let z ← offNum y.2
  ok ⟨x.1, y.1, z.1⟩

/-- A line with the vertices of a face (`GeDiM/src/Mesh/ObjectFileFormatInterface.cpp:58-66`). -/
def offFaceOf (l : List (OffWord K)) : Res (List Nat) := do
  let n ← offCount l
  offNats n.1 n.2

/-- `StringsToOFFMesh` (`GeDiM/src/Mesh/ObjectFileFormatInterface.cpp:28-71`). -/
def textToOff (lines : List (List (OffWord K))) : Res (OffMesh K) := do
  assert (1 ≤ lines.length)
  let l ← vget lines 1
  let n0 ← offNat l
  let n2 ← offNat n0.2
  let n1 ← offNat n2.2
  assert (2 + n0.1 ≤ lines.length)
  let points ← mapRes (fun v => do
    let l ← vget lines (2 + v)
    offPointOf l) (List.range n0.1)
  assert (2 + n0.1 + n2.1 ≤ lines.length)
  let faces ← mapRes (fun f => do
    let l ← vget lines (2 + n0.1 + f)
    offFaceOf l) (List.range n2.1)
  ok ⟨n0.1, n1.1, n2.1, points, faces⟩

/-- `OFFMeshToStrings` (`GeDiM/src/Mesh/ObjectFileFormatInterface.cpp:72-103`). -/
def offToText (o : OffMesh K) : Res (List (List (OffWord K))) := do
  let points ← mapRes (fun v => do
    let p ← vget o.points v
    ok [OffWord.num p.x, .num p.y, .num p.z]) (List.range o.num0)
  let faces ← mapRes (fun f => do
    let l ← vget o.faces f
    ok (OffWord.nat l.length :: l.map OffWord.nat)) (List.range o.num2)
  ok ([.word "OFF"] :: [.nat o.num0, .nat o.num2, .nat o.num1] :: points ++ faces)

/-- `MeshDAOToOFFMesh` (`GeDiM/src/Mesh/ObjectFileFormatInterface.cpp:104-125`); `MeshDAOToOBJMesh` is the same
(`GeDiM/src/Mesh/WavefrontOBJInterface.cpp:129-150`). -/
def Mesh.toOff (m : Mesh K) : Res (OffMesh K) := do
  let points ← mapRes m.point (List.range (m.num .d0))
  let faces ← mapRes (m.row .vert2) (List.range (m.num .d2))
  ok ⟨m.num .d0, m.num .d1, m.num .d2, points, faces⟩

/-- `OFFMeshToMeshDAO` (`GeDiM/src/Mesh/ObjectFileFormatInterface.cpp:126-173`); `OBJMeshToMeshDAO` is the same
(`GeDiM/src/Mesh/WavefrontOBJInterface.cpp:151-198`). The columns of the polygons are taken out of the
result before the polygons are made; `Cell2Ds[f]` with `f` out of range is `ub` in both orders. -/
def Mesh.ofOff [Zero K] (m : Mesh K) (o : OffMesh K) : Res (Mesh K) := do
  let m : Mesh K := { m with dimension := 2 }
  let m := m.init .d0 o.num0
  let m ← m.insertCoords o.points
  let m ← m.activateAll .d0 o.num0
  let r ← computeMesh2DCell1Ds o.points.length o.faces
  let m ← m.fillEdges r.cell1Ds
  let fs ← mapRes (vget r.cell2Ds) (List.range o.num2)
  m.fillPolygons fs

end Verif
