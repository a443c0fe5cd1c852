import Verif.MarkModel
import Verif.MetisModel

/-
`MeshUtilities::SetMeshMarkersOnPlane` and `SetMeshMarkersByFaceNormal`
(`GeDiM/src/Mesh/MeshUtilities3D.cpp:649-742`). `double` is an arbitrary ordered field.
-/
namespace Verif

open Res

variable {K : Type} [Field K] [LinearOrder K] [IsStrictOrderedRing K]

/-- `IsPointOnPlane` (`GeDiM/src/Geometry/GeometryUtilities.hpp:1156-1159`). -/
def GeoCfg.isPointOnPlane (g : GeoCfg K) (sqrt : K → K) (point normal origin : V3 K) : Bool :=
  g.pointPlane sqrt point normal origin = 0

namespace Mesh

/-- The loop over the vertices of a face, up to the first one that is not on the plane
(`GeDiM/src/Mesh/MeshUtilities3D.cpp:683-690`). -/
def allOn (on : List Bool) : List Nat → Res Bool
  | [] => ok true
  | v :: vs => do
      let b ← vget on v
      if b then allOn on vs else ok false

/-- One round of the loop over the faces (`GeDiM/src/Mesh/MeshUtilities3D.cpp:678-696`). -/
def markFace (on : List Bool) (marker : Nat) (m : Mesh K) (p : Nat) : Res (Mesh K) := do
  let vs ← m.row .vert2 p
  let b ← allOn on vs
  if b then m.setMark .d2 p marker else ok m

/-- One round of the loop that counts the polyhedra of a face (`GeDiM/src/Mesh/MeshUtilities3D.cpp:711-717`). -/
def countCell (m : Mesh K) (f c n : Nat) : Res Nat := do
  let has ← m.hasEntry .nb23 f n
  ok (if has then c + 1 else c)

/-- One round of the loops over the vertices and over the edges of a face
(`GeDiM/src/Mesh/MeshUtilities3D.cpp:729-732`, `:734-737`). -/
def markPart (l : Lst) (d : Dim) (marker f : Nat) (m : Mesh K) (k : Nat) : Res (Mesh K) := do
  let i ← m.entry l f k
  m.setMark d i marker

/-- The marker for a face, its vertices and its edges (`GeDiM/src/Mesh/MeshUtilities3D.cpp:729-739`). -/
def markWholeFace (marker : Nat) (m : Mesh K) (f : Nat) : Res (Mesh K) := do
  let nv ← m.rowSize .vert2 f
  let m ← foldRes (markPart .vert2 .d0 marker f) m (List.range nv)
  let ne ← m.rowSize .edge2 f
  let m ← foldRes (markPart .edge2 .d1 marker f) m (List.range ne)
  m.setMark .d2 f marker

end Mesh

/-- `SetMeshMarkersOnPlane` (`GeDiM/src/Mesh/MeshUtilities3D.cpp:649-697`). The loops over the vertices and over the edges
(`:656-674`) are those of `SetMeshMarkersOnLine` with another test. -/
def GeoCfg.setMarkersOnPlane (g : GeoCfg K) (sqrt : K → K) (normal origin : V3 K) (marker : Nat) (m : Mesh K) :
    Res (Mesh K) := do
  let s ← foldRes (Mesh.markVertex (fun p => ok (g.isPointOnPlane sqrt p normal origin)) marker)
    (m, List.replicate (m.num .d0) false) (List.range (m.num .d0))
  let m ← foldRes (Mesh.markEdge s.2 marker) s.1 (List.range (s.1.num .d1))
  foldRes (Mesh.markFace s.2 marker) m (List.range (m.num .d2))

/-- One round of the loop over the faces (`GeDiM/src/Mesh/MeshUtilities3D.cpp:707-740`). -/
def GeoCfg.markFaceByNormal (g : GeoCfg K) (sqrt : K → K) (normal : V3 K) (normals : List (V3 K)) (marker : Nat) (m : Mesh K)
    (f : Nat) : Res (Mesh K) := do
  let k ← m.rowSize .nb23 f
  let c ← foldRes (m.countCell f) 0 (List.range k)
  if c ≠ 1 then ok m
  else do
    let n ← vat normals f
    if g.areValuesEqual (normal.norm sqrt * n.norm sqrt) |n.dot normal| g.tol1DSquared = false then ok m
    else m.markWholeFace marker f

/-- `SetMeshMarkersByFaceNormal` (`GeDiM/src/Mesh/MeshUtilities3D.cpp:699-741`). -/
def GeoCfg.setMarkersByNormal (g : GeoCfg K) (sqrt : K → K) (normal : V3 K) (normals : List (V3 K)) (marker : Nat)
    (m : Mesh K) : Res (Mesh K) :=
  foldRes (g.markFaceByNormal sqrt normal normals marker) m (List.range (m.num .d2))

end Verif
