import Verif.FromPolyhedronModel

/-
`MeshUtilities::MeshCell3DToVTPPolyhedron` (`GeDiM/src/Mesh/MeshUtilities3D.cpp:2452-2479`).
-/
namespace Verif

open Res

/-- `MeshUtilities::VTPPolyhedron` (`GeDiM/src/Mesh/MeshUtilities.hpp`): the vertices, and the vertices of each face by local indices. -/
structure VtpPolyhedron (K : Type) where
  vertices : List (V3 K)
  faces : List (List Nat)

namespace Mesh

variable {K : Type}

/-- A face (`GeDiM/src/Mesh/MeshUtilities3D.cpp:2466-2475`). -/
def vtpFace (m : Mesh K) (V : NatMap) (f : Nat) : Res (List Nat) := do
  let n ← m.rowSize .vert2 f
  mapRes (fun j => do
    let v ← m.entry .vert2 f j
    localAt V v) (List.range n)

/-- `MeshCell3DToVTPPolyhedron` (`GeDiM/src/Mesh/MeshUtilities3D.cpp:2452-2479`). The lists of the polyhedron are read at once. -/
def cellToVtp (m : Mesh K) (c : Nat) : Res (VtpPolyhedron K) := do
  let vs ← m.row .vert3 c
  let ps ← mapRes m.point vs
  let fs ← m.row .face3 c
  let faces ← mapRes (m.vtpFace (localMap vs 0 [])) fs
  ok ⟨ps, faces⟩

end Mesh
end Verif
