import Verif.SplitModel

/-
`MeshUtilities::SplitCell3D` (`GeDiM/src/Mesh/MeshUtilities3D.cpp:2481-2555`). Sizes that the code reads
again in every round of a loop do not change during the loop; the model reads them once.
-/
namespace Verif

open Res

/-- The lists of the vertices, edges and faces of one sub-cell: entry `c` of the three arguments
`subCell3DsVertices`, `subCell3DsEdges` and `subCell3DsFaces`
(`GeDiM/src/Mesh/MeshUtilities3D.cpp:2482-2484`). -/
structure SubCell3 where
  vertices : List Nat
  edges : List Nat
  faces : List Nat
deriving DecidableEq

namespace Mesh

variable {α : Type}

/-- One round of the loop over the sub-cells (`GeDiM/src/Mesh/MeshUtilities3D.cpp:2498-2551`). The three
loops over neighbours (`:2510-2522`, `:2524-2536`, `:2538-2550`) have the form of those of
`SplitCell2D`. -/
def splitOne3 (m : Mesh α) (c new : Nat) (sub : SubCell3) : Res (Mesh α) := do
  let m ← m.addRow .vert3 new sub.vertices
  let m ← m.addRow .edge3 new sub.edges
  let m ← m.addRow .face3 new sub.faces
  let k ← m.marker .d3 c
  let m ← m.setMark .d3 new k
  let m ← m.setAct .d3 new true
  let m ← m.insertUpd .d3 c new
  let m ← m.replaceAround .nb03 .vert3 c new
  let m ← m.replaceAround .nb13 .edge3 c new
  m.replaceAround .nb23 .face3 c new

/-- The loop over the sub-cells; `new` is the index of the next one
(`GeDiM/src/Mesh/MeshUtilities3D.cpp:2496-2552`). -/
def splitFrom3 (m : Mesh α) (c : Nat) : Nat → List SubCell3 → Res (Mesh α)
  | _, [] => ok m
  | new, s :: ss => do
      let m ← m.splitOne3 c new s
      splitFrom3 m c (new + 1) ss

/-- `SplitCell3D` (`GeDiM/src/Mesh/MeshUtilities3D.cpp:2481-2555`): the mesh and the indices of the new
cells. -/
def splitCell3D [Zero α] (m : Mesh α) (c : Nat) (vertices edges faces : List (List Nat)) :
    Res (Mesh α × List Nat) := do
  assert (vertices.length = edges.length ∧ vertices.length = faces.length)
  let (m, first) ← m.append .d3 vertices.length
  let m ← m.setAct .d3 c false
  let m ← m.splitFrom3 c first
    (List.zipWith (fun v (p : List Nat × List Nat) => ⟨v, p.1, p.2⟩) vertices (edges.zip faces))
  ok (m, (List.range vertices.length).map (first + ·))

end Mesh
end Verif
