import Verif.MeshModel

/-
`MeshUtilities::SplitCell2D` (`GeDiM/src/Mesh/MeshUtilities2D.cpp:1249-1316`). A sub-cell is the list
of the columns (vertex, edge) of its matrix. Sizes that the code reads again in every round of a loop
do not change during the loop; the model reads them once.
-/
namespace Verif

open Res

namespace Mesh

variable {α : Type}

/-- The loop over the neighbours of one vertex or edge
(`GeDiM/src/Mesh/MeshUtilities2D.cpp:1276-1283`, `:1290-1297`): entries `c` become `new`. -/
def replaceNeighbours (m : Mesh α) (l : Lst) (x c new : Nat) : Res (Mesh α) := do
  let n ← m.rowSize l x
  foldRes (fun (m : Mesh α) k => do
    let has ← m.hasEntry l x k
    if has then do
      let y ← m.entry l x k
      if y = c then m.insertEntry l x k new else ok m
    else ok m) m (List.range n)

/-- The loop over the vertices or edges (list `b`) of the new cell
(`GeDiM/src/Mesh/MeshUtilities2D.cpp:1272-1284`, `:1286-1298`). -/
def replaceAround (m : Mesh α) (l b : Lst) (c new : Nat) : Res (Mesh α) := do
  let n ← m.rowSize b new
  foldRes (fun (m : Mesh α) v => do
    let x ← m.entry b new v
    m.replaceNeighbours l x c new) m (List.range n)

/-- The polyhedra of the split cell become neighbours of the new cell
(`GeDiM/src/Mesh/MeshUtilities2D.cpp:1300-1312`). -/
def inheritCell3Ds (m : Mesh α) (c new : Nat) : Res (Mesh α) := do
  let n ← m.rowSize .nb23 c
  if n = 0 then ok m
  else do
    let m ← m.resizeRowOf .nb23 new n
    foldRes (fun (m : Mesh α) k => do
      let has ← m.hasEntry .nb23 c k
      if has then do
        let y ← m.entry .nb23 c k
        m.insertEntry .nb23 new k y
      else ok m) m (List.range n)

/-- One round of the loop over the sub-cells (`GeDiM/src/Mesh/MeshUtilities2D.cpp:1260-1313`). -/
def splitOne (m : Mesh α) (c new : Nat) (sub : List (Nat × Nat)) : Res (Mesh α) := do
  let m ← m.addVerticesAndEdges new sub
  let k ← m.marker .d2 c
  let m ← m.setMark .d2 new k
  let m ← m.setAct .d2 new true
  let m ← m.insertUpd .d2 c new
  let m ← m.replaceAround .nb02 .vert2 c new
  let m ← m.replaceAround .nb12 .edge2 c new
  m.inheritCell3Ds c new

/-- The loop over the sub-cells; `new` is the index of the next one. -/
def splitFrom (m : Mesh α) (c : Nat) : Nat → List (List (Nat × Nat)) → Res (Mesh α)
  | _, [] => ok m
  | new, s :: ss => do
      let m ← m.splitOne c new s
      splitFrom m c (new + 1) ss

/-- `SplitCell2D` (`GeDiM/src/Mesh/MeshUtilities2D.cpp:1249-1316`): the mesh and the indices of the
new cells. -/
def splitCell2D [Zero α] (m : Mesh α) (c : Nat) (subs : List (List (Nat × Nat))) :
    Res (Mesh α × List Nat) := do
  let (m, first) ← m.append .d2 subs.length
  let m ← m.setAct .d2 c false
  let m ← m.splitFrom c first subs
  ok (m, (List.range subs.length).map (first + ·))

end Mesh
end Verif
