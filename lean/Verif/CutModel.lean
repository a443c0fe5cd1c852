import Verif.SplitModel

/-
`MeshUtilities::SplitCell1D` (`GeDiM/src/Mesh/MeshUtilities1D.cpp:220-291`). A sub-edge is a column of
the matrix: the pair of its vertices. Sizes that the code reads again in every round of a loop do not
change during the loop; the model reads them once.
-/
namespace Verif

open Res

namespace Mesh

variable {α : Type}

/-- The neighbours of the split edge become neighbours of the new edge
(`GeDiM/src/Mesh/MeshUtilities1D.cpp:260-273`, `:275-287`). -/
def inheritNeighbours (m : Mesh α) (l : Lst) (c new : Nat) : Res (Mesh α) := do
  let n ← m.rowSize l c
  if n = 0 then ok m
  else do
    let m ← m.resizeRowOf l new n
    foldRes (fun (m : Mesh α) k => do
      let has ← m.hasEntry l c k
      if has then do
        let y ← m.entry l c k
        m.insertEntry l new k y
      else ok m) m (List.range n)

/-- One round of the loop over the sub-edges (`GeDiM/src/Mesh/MeshUtilities1D.cpp:231-288`). -/
def cutOne (m : Mesh α) (c new : Nat) (sub : Nat × Nat) : Res (Mesh α) := do
  let m ← m.insertExt new sub.1 sub.2
  let k ← m.marker .d1 c
  let m ← m.setMark .d1 new k
  let m ← m.setAct .d1 new true
  let m ← m.insertUpd .d1 c new
  let v ← m.extremes new
  let m ← m.replaceNeighbours .nb01 v.1 c new
  let v ← m.extremes new
  let m ← m.replaceNeighbours .nb01 v.2 c new
  let m ← m.inheritNeighbours .nb12 c new
  m.inheritNeighbours .nb13 c new

/-- The loop over the sub-edges; `new` is the index of the next one. -/
def cutFrom (m : Mesh α) (c : Nat) : Nat → List (Nat × Nat) → Res (Mesh α)
  | _, [] => ok m
  | new, s :: ss => do
      let m ← m.cutOne c new s
      cutFrom m c (new + 1) ss

/-- `SplitCell1D` (`GeDiM/src/Mesh/MeshUtilities1D.cpp:220-291`): the mesh and the indices of the new
edges. -/
def splitCell1D [Zero α] (m : Mesh α) (c : Nat) (subs : List (Nat × Nat)) :
    Res (Mesh α × List Nat) := do
  let (m, first) ← m.append .d1 subs.length
  let m ← m.setAct .d1 c false
  let m ← m.cutFrom c first subs
  ok (m, (List.range subs.length).map (first + ·))

end Mesh
end Verif
