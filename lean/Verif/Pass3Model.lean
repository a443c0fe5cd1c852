import Verif.PassModel
import Verif.Split3Model

/-
A new vertex on an edge is passed on to the polyhedra of the edge: `RefinePolyhedronCell_UpdateEdgeNeighbours`
(`GeDiM/src/Mesh/RefinementUtilities3D.cpp:539-633`). The map `updatedCell2Ds` is a list of pairs without a key that occurs two
times; its order has no influence. To make a copy longer by one and to write the last entry is to append the entry.
-/
namespace Verif

open Res

/-- `updatedCell2Ds.find` and `at`: the entry with the given key. -/
def pairOf (M : List (Nat × Nat)) (f : Nat) : Option Nat := (M.find? fun p => p.1 == f).map Prod.snd

namespace Mesh

variable {α : Type} [Zero α]

/-- One round of the loop over the faces of a polyhedron (`GeDiM/src/Mesh/RefinementUtilities3D.cpp:590-615`). The state is the
mesh, `newCell3DsFaces[0]` and `updatedCell2Ds`; `gs` are the original faces. -/
def passToFace (q e w : Nat) (halves : List Nat) (directions : List (List (List Bool))) (gs : List Nat)
    (s : Mesh α × List Nat × List (Nat × Nat)) (k : Nat) : Res (Mesh α × List Nat × List (Nat × Nat)) := do
  let f ← vat gs k
  let i ← s.1.findEntry .edge2 f e
  let n ← s.1.rowSize .vert2 f
  if i = n then ok s
  else do
    let p ← s.1.findEntry .face3 q f
    assert (p < gs.length)
    match pairOf s.2.2 f with
    | none => do
        let d3 ← vat directions q
        let d2 ← vat d3 p
        let d ← vat d2 i
        let r ← s.1.addVertexOnEdge f d i halves w
        let row ← vset s.2.1 p r.2
        ok (r.1, row, s.2.2 ++ [(f, r.2)])
    | some x => do
        let row ← vset s.2.1 p x
        ok (s.1, row, s.2.2)

/-- The part of a round of the loop over the polyhedra after the tests
(`GeDiM/src/Mesh/RefinementUtilities3D.cpp:565-626`). -/
def passToSolid (q e w : Nat) (halves : List Nat) (directions : List (List (List Bool))) (m : Mesh α)
    (out M : List (Nat × Nat)) : Res (Mesh α × List (Nat × Nat) × List (Nat × Nat)) := do
  let vs ← m.row .vert3 q
  let es ← m.row .edge3 q
  let gs ← m.row .face3 q
  let i ← m.findEntry .edge3 q e
  assert (i < es.length)
  let h0 ← vget halves 0
  let es' ← vset es i h0
  let h1 ← vget halves 1
  let s ← foldRes (passToFace q e w halves directions gs) (m, gs, M) (List.range gs.length)
  let r ← s.1.splitCell3D q [vs ++ [w]] [es' ++ [h1]] [s.2.1]
  ok (r.1, out ++ r.2.map (fun x => (q, x)), s.2.2)

/-- One round of the loop over the polyhedra of the edge (`GeDiM/src/Mesh/RefinementUtilities3D.cpp:553-627`). The state is the
mesh, the list of pairs (polyhedron, new polyhedron) and `updatedCell2Ds`. -/
def passAround (c e w : Nat) (halves : List Nat) (directions : List (List (List Bool)))
    (s : Mesh α × List (Nat × Nat) × List (Nat × Nat)) (k : Nat) : Res (Mesh α × List (Nat × Nat) × List (Nat × Nat)) := do
  let has ← s.1.hasEntry .nb13 e k
  if has = false then ok s
  else do
    let q ← s.1.entry .nb13 e k
    if q = c then ok s
    else do
      let u ← s.1.updated .d3 q
      if u.isSome = true then ok s
      else passToSolid q e w halves directions s.1 s.2.1 s.2.2

/-- `RefinePolyhedronCell_UpdateEdgeNeighbours` (`GeDiM/src/Mesh/RefinementUtilities3D.cpp:539-633`): the mesh, the pairs
(polyhedron, new polyhedron) and `updatedCell2Ds`. The number of polyhedra of the edge does not change during the loop; the model
reads it once. -/
def passToSolids (m : Mesh α) (c e w : Nat) (halves : List Nat) (directions : List (List (List Bool)))
    (M : List (Nat × Nat)) : Res (Mesh α × List (Nat × Nat) × List (Nat × Nat)) := do
  let n ← m.rowSize .nb13 e
  foldRes (passAround c e w halves directions) (m, [], M) (List.range n)

end Mesh
end Verif
