import Verif.MetisModel

/-
The dual graph of a mesh and the graph of an edge list as networks for METIS: `Mesh3DToDualGraph`, `MeshToGraph` and
`Mesh2DToDualGraph` (`GeDiM/src/MpiTools/MetisUtilities.cpp:33-190,231-326`). Weights are natural numbers: the
overflow of `unsigned int` is left out.
-/
namespace Verif

open Res

/-- `MetisNetwork` (`GeDiM/src/MpiTools/MetisUtilities.hpp:88-100`). -/
structure MetisNet where
  adjacency : Csr Nat
  constrained : List Bool
  nodesWeight : List Nat
  edgesWeight : List Nat
  deriving DecidableEq

/-- The local `Connection` (`GeDiM/src/MpiTools/MetisUtilities.cpp:42-47,243-248`): the other cell and the cell in
between. -/
structure Link where
  constrained : Bool
  to : Nat
  cell : Nat
  deriving DecidableEq

/-- The vectors `Rows` and `Cols` of lists of connections
(`GeDiM/src/MpiTools/MetisUtilities.cpp:84-104,163-183,277-298`). The code copies each member of the connections into
a list of its own; here the connections are kept together. -/
def netRows {α : Type} (L : List (List α)) : Res (List Nat × List α) :=
  foldRes (fun (s : List Nat × List α) v => do
    let row ← vget L v
    let a ← vget s.1 v
    let rows ← vset s.1 (v + 1) (a + row.length)
    ok (rows, s.2 ++ row))
    (List.replicate (L.length + 1) 0, []) (List.range L.length)

/-- The two new connections and constraints of a pair of cells
(`GeDiM/src/MpiTools/MetisUtilities.cpp:72-79,265-272`). Of the `std::set` of constraints only the membership is used:
here it is a list. -/
def linkPair (con : Bool) (e a b : Nat) (s : List (List Link) × List (Nat × Nat)) :
    Res (List (List Link) × List (Nat × Nat)) := do
  let L ← pushBack s.1 a ⟨con, b, e⟩
  let L ← pushBack L b ⟨con, a, e⟩
  ok (L, if con then s.2 ++ [(a, b), (b, a)] else s.2)

/-- The flag of the cell in between (`GeDiM/src/MpiTools/MetisUtilities.cpp:70,263`): the constraints count only if
there is one for each cell. -/
def dualFlag (cons : List Bool) (num e : Nat) : Res Bool :=
  if cons.length = num then vget cons e else ok false

namespace Mesh

variable {α : Type}

/-- The inner loop over the second slot (`GeDiM/src/MpiTools/MetisUtilities.cpp:64-80,257-273`). -/
def dualInner (m : Mesh α) (l : Lst) (cons : List Bool) (e a size n1 : Nat)
    (s : List (List Link) × List (Nat × Nat)) : Res (List (List Link) × List (Nat × Nat)) :=
  foldRes (fun s n2 => do
    let h ← m.hasEntry l e n2
    if !h then ok s
    else do
      let b ← m.entry l e n2
      let con ← dualFlag cons (m.num l.owner) e
      linkPair con e a b s) s (List.range' (n1 + 1) (size - (n1 + 1)))

/-- The loops over the slots of cell `e` (`GeDiM/src/MpiTools/MetisUtilities.cpp:57-81,250-274`). -/
def dualCell (m : Mesh α) (l : Lst) (cons : List Bool) (s : List (List Link) × List (Nat × Nat)) (e : Nat) :
    Res (List (List Link) × List (Nat × Nat)) := do
  let size ← m.rowSize l e
  foldRes (fun s n1 => do
    let h ← m.hasEntry l e n1
    if !h then ok s
    else do
      let a ← m.entry l e n1
      m.dualInner l cons e a size n1 s) s (List.range size)

/-- The weights of the connections (`GeDiM/src/MpiTools/MetisUtilities.cpp:109-122,303-316`). The matrix of weights is
given as a function, or not at all if it is empty. -/
def dualWeights (check : Bool) (weight : Option (Nat → Nat → Nat)) (constraints : List (Nat × Nat)) (numEdges : Nat)
    (L : List (List Link)) : Res (List Nat) := do
  let s ← foldRes (fun (s : List Nat × Nat) v => do
    let row ← vget L v
    foldRes (fun (s : List Nat × Nat) (c : Link) => do
      let w := match weight with
        | some f => f v c.to
        | none => 1
      let ws ← vset s.1 s.2 (if !check then w else if (v, c.to) ∈ constraints then 1 else w + numEdges)
      ok (ws, s.2 + 1)) s row) (List.replicate numEdges 1, 0) (List.range L.length)
  ok s.1

/-- `Mesh2DToDualGraph` with the list `nb12` and `Mesh3DToDualGraph` with the list `nb23`
(`GeDiM/src/MpiTools/MetisUtilities.cpp:231-326` and `:33-128`), which are the same up to the dimension. The first
result is `EdgesMeshCellIndex`. -/
def dualGraph (m : Mesh α) (l : Lst) (nodesWeight : List Nat) (cons : List Bool) (weight : Option (Nat → Nat → Nat)) :
    Res (List Nat × MetisNet) := do
  let s ← foldRes (m.dualCell l cons) (List.replicate (m.num l.target) [], []) (List.range (m.num l.owner))
  let r ← netRows s.1
  let ws ← dualWeights (decide (cons.length = m.num l.owner)) weight s.2 r.2.length s.1
  ok (r.2.map (·.cell), ⟨⟨r.1, r.2.map (·.to)⟩, r.2.map (·.constrained), nodesWeight, ws⟩)

end Mesh

/-- The weight of edge `e` (`GeDiM/src/MpiTools/MetisUtilities.cpp:155`). -/
def edgeWeight (weights : List Nat) (e : Nat) : Res Nat :=
  if weights.length = 0 then ok 1 else vget weights e

/-- Body of the first loop of `MeshToGraph` (`GeDiM/src/MpiTools/MetisUtilities.cpp:148-168`): the connections are
kept as pairs of `To` and `Weight`; `From` is not used. -/
def graphStep (undirected : Bool) (weights : List Nat) (L : List (List (Nat × Nat))) (c : (Nat × Nat) × Nat) :
    Res (List (List (Nat × Nat))) := do
  let w ← edgeWeight weights c.2
  let L ← pushBack L c.1.1 (c.1.2, w)
  if undirected then pushBack L c.1.2 (c.1.1, w) else ok L

/-- `MeshToGraph` (`GeDiM/src/MpiTools/MetisUtilities.cpp:130-190`). A negative entry of the matrix of edges is
undefined behaviour in the code and outside of the model. -/
def meshToGraph (n : Nat) (edges : List (Nat × Nat)) (undirected : Bool) (nodesWeight weights : List Nat) :
    Res MetisNet := do
  let L ← foldRes (graphStep undirected weights) (List.replicate n []) edges.zipIdx
  let r ← netRows L
  ok ⟨⟨r.1, r.2.map (·.1)⟩, [], nodesWeight, r.2.map (·.2)⟩

end Verif
