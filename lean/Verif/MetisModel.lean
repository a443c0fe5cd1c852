import Verif.GraphModel
import Verif.MeshModel

/-
Model of `GeDiM/src/MpiTools/MetisUtilities.cpp`.

`MetisNetwork::MetisAdjacency` (`GeDiM/src/MpiTools/MetisUtilities.hpp:90-94`) is a pair of vectors
`Rows` and `Cols`, which is the offset/element storage `Csr Nat` (`Rows` is `off`, `Cols` is `el`).
-/
namespace Verif

open Res

/-- `GraphAdjacencyToMetisAdjacency` (`GeDiM/src/MpiTools/MetisUtilities.cpp:192-213`). -/
def toMetis (G : Graph) : Res (Csr Nat) := do
  let r ← foldRes
    (fun (s : List Nat × List Nat) v => do
      let a ← vget s.1 v
      let row ← vget G v
      let rows ← vset s.1 (v + 1) (a + row.length)
      ok (rows, s.2 ++ row))
    (List.replicate (G.length + 1) 0, []) (List.range G.length)
  ok ⟨r.1, r.2⟩

/-- `Cols.at(i)`: throws `std::out_of_range` outside the range. -/
def vat {α : Type} (l : List α) (i : Nat) : Res α :=
  match l[i]? with
  | some a => ok a
  | none => throw

/-- Body of the loop of `MetisAdjacencyToGraphAdjacency`
(`GeDiM/src/MpiTools/MetisUtilities.cpp:221-226`): the list of vertex `v`. -/
def metisRow (c : Csr Nat) (v : Nat) : Res (List Nat) := do
  let b ← vget c.off (v + 1)
  let a ← vget c.off v
  mapRes (fun k => vat c.el (a + k)) (List.range (usub b a))

/-- `MetisAdjacencyToGraphAdjacency` (`GeDiM/src/MpiTools/MetisUtilities.cpp:215-230`). -/
def fromMetis (c : Csr Nat) : Res Graph :=
  mapRes (metisRow c) (List.range (usub c.off.length 1))

/-- Body of the loops of `PartitionCheckConstraints`
(`GeDiM/src/MpiTools/MetisUtilities.cpp:579-589`). The state is (`fixedPartition`,
`numMaxPartition`, `edge`). -/
def constraintStep (c : Csr Nat) (constrained : List Bool) (v : Nat)
    (s : List Nat × Nat × Nat) (k : Nat) : Res (List Nat × Nat × Nat) := do
  let b ← vget constrained s.2.2
  let s := (s.1, s.2.1, s.2.2 + 1)
  if !b then ok s
  else do
    let a ← vget c.off v
    let w ← vat c.el (a + k)
    let lv ← vat s.1 v
    let lw ← vat s.1 w
    if lv ≠ lw then ok s
    else do
      let p ← vset s.1 w (s.2.1 + 1)
      ok (p, s.2.1 + 1, s.2.2)

/-- `*std::max_element(begin, end)`: undefined on an empty vector. -/
def maxElement : List Nat → Res Nat
  | [] => ub
  | x :: xs => ok (xs.foldl max x)

/-- `PartitionCheckConstraints` (`GeDiM/src/MpiTools/MetisUtilities.cpp:563-593`). -/
def partitionCheckConstraints (c : Csr Nat) (constrained : List Bool) (part : List Nat) :
    Res (List Nat) :=
  if constrained.length = 0 then ok part
  else do
    let m ← maxElement part
    let r ← foldRes
      (fun s v => do
        let b ← vget c.off (v + 1)
        let a ← vget c.off v
        foldRes (constraintStep c constrained v) s (List.range (usub b a)))
      (part, m, 0) (List.range (usub c.off.length 1))
    ok r.1

/-- First loop of `PartitionCheckConnectedComponents`
(`GeDiM/src/MpiTools/MetisUtilities.cpp:608-614`). `subGraphs_filter[p].size()` is evaluated before
the insertion. -/
def splitParts (part : List Nat) (s : List (List Nat) × List UMap) (v : Nat) :
    Res (List (List Nat) × List UMap) := do
  let p ← vget part v
  let vs ← pushBack s.1 p v
  let f ← vget s.2 p
  let fs ← vset s.2 p (umapInsert f v f.length)
  ok (vs, fs)

/-- The loop over the vertices of a component
(`GeDiM/src/MpiTools/MetisUtilities.cpp:634-638`): every vertex of the component gets the label. -/
def relabel (vertices : List Nat) (label : Nat) (fixed : List Nat) (comp : List Nat) :
    Res (List Nat) :=
  foldRes
    (fun fixed x => do
      let v ← vat vertices x
      vset fixed v label)
    fixed comp

/-- The loop over the parts (`GeDiM/src/MpiTools/MetisUtilities.cpp:617-640`) for part `p`. The state
is (`fixedPartition`, `numMaxPartition`). -/
def componentStep (G : Graph) (fuel : Nat) (vertices : List (List Nat)) (filters : List UMap)
    (s : List Nat × Nat) (p : Nat) : Res (List Nat × Nat) := do
  let f ← vget filters p
  let H ← extractSubGraph G f
  let comps ← stronglyConnectedComponents H fuel
  if comps.length < 2 then ok s
  else do
    let vs ← vget vertices p
    foldRes
      (fun (s : List Nat × Nat) comp => do
        let fixed ← relabel vs (s.2 + 1) s.1 comp
        ok (fixed, s.2 + 1))
      s (comps.drop 1)

/-- `PartitionCheckConnectedComponents` (`GeDiM/src/MpiTools/MetisUtilities.cpp:595-643`). -/
def partitionCheckComponents (c : Csr Nat) (fuel : Nat) (part : List Nat) : Res (List Nat) := do
  let m ← maxElement part
  let d ← foldRes (splitParts part) (List.replicate (m + 1) [], List.replicate (m + 1) [])
    (List.range (usub c.off.length 1))
  let G ← fromMetis c
  let r ← foldRes (componentStep G fuel d.1 d.2) (part, m) (List.range (m + 1))
  ok r.1

/-- The reordering loop at the end of `NetworkPartition`
(`GeDiM/src/MpiTools/MetisUtilities.cpp:537-558`) with `rounds` rounds to go and current label
`control`. -/
def reorderLoop : Nat → Nat → List Nat → List Nat
  | 0, _, part => part
  | rounds + 1, control, part =>
      if control ∈ part then reorderLoop rounds (control + 1) part
      else reorderLoop rounds control (part.map fun p => if control < p then p - 1 else p)

/-- What METIS answers: the edge cut and a part number for every vertex. -/
structure MetisAnswer where
  objval : Int
  part : List Nat

/-- `NetworkPartition` (`GeDiM/src/MpiTools/MetisUtilities.cpp:328-561`). Everything that METIS does
is the argument `answer`: `none` when the library was built without METIS, otherwise a successful
answer. The error branches of METIS throw and are not modelled, nor are the weights. -/
def networkPartition (numberElements numberParts masterWeight : Nat)
    (answer : Option MetisAnswer) : Res (List Nat) := do
  assert (numberElements > 0)
  let partition := List.replicate numberElements 0
  assert (numberParts > 0)
  if numberParts = 1 then
    if masterWeight = 0 then ok (vresize partition numberElements 1)
    else ok (vresize partition numberElements 0)
  else
    let base := if masterWeight > 0 then 0 else 1
    let partition := match answer with
      | none => partition
      | some a =>
        if a.objval = 0 then List.replicate numberElements base
        else if masterWeight > 0 then a.part else a.part.map (· + 1)
    ok (reorderLoop numberParts base partition)

end Verif
