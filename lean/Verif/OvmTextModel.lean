import Verif.OvmModel

/-
The text of OVM meshes (`GeDiM/src/Mesh/OpenVolumeMeshInterface.cpp:28-175`). Lines are lists of words as in `OffModel`.
-/
namespace Verif

open Res

variable {K : Type}

/-- Reading an `unsigned int` that is 0 before (`GeDiM/src/Mesh/OpenVolumeMeshInterface.cpp:78-79`, `:83-84`, `:102-103`, `:108`), and
`std::atoi` of a line (`:37`, `:54`, `:71`, `:96`): without a number there, the result is 0 and nothing more is read. A number with a
fraction is not followed further. -/
def ovmNat : List (OffWord K) → Res (Nat × List (OffWord K))
  | .nat n :: l => ok (n, l)
  | .num _ :: _ => ub
  | _ => ok (0, [])

/-- The loop over the numbers of a line. -/
def ovmNats : Nat → List (OffWord K) → Res (List Nat)
  | 0, _ => ok []
  | n + 1, l => do
      let r ← ovmNat l
      let rs ← ovmNats n r.2
      ok (r.1 :: rs)

/-- A line with a number and as many numbers behind it. -/
def ovmCounted (l : List (OffWord K)) : Res (List Nat) := do
  let n ← ovmNat l
  ovmNats n.1 n.2

/-- The part of a text with the cells of one dimension: a line with the number of cells, and a line for each of them
(`GeDiM/src/Mesh/OpenVolumeMeshInterface.cpp:35-48`, `:51-66`, `:69-91`, `:94-111`). `k` is the place of the number; the result is the
list of cells and the place behind it. -/
def ovmPart {β : Type} (lines : List (List (OffWord K))) (k : Nat) (read : List (OffWord K) → Res β) : Res (List β × Nat) := do
  assert (k ≤ lines.length)
  let l ← vget lines k
  let n ← ovmNat l
  assert (k + 1 + n.1 ≤ lines.length)
  let xs ← mapRes (fun i => do
    let l ← vget lines (k + 1 + i)
    read l) (List.range n.1)
  ok (xs, k + 1 + n.1)

/-- The line of an edge (`GeDiM/src/Mesh/OpenVolumeMeshInterface.cpp:60-63`); the ends have no value before. -/
def ovmEdgeLine (l : List (OffWord K)) : Res (Nat × Nat) := do
  let a ← offNat l
  let b ← offNat a.2
  ok (a.1, b.1)

/-- The line of a polygon (`GeDiM/src/Mesh/OpenVolumeMeshInterface.cpp:76-90`). -/
def ovmFaceLine (halfEdges : List (Nat × Nat)) (l : List (OffWord K)) : Res (List (Nat × Nat)) := do
  let hs ← ovmCounted l
  mapRes (fun h => do
    let x ← vget halfEdges h
    ok (x.1, h)) hs

/-- The line of a polyhedron (`GeDiM/src/Mesh/OpenVolumeMeshInterface.cpp:100-110`). -/
def ovmSolidLine (l : List (OffWord K)) : Res (List Nat × List Bool) := do
  let hs ← ovmCounted l
  ok (hs, hs.map fun h => decide (h % 2 = 0))

/-- `StringsToOVMMesh` (`GeDiM/src/Mesh/OpenVolumeMeshInterface.cpp:28-114`). -/
def textToOvm (lines : List (List (OffWord K))) : Res (OvmMesh K) := do
  let points ← ovmPart lines 2 offPointOf
  let edges ← ovmPart lines (points.2 + 1) ovmEdgeLine
  let halfEdges := edges.1.flatMap fun e => [(e.1, e.2), (e.2, e.1)]
  let faces ← ovmPart lines (edges.2 + 1) (ovmFaceLine halfEdges)
  let solids ← ovmPart lines (faces.2 + 1) ovmSolidLine
  ok ⟨points.1.length, edges.1.length, faces.1.length, solids.1.length, points.1, halfEdges, faces.1, solids.1⟩

/-- `OVMMeshToStrings` (`GeDiM/src/Mesh/OpenVolumeMeshInterface.cpp:119-174`). -/
def ovmToText (o : OvmMesh K) : Res (List (List (OffWord K))) := do
  let points ← mapRes (fun v => do
    let p ← vget o.points v
    ok [OffWord.num p.x, .num p.y, .num p.z]) (List.range o.num0)
  let edges ← mapRes (fun e => do
    let x ← vget o.halfEdges (2 * e)
    ok [OffWord.nat x.1, .nat x.2]) (List.range o.num1)
  let faces ← mapRes (fun f => do
    let c ← vget o.faces f
    ok (OffWord.nat c.length :: c.map fun x => OffWord.nat x.2)) (List.range o.num2)
  let solids ← mapRes (fun p => do
    let s ← vget o.solids p
    ok (OffWord.nat s.1.length :: s.1.map OffWord.nat)) (List.range o.num3)
  ok ([.word "OVM", .word "ASCII"] :: [.word "Vertices"] :: [.nat o.num0] :: points ++
    [.word "Edges"] :: [.nat o.num1] :: edges ++ [.word "Faces"] :: [.nat o.num2] :: faces ++
    [.word "Polyhedra"] :: [.nat o.num3] :: solids)

end Verif
