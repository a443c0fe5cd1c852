import Verif.CutModel
import Verif.MetisModel

/-
`MeshUtilities::AgglomerateCell1Ds` (`GeDiM/src/Mesh/MeshUtilities1D.cpp:293-480`). The set of edges is the list
of its elements in the order of iteration.
-/
namespace Verif

open Res

namespace Mesh

variable {α : Type}

/-- The loop over the edges of a vertex (`GeDiM/src/Mesh/MeshUtilities1D.cpp:315-337`), with its `break`: if the vertex
is inside the union. The second list is that of the slots, `k` the number of edges seen, `min` the least number. The
functions for polygons and polyhedra have the same loop over other neighbours `l`. -/
def innerFrom (m : Mesh α) (l : Lst) (min : Nat) (subs : List Nat) (x : Nat) : List Nat → Nat → Res Bool
  | [], k => ok (decide (min ≤ k))
  | n :: ns, k => do
      let has ← m.hasEntry l x n
      if has then do
        let y ← m.entry l x n
        if y ∈ subs then innerFrom m l min subs x ns (k + 1) else ok false
      else ok false

/-- One vertex of one edge (`GeDiM/src/Mesh/MeshUtilities1D.cpp:307-351`); `s` are the vertices kept and the vertices
removed. -/
def joinVertex (m : Mesh α) (l : Lst) (min : Nat) (subs : List Nat) (s : List Nat × List Nat) (x : Nat) : Res (List Nat × List Nat) :=
  if x ∈ s.2 then ok s
  else do
    let n ← m.rowSize l x
    let b ← m.innerFrom l min subs x (List.range n) 0
    if b then ok (s.1, s.2 ++ [x]) else ok (setInsert s.1 x, s.2)

/-- One round of the loop over the edges (`GeDiM/src/Mesh/MeshUtilities1D.cpp:304-352`). -/
def joinEdge (m : Mesh α) (subs : List Nat) (s : List Nat × List Nat) (c : Nat) : Res (List Nat × List Nat) := do
  let v ← m.extremes c
  let s ← m.joinVertex .nb01 2 subs s v.1
  let v ← m.extremes c
  m.joinVertex .nb01 2 subs s v.2

/-- `AgglomerateCell1Ds`, the information (`GeDiM/src/Mesh/MeshUtilities1D.cpp:293-358`): the vertices of the union and
the vertices removed. The code returns them in the order of its hash tables; the model in the order of insertion. -/
def joinInfo (m : Mesh α) (subs : List Nat) : Res (List Nat × List Nat) :=
  if subs.length < 2 then ok ([], []) else foldRes (m.joinEdge subs) ([], []) subs

/-- The loops over the polygons and polyhedra of an edge (`GeDiM/src/Mesh/MeshUtilities1D.cpp:392-401`, `:403-412`):
the neighbours not found before, with the slot where they are found first. For polyhedra the code keeps the neighbour
only. -/
def collect (m : Mesh α) (l : Lst) (c : Nat) (acc : List (Nat × Nat)) : Res (List (Nat × Nat)) := do
  let n ← m.rowSize l c
  foldRes (fun (acc : List (Nat × Nat)) k => do
    let has ← m.hasEntry l c k
    if has then do
      let y ← m.entry l c k
      if y ∈ acc.map Prod.fst then ok acc else ok (acc ++ [(y, k)])
    else ok acc) acc (List.range n)

end Mesh

/-- The state of the loop over the edges (`GeDiM/src/Mesh/MeshUtilities1D.cpp:376-379`). -/
structure JoinState (α : Type) where
  mesh : Mesh α
  marker : Nat
  cells : List Nat
  polygons : List (Nat × Nat)
  polyhedra : List (Nat × Nat)

namespace Mesh

variable {α : Type}

/-- One round of the loop over the edges (`GeDiM/src/Mesh/MeshUtilities1D.cpp:381-413`). -/
def joinOne (orig : List (List Nat)) (s : JoinState α) (c : Nat) : Res (JoinState α) := do
  let m ← s.mesh.setAct .d1 c false
  let k ← m.marker .d1 c
  let cs ← vat orig c
  let p ← m.collect .nb12 c s.polygons
  let q ← m.collect .nb13 c s.polyhedra
  ok ⟨m, if s.marker < k then k else s.marker, s.cells ++ cs, p, q⟩

/-- The polygons of the new edge (`GeDiM/src/Mesh/MeshUtilities1D.cpp:425-444`). -/
def joinPolygons (m : Mesh α) (new : Nat) (keep : Bool) (ps : List (Nat × Nat)) : Res (Mesh α) :=
  if ps = [] then ok m
  else if keep then do
    let m ← m.resizeRowOf .nb12 new 2
    foldRes (fun (m : Mesh α) p => m.insertEntry .nb12 new p.2 p.1) m ps
  else m.addRow .nb12 new (ps.map Prod.fst)

/-- The polyhedra of the new edge (`GeDiM/src/Mesh/MeshUtilities1D.cpp:446-450`). -/
def joinPolyhedra (m : Mesh α) (new : Nat) (qs : List Nat) : Res (Mesh α) :=
  if qs = [] then ok m else m.addRow .nb13 new qs

/-- The edges of a vertex that are not in the set (`GeDiM/src/Mesh/MeshUtilities1D.cpp:456-467`); `l` are the neighbours,
other ones in the functions for polygons and polyhedra. -/
def otherEdges (m : Mesh α) (l : Lst) (subs : List Nat) (x : Nat) : Res (List Nat) := do
  let n ← m.rowSize l x
  foldRes (fun (acc : List Nat) k => do
    let has ← m.hasEntry l x k
    if has then do
      let y ← m.entry l x k
      if y ∈ subs then ok acc else ok (acc ++ [y])
    else ok acc) [] (List.range n)

/-- One round of the loop over the ends (`GeDiM/src/Mesh/MeshUtilities1D.cpp:452-474`). -/
def joinEnd (m : Mesh α) (l : Lst) (subs : List Nat) (new x : Nat) : Res (Mesh α) := do
  let r ← m.otherEdges l subs x
  if r = [] then ok m else m.addRow l x (r ++ [new])

/-- The part after the loop over the edges (`GeDiM/src/Mesh/MeshUtilities1D.cpp:420-477`). -/
def joinFinish (m : Mesh α) (subs removed : List Nat) (new a b k : Nat) (keep : Bool) (ps : List (Nat × Nat))
    (qs : List Nat) : Res (Mesh α) := do
  let m ← m.insertExt new a b
  let m ← m.setMark .d1 new k
  let m ← m.setAct .d1 new true
  let m ← m.joinPolygons new keep ps
  let m ← m.joinPolyhedra new qs
  let v ← m.extremes new
  let m ← m.joinEnd .nb01 subs new v.1
  let v ← m.extremes new
  let m ← m.joinEnd .nb01 subs new v.2
  foldRes (fun (m : Mesh α) x => m.setAct .d0 x false) m removed

/-- The part of `AgglomerateCell1Ds` for two or more edges (`GeDiM/src/Mesh/MeshUtilities1D.cpp:373-479`). -/
def joinMany [Zero α] (ord2 : List (Nat × Nat) → List (Nat × Nat)) (ord3 : List Nat → List Nat) (m : Mesh α)
    (subs ends removed : List Nat) (orig : List (List Nat)) (keep : Bool) : Res (Mesh α × Nat × List (List Nat)) := do
  let r ← m.append .d1 1
  let s ← foldRes (joinOne orig) ⟨r.1, 0, [], [], []⟩ subs
  let _ ← vat (orig ++ [[]]) r.2
  let orig ← vset (orig ++ [[]]) r.2 s.cells
  assert (ends.length = 2)
  let a ← vat ends 0
  let b ← vat ends 1
  let m ← s.mesh.joinFinish subs removed r.2 a b s.marker keep (ord2 s.polygons) (ord3 (s.polyhedra.map Prod.fst))
  ok (m, r.2, orig)

/-- `AgglomerateCell1Ds` (`GeDiM/src/Mesh/MeshUtilities1D.cpp:360-480`): the mesh, the number of the new edge and the
original edges of all edges. `ord2` and `ord3` are the orders of iteration of the hash tables. -/
def joinCell1Ds [Zero α] (ord2 : List (Nat × Nat) → List (Nat × Nat)) (ord3 : List Nat → List Nat) (m : Mesh α)
    (subs ends removed : List Nat) (orig : List (List Nat)) (keep : Bool) :
    Res (Mesh α × Nat × List (List Nat)) :=
  match subs with
  | [] => ok (m, m.num .d1, orig)
  | [c] => ok (m, c, orig)
  | c :: d :: cs => m.joinMany ord2 ord3 (c :: d :: cs) ends removed orig keep

end Mesh
end Verif
