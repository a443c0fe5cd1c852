import Verif.JoinModel

/-
`MeshUtilities::AgglomerateCell2Ds`, without the information (`GeDiM/src/Mesh/MeshUtilities2D.cpp:2281-2386`), and
`MeshUtilities::AgglomerateCell3Ds` (`GeDiM/src/Mesh/MeshUtilities3D.cpp:2557-2838`). The set of cells is the list of
its elements in the order of iteration. Sizes that the code reads again in every round of a loop do not change in it.
-/
namespace Verif

open Res

namespace Mesh

variable {α : Type}

/-- One round of a loop over the joined cells (`GeDiM/src/Mesh/MeshUtilities3D.cpp:2568-2616`, `:2621-2663`,
`:2668-2710`): `b` are the faces, edges or vertices of a cell, `l` their neighbours; `s` are the ones kept and the ones
removed. -/
def sortCell (m : Mesh α) (b l : Lst) (min : Nat) (subs : List Nat) (s : List Nat × List Nat) (c : Nat) :
    Res (List Nat × List Nat) := do
  let n ← m.rowSize b c
  foldRes (fun s k => do
    let x ← m.entry b c k
    m.joinVertex l min subs s x) s (List.range n)

/-- The result of `AgglomerateCell3Ds`, the information: faces, edges and vertices, kept and removed
(`GeDiM/src/Mesh/MeshUtilities3D.cpp:2712-2717`). The code returns them in the order of its hash tables; the model in the
order of insertion. -/
structure MergeInfo where
  faces : List Nat × List Nat
  edges : List Nat × List Nat
  vertices : List Nat × List Nat
  deriving DecidableEq

/-- `AgglomerateCell3Ds`, the information (`GeDiM/src/Mesh/MeshUtilities3D.cpp:2557-2720`). -/
def mergeInfo (m : Mesh α) (subs : List Nat) : Res MergeInfo :=
  if subs.length < 2 then ok ⟨([], []), ([], []), ([], [])⟩
  else do
    let f ← foldRes (m.sortCell .face3 .nb23 2 subs) ([], []) subs
    let e ← foldRes (m.sortCell .edge3 .nb12 0 f.2) ([], []) subs
    let v ← foldRes (m.sortCell .vert3 .nb01 0 e.2) ([], []) subs
    ok ⟨f, e, v⟩

end Mesh

/-- The state of the loop over the cells (`GeDiM/src/Mesh/MeshUtilities2D.cpp:2297-2299`,
`GeDiM/src/Mesh/MeshUtilities3D.cpp:2740-2741`; no polyhedra for polyhedra). -/
structure MergeState (α : Type) where
  mesh : Mesh α
  marker : Nat
  cells : List Nat
  polyhedra : List (Nat × Nat)

namespace Mesh

variable {α : Type}

/-- The polyhedra of a polygon are collected, nothing for a polyhedron (`GeDiM/src/Mesh/MeshUtilities2D.cpp:2311-2320`). -/
def collectIf (m : Mesh α) (l : Option Lst) (c : Nat) (acc : List (Nat × Nat)) : Res (List (Nat × Nat)) :=
  match l with
  | none => ok acc
  | some l => m.collect l c acc

/-- One round of the loop over the cells (`GeDiM/src/Mesh/MeshUtilities2D.cpp:2300-2321`,
`GeDiM/src/Mesh/MeshUtilities3D.cpp:2742-2752`). -/
def mergeOne (d : Dim) (l : Option Lst) (orig : List (List Nat)) (s : MergeState α) (c : Nat) : Res (MergeState α) := do
  let m ← s.mesh.setAct d c false
  let k ← m.marker d c
  let cs ← vat orig c
  let q ← m.collectIf l c s.polyhedra
  ok ⟨m, if s.marker < k then k else s.marker, s.cells ++ cs, q⟩

/-- The loop over the neighbours of an edge or face (`GeDiM/src/Mesh/MeshUtilities2D.cpp:2366-2377`,
`GeDiM/src/Mesh/MeshUtilities3D.cpp:2816-2827`): joined cells are replaced by the new one. -/
def replaceEnd (m : Mesh α) (l : Lst) (subs : List Nat) (new x : Nat) : Res (Mesh α) := do
  let n ← m.rowSize l x
  foldRes (fun (m : Mesh α) k => do
    let has ← m.hasEntry l x k
    if has then do
      let y ← m.entry l x k
      if y ∈ subs then m.insertEntry l x k new else ok m
    else ok m) m (List.range n)

/-- A loop over the vertices, edges or faces `b` of the new cell (`GeDiM/src/Mesh/MeshUtilities2D.cpp:2338-2360`,
`:2362-2378`, `GeDiM/src/Mesh/MeshUtilities3D.cpp:2764-2786`, `:2788-2810`, `:2812-2828`). -/
def around (m : Mesh α) (b : Lst) (new : Nat) (step : Mesh α → Nat → Res (Mesh α)) : Res (Mesh α) := do
  let n ← m.rowSize b new
  foldRes (fun (m : Mesh α) k => do
    let x ← m.entry b new k
    step m x) m (List.range n)

/-- Cells become inactive (`GeDiM/src/Mesh/MeshUtilities2D.cpp:2380-2381`, `:2382-2383`,
`GeDiM/src/Mesh/MeshUtilities3D.cpp:2830-2835`). -/
def switchOff (m : Mesh α) (d : Dim) (cs : List Nat) : Res (Mesh α) :=
  foldRes (fun (m : Mesh α) x => m.setAct d x false) m cs

/-- The polyhedra of the new polygon (`GeDiM/src/Mesh/MeshUtilities2D.cpp:2332-2336`). -/
def addIf (m : Mesh α) (l : Lst) (new : Nat) (qs : List Nat) : Res (Mesh α) :=
  if qs = [] then ok m else m.addRow l new qs

/-- The part of `AgglomerateCell2Ds` after the loop over the polygons (`GeDiM/src/Mesh/MeshUtilities2D.cpp:2326-2383`). -/
def mergeFinish2 (m : Mesh α) (subs vs es rem0 rem1 : List Nat) (new k : Nat) (qs : List Nat) : Res (Mesh α) := do
  let m ← m.addRow .vert2 new vs
  let m ← m.addRow .edge2 new es
  let m ← m.setMark .d2 new k
  let m ← m.setAct .d2 new true
  let m ← m.addIf .nb23 new qs
  let m ← m.around .vert2 new (fun m x => m.joinEnd .nb02 subs new x)
  let m ← m.around .edge2 new (fun m x => m.replaceEnd .nb12 subs new x)
  let m ← m.switchOff .d0 rem0
  m.switchOff .d1 rem1

/-- The part of `AgglomerateCell2Ds` for two or more polygons (`GeDiM/src/Mesh/MeshUtilities2D.cpp:2295-2385`). -/
def mergeMany2 [Zero α] (ord : List Nat → List Nat) (m : Mesh α) (subs vs es rem0 rem1 : List Nat)
    (orig : List (List Nat)) : Res (Mesh α × Nat × List (List Nat)) := do
  let r ← m.append .d2 1
  let s ← foldRes (mergeOne .d2 (some .nb23) orig) ⟨r.1, 0, [], []⟩ subs
  let _ ← vat (orig ++ [[]]) r.2
  let orig ← vset (orig ++ [[]]) r.2 s.cells
  let m ← s.mesh.mergeFinish2 subs vs es rem0 rem1 r.2 s.marker (ord (s.polyhedra.map Prod.fst))
  ok (m, r.2, orig)

/-- `AgglomerateCell2Ds` (`GeDiM/src/Mesh/MeshUtilities2D.cpp:2281-2386`): the mesh, the number of the new polygon and the
original polygons of all polygons. `ord` is the order of iteration of the hash table. -/
def mergeCell2Ds [Zero α] (ord : List Nat → List Nat) (m : Mesh α) (subs vs es rem0 rem1 : List Nat)
    (orig : List (List Nat)) : Res (Mesh α × Nat × List (List Nat)) :=
  match subs with
  | [] => ok (m, m.num .d2, orig)
  | [c] => ok (m, c, orig)
  | c :: d :: cs => m.mergeMany2 ord (c :: d :: cs) vs es rem0 rem1 orig

/-- The part of `AgglomerateCell3Ds` after the loop over the polyhedra
(`GeDiM/src/Mesh/MeshUtilities3D.cpp:2757-2835`). -/
def mergeFinish3 (m : Mesh α) (subs vs es fs rem0 rem1 rem2 : List Nat) (new k : Nat) : Res (Mesh α) := do
  let m ← m.addRow .vert3 new vs
  let m ← m.addRow .edge3 new es
  let m ← m.addRow .face3 new fs
  let m ← m.setMark .d3 new k
  let m ← m.setAct .d3 new true
  let m ← m.around .vert3 new (fun m x => m.joinEnd .nb03 subs new x)
  let m ← m.around .edge3 new (fun m x => m.joinEnd .nb13 subs new x)
  let m ← m.around .face3 new (fun m x => m.replaceEnd .nb23 subs new x)
  let m ← m.switchOff .d0 rem0
  let m ← m.switchOff .d1 rem1
  m.switchOff .d2 rem2

/-- The part of `AgglomerateCell3Ds` for two or more polyhedra (`GeDiM/src/Mesh/MeshUtilities3D.cpp:2738-2837`). -/
def mergeMany3 [Zero α] (m : Mesh α) (subs vs es fs rem0 rem1 rem2 : List Nat) (orig : List (List Nat)) :
    Res (Mesh α × Nat × List (List Nat)) := do
  let r ← m.append .d3 1
  let s ← foldRes (mergeOne .d3 none orig) ⟨r.1, 0, [], []⟩ subs
  let _ ← vat (orig ++ [[]]) r.2
  let orig ← vset (orig ++ [[]]) r.2 s.cells
  let m ← s.mesh.mergeFinish3 subs vs es fs rem0 rem1 rem2 r.2 s.marker
  ok (m, r.2, orig)

/-- `AgglomerateCell3Ds` (`GeDiM/src/Mesh/MeshUtilities3D.cpp:2722-2838`): the mesh, the number of the new polyhedron and
the original polyhedra of all polyhedra. -/
def mergeCell3Ds [Zero α] (m : Mesh α) (subs vs es fs rem0 rem1 rem2 : List Nat) (orig : List (List Nat)) :
    Res (Mesh α × Nat × List (List Nat)) :=
  match subs with
  | [] => ok (m, m.num .d3, orig)
  | [c] => ok (m, c, orig)
  | c :: d :: cs => m.mergeMany3 (c :: d :: cs) vs es fs rem0 rem1 rem2 orig

end Mesh
end Verif
