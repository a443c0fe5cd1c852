/-
Model of the mesh store `MeshMatrices` / `MeshMatricesDAO`
(`GeDiM/src/Mesh/MeshMatrices.hpp`, `GeDiM/src/Mesh/MeshMatricesDAO.cpp`,
`GeDiM/src/Mesh/IMeshDAO.hpp:1067-2200`).

The C++ record has one field per dimension and per list, named `Cell0DMarkers`, `Cell1DMarkers`, ...
The model groups fields of the same shape into one function: `mark d` is `CellXDMarkers` for the
dimension `d`, `lists l` is the pair (number vector, element vector) named by `l`.
Functions that differ between dimensions (`CellXDRemove`, `CellXDAppend`, `CellXDsInitialize`) are
written out once per dimension, statement by statement.
Calls that are textually parallel in all dimensions (set marker, set state, insert entry, ...) are
written once with the dimension or the list as parameter.
-/
import Verif.CsrModel

namespace Verif

open Res

/-- The dimension of a cell. -/
inductive Dim where
  | d0 | d1 | d2 | d3
  deriving DecidableEq, Repr

/-- The list-per-cell storages of index type (`GeDiM/src/Mesh/MeshMatrices.hpp:19-123`). -/
inductive Lst where
  /-- `Cell0DNeighbourCell1Ds` -/
  | nb01
  /-- `Cell0DNeighbourCell2Ds` -/
  | nb02
  /-- `Cell0DNeighbourCell3Ds` -/
  | nb03
  /-- `Cell1DNeighbourCell2Ds` -/
  | nb12
  /-- `Cell1DNeighbourCell3Ds` -/
  | nb13
  /-- `Cell2DNeighbourCell3Ds` -/
  | nb23
  /-- `Cell2DVertices` -/
  | vert2
  /-- `Cell2DEdges` -/
  | edge2
  /-- `Cell2DSubdivision` -/
  | sub2
  /-- `Cell3DVertices` -/
  | vert3
  /-- `Cell3DEdges` -/
  | edge3
  /-- `Cell3DFaces` -/
  | face3
  deriving DecidableEq, Repr

namespace Lst

/-- The dimension of the cells that own the rows of a storage
(`GeDiM/src/Mesh/MeshMatrices.hpp:19-123`). -/
def owner : Lst → Dim
  | nb01 | nb02 | nb03 => .d0
  | nb12 | nb13 => .d1
  | nb23 | vert2 | edge2 | sub2 => .d2
  | vert3 | edge3 | face3 => .d3

/-- The dimension of the cells that the entries of a storage refer to
(`GeDiM/src/Mesh/MeshMatrices.hpp:19-123`). -/
def target : Lst → Dim
  | vert2 | sub2 | vert3 => .d0
  | nb01 | edge2 | edge3 => .d1
  | nb02 | nb12 | face3 => .d2
  | nb03 | nb13 | nb23 => .d3

/-- Value that `CellXDsInitialize...(sizes)` gives to added entries
(`GeDiM/src/Mesh/MeshMatricesDAO.cpp:333-340`, `:919-926`, `:1168-1173`, ...):
the sentinel, except for the sub-division, which uses 0. -/
def fillAll : Lst → Nat
  | sub2 => 0
  | _ => UINT_MAX

/-- Value that `CellXDInitialize...(cell, n)` gives to added entries: the sentinel for neighbours
(`GeDiM/src/Mesh/MeshMatricesDAO.cpp:342-352`), 0 for vertices, edges, faces and sub-division
(`:928-932`, `:949-953`, `:1175-1180`, `:1287-1303`, where the default argument `T()` is used). -/
def fillOne : Lst → Nat
  | nb01 | nb02 | nb03 | nb12 | nb13 | nb23 => UINT_MAX
  | _ => 0

/-- The storages that have a `Reset` call (neighbour slots), for instance
`Cell0DResetNeighbourCell1D` (`GeDiM/src/Mesh/IMeshDAO.hpp:1271-1275`). -/
def isNeighbour : Lst → Bool
  | nb01 | nb02 | nb03 | nb12 | nb13 | nb23 => true
  | _ => false

end Lst

/-- `std::unordered_map<unsigned int, std::unordered_set<unsigned int>>` (`UpdatedCellXDs`,
`GeDiM/src/Mesh/MeshMatrices.hpp`), as an association list of lists.
Theorems hold for every order of the entries. -/
abbrev UpdMap := List (Nat × List Nat)

/-- Replace one value of a function. -/
def fset {κ : Type} {β : Type} [DecidableEq κ] (f : κ → β) (a : κ) (b : β) : κ → β :=
  fun x => if x = a then b else f x

@[simp] theorem fset_self {κ β : Type} [DecidableEq κ] (f : κ → β) (a : κ) (b : β) :
    fset f a b a = b := by simp [fset]

theorem fset_ne {κ β : Type} [DecidableEq κ] (f : κ → β) {a x : κ} (b : β) (h : x ≠ a) :
    fset f a b x = f x := by simp [fset, h]

/-- `MeshMatrices` (`GeDiM/src/Mesh/MeshMatrices.hpp:19-123`).
`orig d` is `CellXDOriginalCellXDs`; dimension 0 has no such field, there it stays empty.
`ids d`/`props d` are `CellXDDoublePropertyIds` and the pairs of `CellXDDoublePropertySizes` and
`CellXDDoublePropertyValues`; the map `CellXDDoublePropertyIndices` is the position in `ids d`. -/
structure Mesh (α : Type) where
  dimension : Nat
  num : Dim → Nat
  coord : List α
  ext : List Nat
  mark : Dim → List Nat
  act : Dim → List Bool
  orig : Dim → List Nat
  upd : Dim → UpdMap
  ids : Dim → List String
  props : Dim → List (Csr α)
  lists : Lst → Csr Nat

/-- Apply a call to every entry of a vector, in order; the first abnormal outcome ends the loop. -/
def mapRes {α β : Type} (f : α → Res β) : List α → Res (List β)
  | [] => ok []
  | a :: as => do
      let b ← f a
      let bs ← mapRes f as
      ok (b :: bs)

/-- `AlignContainerHigherElements` on one element
(`GeDiM/src/Mesh/MeshMatricesDAO.cpp:118-127`). -/
def align (min new x : Nat) : Nat :=
  if x > min then x - 1 else if x = min then new else x

/-- `unordered_set::insert`. -/
def setInsert (s : List Nat) (x : Nat) : List Nat := if x ∈ s then s else s ++ [x]

/-- `unordered_map::insert`: no effect when the key is present. -/
def mapInsert (m : UpdMap) (p : Nat × List Nat) : UpdMap :=
  if p.1 ∈ m.map Prod.fst then m else m ++ [p]

/-- `unordered_map::find`. -/
def mapFind : UpdMap → Nat → Option (List Nat)
  | [], _ => none
  | p :: m, k => if p.1 = k then some p.2 else mapFind m k

/-- Update of the value set of one entry in `AlignMapContainerHigherElements`
(`GeDiM/src/Mesh/MeshMatricesDAO.cpp:92-99`). -/
def alignSet (min new : Nat) (s : List Nat) : List Nat :=
  ((s.map (align min new)).filter (fun x => x ≠ new)).foldl setInsert []

/-- `AlignMapContainerHigherElements` (`GeDiM/src/Mesh/MeshMatricesDAO.cpp:81-115`).
Entries that stay in place keep their (updated) value; the entries of `tempMap` are inserted
afterwards under the decremented key. -/
def alignMap (m : UpdMap) (min new : Nat) : UpdMap :=
  let updated := m.map fun p => (p.1, alignSet min new p.2)
  let kept := updated.filter fun p => p.1 ≠ min ∧ p.2 ≠ [] ∧ ¬ p.1 > min
  let temp := (updated.filter fun p => p.2 ≠ [] ∧ p.1 > min).map fun p => (p.1 - 1, p.2)
  temp.foldl mapInsert kept

namespace Mesh

variable {α : Type}

/-! ### Construction -/

/-- A default-constructed `MeshMatrices` (`GeDiM/src/Mesh/MeshMatrices.hpp:19-123`). -/
def empty : Mesh α where
  dimension := 0
  num := fun _ => 0
  coord := []
  ext := []
  mark := fun _ => []
  act := fun _ => []
  orig := fun _ => []
  upd := fun _ => []
  ids := fun _ => []
  props := fun _ => []
  lists := fun _ => Csr.empty

/-! ### Elementary statements -/

/-- `NumberX.resize(NumberCellXD + 1, 0)`. -/
def resizeOffOf (m : Mesh α) (l : Lst) : Mesh α :=
  { m with lists := fset m.lists l ((m.lists l).resizeOff (m.num l.owner)) }

/-- `CellXDDoublePropertySizes[p].resize(NumberCellXD + 1, 0)` for every property. -/
def resizePropOffs (m : Mesh α) (d : Dim) : Mesh α :=
  { m with props := fset m.props d ((m.props d).map fun c => c.resizeOff (m.num d)) }

/-- Append loop of one list storage: push `k` zeros and overwrite them with the last offset
(for instance `GeDiM/src/Mesh/MeshMatricesDAO.cpp:192` and `:199-200`). -/
def appendRowsOf (m : Mesh α) (l : Lst) (old k : Nat) : Res (Mesh α) := do
  let c ← (m.lists l).appendRows old k
  ok { m with lists := fset m.lists l c }

/-- Append loop of every property (`GeDiM/src/Mesh/MeshMatricesDAO.cpp:195-196`, `:208-212`). -/
def appendProps (m : Mesh α) (d : Dim) (old k : Nat) : Res (Mesh α) := do
  let ps ← mapRes (fun c : Csr α => c.appendRows old k) (m.props d)
  ok { m with props := fset m.props d ps }

/-- `ResizeNumberVectorWithNewNumberElements(..., NumberCellXD, i, 0)` followed by erasing offset
`i` (for instance `GeDiM/src/Mesh/MeshMatricesDAO.cpp:231-232`); the default argument `T()` is 0. -/
def removeRowOf (m : Mesh α) (l : Lst) (i : Nat) : Res (Mesh α) := do
  let c ← (m.lists l).removeRow (m.num l.owner) i 0
  ok { m with lists := fset m.lists l c }

/-- Property loop of `CellXDRemove` (for instance `GeDiM/src/Mesh/MeshMatricesDAO.cpp:221-229`). -/
def removeProps [Zero α] (m : Mesh α) (d : Dim) (i : Nat) : Res (Mesh α) := do
  let ps ← mapRes (fun c : Csr α => c.removeRow (m.num d) i 0) (m.props d)
  ok { m with props := fset m.props d ps }

/-- `UpdatedCellXDs.erase(i)` (for instance `GeDiM/src/Mesh/MeshMatricesDAO.cpp:240`). -/
def eraseUpd (m : Mesh α) (d : Dim) (i : Nat) : Mesh α :=
  { m with upd := fset m.upd d ((m.upd d).filter fun p => p.1 ≠ i) }

/-- Erase the three coordinates of point `i` (`GeDiM/src/Mesh/MeshMatricesDAO.cpp:242-243`). -/
def eraseCoord (m : Mesh α) (i : Nat) : Res (Mesh α) := do
  let c ← verase m.coord (3 * i) (3 * i + 3)
  ok { m with coord := c }

/-- Erase the two extremes of edge `i` (`GeDiM/src/Mesh/MeshMatricesDAO.cpp:569-570`). -/
def eraseExt (m : Mesh α) (i : Nat) : Res (Mesh α) := do
  let c ← verase m.ext (2 * i) (2 * i + 2)
  ok { m with ext := c }

/-- `CellXDMarkers.erase(begin + i)` (for instance `GeDiM/src/Mesh/MeshMatricesDAO.cpp:244`). -/
def eraseMark (m : Mesh α) (d : Dim) (i : Nat) : Res (Mesh α) := do
  let l ← verase1 (m.mark d) i
  ok { m with mark := fset m.mark d l }

/-- `ActiveCellXD.erase(begin + i)` (for instance `GeDiM/src/Mesh/MeshMatricesDAO.cpp:245`). -/
def eraseAct (m : Mesh α) (d : Dim) (i : Nat) : Res (Mesh α) := do
  let l ← verase1 (m.act d) i
  ok { m with act := fset m.act d l }

/-- `CellXDOriginalCellXDs.erase(begin + i)`
(for instance `GeDiM/src/Mesh/MeshMatricesDAO.cpp:571`). -/
def eraseOrig (m : Mesh α) (d : Dim) (i : Nat) : Res (Mesh α) := do
  let l ← verase1 (m.orig d) i
  ok { m with orig := fset m.orig d l }

/-- `NumberCellXD--` (for instance `GeDiM/src/Mesh/MeshMatricesDAO.cpp:246`); reached only when the
number is positive. -/
def decNum (m : Mesh α) (d : Dim) : Mesh α :=
  { m with num := fset m.num d (m.num d - 1) }

/-- `AlignContainerHigherElements` on one element vector. -/
def alignLst (m : Mesh α) (l : Lst) (i new : Nat) : Mesh α :=
  { m with lists := fset m.lists l ((m.lists l).mapEl (align i new)) }

/-- `AlignContainerHigherElements(Cell1DVertices, ...)`
(`GeDiM/src/Mesh/MeshMatricesDAO.cpp:248`). -/
def alignExt (m : Mesh α) (i new : Nat) : Mesh α :=
  { m with ext := m.ext.map (align i new) }

/-- `AlignContainerHigherElements(CellXDOriginalCellXDs, ...)`
(for instance `GeDiM/src/Mesh/MeshMatricesDAO.cpp:581`). -/
def alignOrig (m : Mesh α) (d : Dim) (i new : Nat) : Mesh α :=
  { m with orig := fset m.orig d ((m.orig d).map (align i new)) }

/-- `AlignMapContainerHigherElements(UpdatedCellXDs, ...)`
(for instance `GeDiM/src/Mesh/MeshMatricesDAO.cpp:252`). -/
def alignUpd (m : Mesh α) (d : Dim) (i new : Nat) : Mesh α :=
  { m with upd := fset m.upd d (alignMap (m.upd d) i new) }

/-! ### `CellXDsInitialize` -/

/-- `Cell0DsInitialize` (`GeDiM/src/Mesh/MeshMatricesDAO.cpp:167-178`). -/
def init0 [Zero α] (m : Mesh α) (n : Nat) : Mesh α :=
  let m := { m with num := fset m.num .d0 n }
  let m := { m with coord := vresize m.coord (3 * n) 0 }
  let m := { m with mark := fset m.mark .d0 (vresize (m.mark .d0) n 0) }
  let m := { m with act := fset m.act .d0 (vresize (m.act .d0) n false) }
  let m := m.resizeOffOf .nb01
  let m := m.resizeOffOf .nb02
  let m := m.resizeOffOf .nb03
  m.resizePropOffs .d0

/-- `Cell1DsInitialize` (`GeDiM/src/Mesh/MeshMatricesDAO.cpp:501-512`). -/
def init1 (m : Mesh α) (n : Nat) : Mesh α :=
  let m := { m with num := fset m.num .d1 n }
  let m := { m with ext := vresize m.ext (2 * n) 0 }
  let m := { m with mark := fset m.mark .d1 (vresize (m.mark .d1) n 0) }
  let m := { m with act := fset m.act .d1 (vresize (m.act .d1) n false) }
  let m := { m with orig := fset m.orig .d1 (vresize (m.orig .d1) n UINT_MAX) }
  let m := m.resizeOffOf .nb12
  let m := m.resizeOffOf .nb13
  m.resizePropOffs .d1

/-- `Cell2DsInitialize` (`GeDiM/src/Mesh/MeshMatricesDAO.cpp:819-831`). -/
def init2 (m : Mesh α) (n : Nat) : Mesh α :=
  let m := { m with num := fset m.num .d2 n }
  let m := m.resizeOffOf .vert2
  let m := m.resizeOffOf .edge2
  let m := m.resizeOffOf .sub2
  let m := { m with mark := fset m.mark .d2 (vresize (m.mark .d2) n 0) }
  let m := { m with act := fset m.act .d2 (vresize (m.act .d2) n false) }
  let m := { m with orig := fset m.orig .d2 (vresize (m.orig .d2) n UINT_MAX) }
  let m := m.resizeOffOf .nb23
  m.resizePropOffs .d2

/-- `Cell3DsInitialize` (`GeDiM/src/Mesh/MeshMatricesDAO.cpp:1182-1193`). -/
def init3 (m : Mesh α) (n : Nat) : Mesh α :=
  let m := { m with num := fset m.num .d3 n }
  let m := m.resizeOffOf .vert3
  let m := m.resizeOffOf .edge3
  let m := m.resizeOffOf .face3
  let m := { m with mark := fset m.mark .d3 (vresize (m.mark .d3) n 0) }
  let m := { m with act := fset m.act .d3 (vresize (m.act .d3) n false) }
  let m := { m with orig := fset m.orig .d3 (vresize (m.orig .d3) n UINT_MAX) }
  m.resizePropOffs .d3

/-- `CellXDsInitialize` for every dimension. -/
def init [Zero α] (m : Mesh α) : Dim → Nat → Mesh α
  | .d0, n => m.init0 n
  | .d1, n => m.init1 n
  | .d2, n => m.init2 n
  | .d3, n => m.init3 n

/-! ### `CellXDAppend` -/

/-- `Cell0DAppend` (`GeDiM/src/Mesh/MeshMatricesDAO.cpp:180-215`). -/
def append0 [Zero α] (m : Mesh α) (k : Nat) : Res (Mesh α × Nat) := do
  let old := m.num .d0
  let m := { m with num := fset m.num .d0 (old + k) }
  let m := { m with coord := m.coord ++ List.replicate (3 * k) 0 }
  let m := { m with mark := fset m.mark .d0 (m.mark .d0 ++ List.replicate k 0) }
  let m := { m with act := fset m.act .d0 (m.act .d0 ++ List.replicate k false) }
  let m ← m.appendRowsOf .nb01 old k
  let m ← m.appendRowsOf .nb02 old k
  let m ← m.appendRowsOf .nb03 old k
  let m ← m.appendProps .d0 old k
  ok (m, old)

/-- `Cell1DAppend` (`GeDiM/src/Mesh/MeshMatricesDAO.cpp:514-545`). -/
def append1 (m : Mesh α) (k : Nat) : Res (Mesh α × Nat) := do
  let old := m.num .d1
  let m := { m with num := fset m.num .d1 (old + k) }
  let m := { m with ext := m.ext ++ List.replicate (2 * k) 0 }
  let m := { m with mark := fset m.mark .d1 (m.mark .d1 ++ List.replicate k 0) }
  let m := { m with act := fset m.act .d1 (m.act .d1 ++ List.replicate k false) }
  let m := { m with orig := fset m.orig .d1 (m.orig .d1 ++ List.replicate k UINT_MAX) }
  let m ← m.appendRowsOf .nb12 old k
  let m ← m.appendRowsOf .nb13 old k
  let m ← m.appendProps .d1 old k
  ok (m, old)

/-- `Cell2DAppend` (`GeDiM/src/Mesh/MeshMatricesDAO.cpp:833-868`). -/
def append2 (m : Mesh α) (k : Nat) : Res (Mesh α × Nat) := do
  let old := m.num .d2
  let m := { m with num := fset m.num .d2 (old + k) }
  let m := { m with mark := fset m.mark .d2 (m.mark .d2 ++ List.replicate k 0) }
  let m := { m with act := fset m.act .d2 (m.act .d2 ++ List.replicate k false) }
  let m := { m with orig := fset m.orig .d2 (m.orig .d2 ++ List.replicate k UINT_MAX) }
  let m ← m.appendRowsOf .vert2 old k
  let m ← m.appendRowsOf .edge2 old k
  let m ← m.appendRowsOf .sub2 old k
  let m ← m.appendRowsOf .nb23 old k
  let m ← m.appendProps .d2 old k
  ok (m, old)

/-- `Cell3DAppend` (`GeDiM/src/Mesh/MeshMatricesDAO.cpp:1195-1227`). -/
def append3 (m : Mesh α) (k : Nat) : Res (Mesh α × Nat) := do
  let old := m.num .d3
  let m := { m with num := fset m.num .d3 (old + k) }
  let m := { m with mark := fset m.mark .d3 (m.mark .d3 ++ List.replicate k 0) }
  let m := { m with act := fset m.act .d3 (m.act .d3 ++ List.replicate k false) }
  let m := { m with orig := fset m.orig .d3 (m.orig .d3 ++ List.replicate k UINT_MAX) }
  let m ← m.appendRowsOf .vert3 old k
  let m ← m.appendRowsOf .edge3 old k
  let m ← m.appendRowsOf .face3 old k
  let m ← m.appendProps .d3 old k
  ok (m, old)

/-- `CellXDAppend` for every dimension. -/
def append [Zero α] (m : Mesh α) : Dim → Nat → Res (Mesh α × Nat)
  | .d0, k => m.append0 k
  | .d1, k => m.append1 k
  | .d2, k => m.append2 k
  | .d3, k => m.append3 k

/-! ### `CellXDRemove` -/

/-- `Cell0DRemove` (`GeDiM/src/Mesh/MeshMatricesDAO.cpp:217-253`). -/
def remove0 [Zero α] (m : Mesh α) (i : Nat) : Res (Mesh α) := do
  assert (i < m.num .d0)
  let m ← m.removeProps .d0 i
  let m ← m.removeRowOf .nb01 i
  let m ← m.removeRowOf .nb02 i
  let m ← m.removeRowOf .nb03 i
  let m := m.eraseUpd .d0 i
  let m ← m.eraseCoord i
  let m ← m.eraseMark .d0 i
  let m ← m.eraseAct .d0 i
  let m := m.decNum .d0
  let m := m.alignExt i (m.num .d0)
  let m := m.alignLst .vert2 i (m.num .d0)
  let m := m.alignLst .vert3 i (m.num .d0)
  ok (m.alignUpd .d0 i (m.num .d0))

/-- `Cell1DRemove` (`GeDiM/src/Mesh/MeshMatricesDAO.cpp:547-582`). -/
def remove1 [Zero α] (m : Mesh α) (i : Nat) : Res (Mesh α) := do
  assert (i < m.num .d1)
  let m ← m.removeProps .d1 i
  let m ← m.removeRowOf .nb12 i
  let m ← m.removeRowOf .nb13 i
  let m := m.eraseUpd .d1 i
  let m ← m.eraseExt i
  let m ← m.eraseOrig .d1 i
  let m ← m.eraseMark .d1 i
  let m ← m.eraseAct .d1 i
  let m := m.decNum .d1
  let m := m.alignLst .nb01 i UINT_MAX
  let m := m.alignLst .edge2 i (m.num .d1)
  let m := m.alignLst .edge3 i (m.num .d1)
  let m := m.alignUpd .d1 i (m.num .d1)
  ok (m.alignOrig .d1 i UINT_MAX)

/-- `Cell2DRemove` (`GeDiM/src/Mesh/MeshMatricesDAO.cpp:870-908`). -/
def remove2 [Zero α] (m : Mesh α) (i : Nat) : Res (Mesh α) := do
  assert (i < m.num .d2)
  let m ← m.removeProps .d2 i
  let m ← m.removeRowOf .nb23 i
  let m := m.eraseUpd .d2 i
  let m ← m.removeRowOf .vert2 i
  let m ← m.removeRowOf .edge2 i
  let m ← m.removeRowOf .sub2 i
  let m ← m.eraseOrig .d2 i
  let m ← m.eraseMark .d2 i
  let m ← m.eraseAct .d2 i
  let m := m.decNum .d2
  let m := m.alignLst .nb02 i UINT_MAX
  let m := m.alignLst .nb12 i UINT_MAX
  let m := m.alignLst .face3 i (m.num .d2)
  let m := m.alignUpd .d2 i (m.num .d2)
  ok (m.alignOrig .d2 i UINT_MAX)

/-- `Cell3DRemove` (`GeDiM/src/Mesh/MeshMatricesDAO.cpp:1229-1264`). -/
def remove3 [Zero α] (m : Mesh α) (i : Nat) : Res (Mesh α) := do
  assert (i < m.num .d3)
  let m ← m.removeProps .d3 i
  let m := m.eraseUpd .d3 i
  let m ← m.removeRowOf .vert3 i
  let m ← m.removeRowOf .edge3 i
  let m ← m.removeRowOf .face3 i
  let m ← m.eraseOrig .d3 i
  let m ← m.eraseMark .d3 i
  let m ← m.eraseAct .d3 i
  let m := m.decNum .d3
  let m := m.alignLst .nb03 i UINT_MAX
  let m := m.alignLst .nb13 i UINT_MAX
  let m := m.alignLst .nb23 i UINT_MAX
  let m := m.alignUpd .d3 i (m.num .d3)
  ok (m.alignOrig .d3 i UINT_MAX)

/-- `CellXDRemove` for every dimension. -/
def remove [Zero α] (m : Mesh α) : Dim → Nat → Res (Mesh α)
  | .d0, i => m.remove0 i
  | .d1, i => m.remove1 i
  | .d2, i => m.remove2 i
  | .d3, i => m.remove3 i

/-! ### Other modifying calls -/

/-- `Cell0DInsertCoordinates` (`GeDiM/src/Mesh/MeshMatricesDAO.cpp:255-262`). -/
def insertCoord (m : Mesh α) (i : Nat) (x y z : α) : Res (Mesh α) := do
  assert (i < m.num .d0)
  let c ← vset m.coord (3 * i) x
  let c ← vset c (3 * i + 1) y
  let c ← vset c (3 * i + 2) z
  ok { m with coord := c }

/-- `Cell1DInsertExtremes` (`GeDiM/src/Mesh/MeshMatricesDAO.cpp:584-589`): the vertex numbers are
not checked. -/
def insertExt (m : Mesh α) (i a b : Nat) : Res (Mesh α) := do
  assert (i < m.num .d1)
  let c ← vset m.ext (2 * i) a
  let c ← vset c (2 * i + 1) b
  ok { m with ext := c }

/-- `CellXDSetMarker` (for instance `GeDiM/src/Mesh/IMeshDAO.hpp:1152-1156`). -/
def setMark (m : Mesh α) (d : Dim) (i a : Nat) : Res (Mesh α) := do
  assert (i < m.num d)
  let l ← vset (m.mark d) i a
  ok { m with mark := fset m.mark d l }

/-- `CellXDSetState` (for instance `GeDiM/src/Mesh/IMeshDAO.hpp:1157-1161`). -/
def setAct (m : Mesh α) (d : Dim) (i : Nat) (a : Bool) : Res (Mesh α) := do
  assert (i < m.num d)
  let l ← vset (m.act d) i a
  ok { m with act := fset m.act d l }

/-- `CellXDsInitialize...(sizes)` (for instance `GeDiM/src/Mesh/MeshMatricesDAO.cpp:333-340`). -/
def initRows (m : Mesh α) (l : Lst) (sizes : List Nat) : Res (Mesh α) := do
  assert (sizes.length = m.num l.owner)
  ok { m with lists := fset m.lists l ((m.lists l).initSizes sizes l.fillAll) }

/-- `CellXDsInitialize...(k)`, constant size. The library has it for `Cell1DNeighbourCell2Ds`,
`Cell2DVertices` and `Cell2DEdges` (`GeDiM/src/Mesh/MeshMatricesDAO.cpp:659-666`, `:910-917`,
`:934-941`); the model allows it for every list. -/
def initRowsConst (m : Mesh α) (l : Lst) (k : Nat) : Mesh α :=
  { m with lists := fset m.lists l ((m.lists l).initConst (m.num l.owner) k l.fillAll) }

/-- `CellXDInitialize...(i, k)` (for instance `GeDiM/src/Mesh/MeshMatricesDAO.cpp:342-352`);
`Cell2DInitializeSubDivision` also requires a multiple of 3 (`:1175-1180`). -/
def resizeRowOf (m : Mesh α) (l : Lst) (i k : Nat) : Res (Mesh α) := do
  assert (i < m.num l.owner)
  assert (l = .sub2 → k % 3 = 0)
  let c ← (m.lists l).resizeRow (m.num l.owner) i k l.fillOne
  ok { m with lists := fset m.lists l c }

/-- `CellXDInsert...(i, k, v)` (for instance `Cell0DInsertNeighbourCell1D`,
`GeDiM/src/Mesh/IMeshDAO.hpp:1231-1238`). -/
def insertEntry (m : Mesh α) (l : Lst) (i k v : Nat) : Res (Mesh α) := do
  assert (i < m.num l.owner)
  let s ← (m.lists l).rowSize i
  assert (k < s)
  assert (v < m.num l.target)
  let c ← (m.lists l).put i k v
  ok { m with lists := fset m.lists l c }

/-- `CellXDResetNeighbour...(i, k)` (for instance `GeDiM/src/Mesh/IMeshDAO.hpp:1271-1275`): neither
the cell nor the slot is checked. -/
def resetNeighbour (m : Mesh α) (l : Lst) (i k : Nat) : Res (Mesh α) := do
  let c ← (m.lists l).put i k UINT_MAX
  ok { m with lists := fset m.lists l c }

/-- `CellXDInsertUpdatedCellXD` (`GeDiM/src/Mesh/MeshMatricesDAO.cpp:288-296`, `:699-708`, ...).
Dimension 0 has no original-cell vector. -/
def insertUpd (m : Mesh α) (d : Dim) (i j : Nat) : Res (Mesh α) := do
  assert (i < m.num d)
  assert (j < m.num d)
  let u := if (mapFind (m.upd d) i).isNone then mapInsert (m.upd d) (i, []) else m.upd d
  let u := u.map fun p => if p.1 = i then (p.1, setInsert p.2 j) else p
  let m := { m with upd := fset m.upd d u }
  if d = .d0 then ok m
  else do
    let o ← vset (m.orig d) j i
    ok { m with orig := fset m.orig d o }

/-- `CellXDAddDoubleProperty` (for instance `GeDiM/src/Mesh/MeshMatricesDAO.cpp:465-475`). -/
def addProp (m : Mesh α) (d : Dim) (id : String) : Res (Mesh α × Nat) := do
  assert (id ∉ m.ids d)
  ok ({ m with
        ids := fset m.ids d (m.ids d ++ [id])
        props := fset m.props d (m.props d ++ [⟨List.replicate (m.num d + 1) 0, []⟩]) },
      (m.props d).length)

/-- `CellXDsInitializeDoublePropertyValues`
(for instance `GeDiM/src/Mesh/MeshMatricesDAO.cpp:477-484`). -/
def initPropAll [Zero α] (m : Mesh α) (d : Dim) (p : Nat) (sizes : List Nat) : Res (Mesh α) := do
  assert (p < (m.ids d).length)
  assert (sizes.length = m.num d)
  let c ← vget (m.props d) p
  let ps ← vset (m.props d) p (c.initSizes sizes 0)
  ok { m with props := fset m.props d ps }

/-- `CellXDInitializeDoublePropertyValues`
(for instance `GeDiM/src/Mesh/MeshMatricesDAO.cpp:486-499`). -/
def initPropRow [Zero α] (m : Mesh α) (d : Dim) (i p k : Nat) : Res (Mesh α) := do
  assert (i < m.num d)
  assert (p < (m.ids d).length)
  let c ← vget (m.props d) p
  let c ← c.resizeRow (m.num d) i k 0
  let ps ← vset (m.props d) p c
  ok { m with props := fset m.props d ps }

/-- `CellXDInsertDoublePropertyValue` (for instance `GeDiM/src/Mesh/IMeshDAO.hpp:1382-1392`): the
slot `k` is not checked. -/
def insertProp (m : Mesh α) (d : Dim) (i p k : Nat) (v : α) : Res (Mesh α) := do
  assert (i < m.num d)
  assert (p < (m.ids d).length)
  let c ← vget (m.props d) p
  let c ← c.put i k v
  let ps ← vset (m.props d) p c
  ok { m with props := fset m.props d ps }

/-! ### Getters -/

/-- `Cell0DCoordinates` (`GeDiM/src/Mesh/IMeshDAO.hpp:1167-1186`). -/
def coordinates (m : Mesh α) (i : Nat) : Res (α × α × α) := do
  assert (i < m.num .d0)
  let x ← vget m.coord (3 * i)
  let y ← vget m.coord (3 * i + 1)
  let z ← vget m.coord (3 * i + 2)
  ok (x, y, z)

/-- `Cell1DOrigin` and `Cell1DEnd` (`GeDiM/src/Mesh/IMeshDAO.hpp:1479-1488`). -/
def extremes (m : Mesh α) (i : Nat) : Res (Nat × Nat) := do
  assert (i < m.num .d1)
  let a ← vget m.ext (2 * i)
  let b ← vget m.ext (2 * i + 1)
  ok (a, b)

/-- `CellXDMarker` (for instance `GeDiM/src/Mesh/IMeshDAO.hpp:1189-1193`). -/
def marker (m : Mesh α) (d : Dim) (i : Nat) : Res Nat := do
  assert (i < m.num d)
  vget (m.mark d) i

/-- `CellXDIsActive` (for instance `GeDiM/src/Mesh/IMeshDAO.hpp:1198-1202`). -/
def active (m : Mesh α) (d : Dim) (i : Nat) : Res Bool := do
  assert (i < m.num d)
  vget (m.act d) i

/-- `CellXDOriginalCellXD` (for instance `GeDiM/src/Mesh/IMeshDAO.hpp:1573-1577`); `at` throws
outside the range. -/
def original (m : Mesh α) (d : Dim) (i : Nat) : Res Nat := do
  assert (i < m.num d)
  match (m.orig d)[i]? with
  | some a => ok a
  | none => throw

/-- `CellXDHasOriginalCellXD` (for instance `GeDiM/src/Mesh/IMeshDAO.hpp:1568-1572`). -/
def hasOriginal (m : Mesh α) (d : Dim) (i : Nat) : Res Bool := do
  let o ← m.original d i
  ok (decide (o < m.num d))

/-- The updated cells of a cell: `find` in `UpdatedCellXDs`
(for instance `GeDiM/src/Mesh/IMeshDAO.hpp:1208-1223`); `none` when there is no entry. -/
def updated (m : Mesh α) (d : Dim) (i : Nat) : Res (Option (List Nat)) := do
  assert (i < m.num d)
  ok (mapFind (m.upd d) i)

/-- Number of entries of a list, for instance `Cell0DNumberNeighbourCell1D`, `Cell2DNumberVertices`
(`GeDiM/src/Mesh/IMeshDAO.hpp:1239-1243`, `:1750-1754`). -/
def rowSize (m : Mesh α) (l : Lst) (i : Nat) : Res Nat := do
  assert (i < m.num l.owner)
  (m.lists l).rowSize i

/-- Entry of a list, for instance `Cell0DNeighbourCell1D`, `Cell2DVertex`
(`GeDiM/src/Mesh/IMeshDAO.hpp:1244-1249`, `:1770-1775`). -/
def entry (m : Mesh α) (l : Lst) (i k : Nat) : Res Nat := do
  let s ← m.rowSize l i
  assert (k < s)
  (m.lists l).get i k

/-- Whether a neighbour slot is used, for instance `Cell0DHasNeighbourCell1D`
(`GeDiM/src/Mesh/IMeshDAO.hpp:1265-1270`). -/
def hasEntry (m : Mesh α) (l : Lst) (i k : Nat) : Res Bool := do
  let v ← m.entry l i k
  ok (decide (v < m.num l.target))

/-- A whole list, for instance `Cell2DVertices` (`GeDiM/src/Mesh/IMeshDAO.hpp:1761-1766`). -/
def row (m : Mesh α) (l : Lst) (i : Nat) : Res (List Nat) := do
  assert (i < m.num l.owner)
  (m.lists l).row i

/-- `CellXDDoublePropertySize` (for instance `GeDiM/src/Mesh/IMeshDAO.hpp:1410-1416`). -/
def propSize (m : Mesh α) (d : Dim) (i p : Nat) : Res Nat := do
  assert (i < m.num d)
  assert (p < (m.ids d).length)
  let c ← vget (m.props d) p
  c.rowSize i

/-- `CellXDDoublePropertyValue` (for instance `GeDiM/src/Mesh/IMeshDAO.hpp:1417-1426`). -/
def propValue (m : Mesh α) (d : Dim) (i p k : Nat) : Res α := do
  let s ← m.propSize d i p
  assert (k < s)
  let c ← vget (m.props d) p
  c.get i k

/-! ### Composite calls -/

/-- Loop `for v: Insert(i, v, values[v])`, starting at slot `k`
(for instance `GeDiM/src/Mesh/MeshMatricesDAO.cpp:958-959`). -/
def insertFrom (m : Mesh α) (l : Lst) (i : Nat) : Nat → List Nat → Res (Mesh α)
  | _, [] => ok m
  | k, v :: vs => do
      let m ← m.insertEntry l i k v
      insertFrom m l i (k + 1) vs

/-- `Cell2DAddVertices`, `Cell2DAddEdges`, `Cell3DAddVertices`, ... and
`CellXDInitializeNeighbourCellYDs(cell, neighbours)`
(`GeDiM/src/Mesh/MeshMatricesDAO.cpp:955-967`, `:1305-1324`, `:354-360`): resize one list and fill
it. -/
def addRow (m : Mesh α) (l : Lst) (i : Nat) (vs : List Nat) : Res (Mesh α) := do
  let m ← m.resizeRowOf l i vs.length
  m.insertFrom l i 0 vs

/-- Loop of `Cell2DAddVerticesAndEdges` from column `k`
(`GeDiM/src/Mesh/MeshMatricesDAO.cpp:974-978`). -/
def insertPairsFrom (m : Mesh α) (i : Nat) : Nat → List (Nat × Nat) → Res (Mesh α)
  | _, [] => ok m
  | k, (v, e) :: ps => do
      let m ← m.insertEntry .vert2 i k v
      let m ← m.insertEntry .edge2 i k e
      insertPairsFrom m i (k + 1) ps

/-- `Cell2DAddVerticesAndEdges` (`GeDiM/src/Mesh/MeshMatricesDAO.cpp:969-979`). -/
def addVerticesAndEdges (m : Mesh α) (i : Nat) (ps : List (Nat × Nat)) : Res (Mesh α) := do
  let m ← m.resizeRowOf .vert2 i ps.length
  let m ← m.resizeRowOf .edge2 i ps.length
  m.insertPairsFrom i 0 ps

/-! ### Find queries -/

/-- `std::find` followed by `std::distance`, or the size when not found. -/
def findIn (l : List Nat) (x : Nat) : Nat := l.findIdx (fun y => y == x)

/-- `Cell2DFindVertex`, `Cell2DFindEdge`, `Cell3DFindVertex`, `Cell3DFindEdge`, `Cell3DFindFace`
(`GeDiM/src/Mesh/MeshMatricesDAO.cpp:1013-1031`, `:1326-1354`). -/
def findEntry (m : Mesh α) (l : Lst) (i x : Nat) : Res Nat := do
  let r ← m.row l i
  ok (findIn r x)

/-- The search loop of `CellXDFindEdgeByExtremes` from position `e`. The condition
`Cell1DVertices[2 * edges[e]] == a && Cell1DVertices[2 * edges[e] + 1] == b` reads the second value
only when the first one matches. -/
def findExtLoop (ext : List Nat) (a b : Nat) : Nat → List Nat → Res Nat
  | e, [] => ok e
  | e, x :: xs => do
      let o ← vget ext (2 * x)
      if o = a then do
        let t ← vget ext (2 * x + 1)
        if t = b then ok e else findExtLoop ext a b (e + 1) xs
      else findExtLoop ext a b (e + 1) xs

/-- `Cell2DFindEdgeByExtremes`, `Cell3DFindEdgeByExtremes`
(`GeDiM/src/Mesh/MeshMatricesDAO.cpp:1033-1046`, `:1356-1369`). The product `2 * edges[e]` is not
reduced modulo 2^32. -/
def findEdgeByExt (m : Mesh α) (l : Lst) (i a b : Nat) : Res Nat := do
  let r ← m.row l i
  findExtLoop m.ext a b 0 r

/-- `Cell1DByExtremes` (`GeDiM/src/Mesh/MeshMatricesDAO.cpp:629-642`). -/
def cell1DByExt (m : Mesh α) (a b : Nat) : Res Nat := do
  assert (a < m.num .d0)
  assert (b < m.num .d0)
  findExtLoop m.ext a b 0 (List.range (m.num .d1))

end Mesh

/-! ### Sequences of calls -/

/-- The modifying calls of the mesh store. -/
inductive Op (α : Type) where
  | initDim (n : Nat)
  | init (d : Dim) (n : Nat)
  | append (d : Dim) (k : Nat)
  | remove (d : Dim) (i : Nat)
  | insertCoord (i : Nat) (x y z : α)
  | insertExt (i a b : Nat)
  | setMark (d : Dim) (i a : Nat)
  | setAct (d : Dim) (i : Nat) (a : Bool)
  | initRows (l : Lst) (sizes : List Nat)
  | initRowsConst (l : Lst) (k : Nat)
  | resizeRow (l : Lst) (i k : Nat)
  | insertEntry (l : Lst) (i k v : Nat)
  | resetNeighbour (l : Lst) (i k : Nat)
  | addRow (l : Lst) (i : Nat) (vs : List Nat)
  | addVerticesAndEdges (i : Nat) (ps : List (Nat × Nat))
  | insertUpd (d : Dim) (i j : Nat)
  | addProp (d : Dim) (id : String)
  | initPropAll (d : Dim) (p : Nat) (sizes : List Nat)
  | initPropRow (d : Dim) (i p k : Nat)
  | insertProp (d : Dim) (i p k : Nat) (v : α)

namespace Mesh

variable {α : Type}

/-- The effect of one modifying call (return values are dropped). `initDim` is
`InitializeDimension` (`GeDiM/src/Mesh/IMeshDAO.hpp:1137-1140`). -/
def step [Zero α] (m : Mesh α) : Op α → Res (Mesh α)
  | .initDim n => ok { m with dimension := n }
  | .init d n => ok (m.init d n)
  | .append d k => do
      let r ← m.append d k
      ok r.1
  | .remove d i => m.remove d i
  | .insertCoord i x y z => m.insertCoord i x y z
  | .insertExt i a b => m.insertExt i a b
  | .setMark d i a => m.setMark d i a
  | .setAct d i a => m.setAct d i a
  | .initRows l sizes => m.initRows l sizes
  | .initRowsConst l k => ok (m.initRowsConst l k)
  | .resizeRow l i k => m.resizeRowOf l i k
  | .insertEntry l i k v => m.insertEntry l i k v
  | .resetNeighbour l i k => m.resetNeighbour l i k
  | .addRow l i vs => m.addRow l i vs
  | .addVerticesAndEdges i ps => m.addVerticesAndEdges i ps
  | .insertUpd d i j => m.insertUpd d i j
  | .addProp d id => do
      let r ← m.addProp d id
      ok r.1
  | .initPropAll d p sizes => m.initPropAll d p sizes
  | .initPropRow d i p k => m.initPropRow d i p k
  | .insertProp d i p k v => m.insertProp d i p k v

/-- A sequence of calls. -/
def run [Zero α] (m : Mesh α) : List (Op α) → Res (Mesh α)
  | [] => ok m
  | o :: os => do
      let m ← m.step o
      run m os

end Mesh
end Verif
