/-
Specification of the mesh store: well-formedness of the raw record, the renumbering caused by a
removal, and a mesh whose lists are plain lists of rows.
-/
import Verif.MeshModel
import Verif.CsrSpec

namespace Verif

open Res

/-! ### Renumbering -/

/-- The old number of the cell that has number `j` after cell `i` was removed. -/
def oldIndex (i j : Nat) : Nat := if j < i then j else j + 1

/-- How a reference `v` to a cell has to change into `v'` when cell `i` of `n` cells is removed:
a reference to another existing cell still denotes that cell, and a reference to cell `i`, as well
as one that denoted no cell, is outside the new range. -/
def RefFollows (n i v v' : Nat) : Prop :=
  (v < n → v ≠ i → v' < n - 1 ∧ oldIndex i v' = v) ∧
  (v = i ∨ n ≤ v → n - 1 ≤ v')

/-! ### Well-formed meshes -/

/-- The map of updated cells of a dimension with `n` cells: every key occurs once, keys and values
are cells, no value set is empty or has repeated entries. -/
structure UpdOk (u : UpdMap) (n : Nat) : Prop where
  keys : (u.map Prod.fst).Nodup
  key_lt : ∀ p ∈ u, p.1 < n
  val_lt : ∀ p ∈ u, ∀ x ∈ p.2, x < n
  val_nodup : ∀ p ∈ u, p.2.Nodup
  val_ne : ∀ p ∈ u, p.2 ≠ []

namespace Mesh

variable {α : Type}

/-- Well-formedness of the raw record: every vector has the length that the number of cells
requires, every list storage and every property storage is well formed. -/
structure WF (m : Mesh α) : Prop where
  coord : m.coord.length = 3 * m.num .d0
  ext : m.ext.length = 2 * m.num .d1
  mark : ∀ d, (m.mark d).length = m.num d
  act : ∀ d, (m.act d).length = m.num d
  orig0 : m.orig .d0 = []
  orig : ∀ d, d ≠ .d0 → (m.orig d).length = m.num d
  upd : ∀ d, UpdOk (m.upd d) (m.num d)
  ids : ∀ d, (m.ids d).length = (m.props d).length
  ids_nodup : ∀ d, (m.ids d).Nodup
  props : ∀ d, ∀ c ∈ m.props d, c.WF (m.num d)
  lists : ∀ l, (m.lists l).WF (m.num l.owner)

end Mesh

/-! ### Calls within their contract -/

namespace Mesh

variable {α : Type}

/-- What the store needs and does not check: `CellXDsInitialize` is only used while the lists of that
dimension are empty, `CellXDResetNeighbour` and `CellXDInsertDoublePropertyValue` get an existing
slot. All other calls check their arguments. -/
def Guarded (m : Mesh α) : Op α → Prop
  | .init d _ => (∀ l, l.owner = d → (m.lists l).el = []) ∧ (∀ c ∈ m.props d, c.el = []) ∧
      m.upd d = []
  | .resetNeighbour l i k => ∃ s, m.rowSize l i = ok s ∧ k < s
  | .insertProp d i p k _ => ∀ s, m.propSize d i p = ok s → k < s
  | _ => True

/-- Only the first part of `Guarded`. -/
def InitGuarded (m : Mesh α) : Op α → Prop
  | .init d n => m.Guarded (.init d n)
  | _ => True

/-- Every call of the sequence satisfies `P` at the moment it is made. -/
def Along [Zero α] (P : Mesh α → Op α → Prop) (m : Mesh α) : List (Op α) → Prop
  | [] => True
  | o :: os => P m o ∧
      match m.step o with
      | ok m' => Along P m' os
      | _ => True

end Mesh

/-! ### What a removal and an append may change -/

/-- The number before the removal of cell `i` of dimension `d` of the cell of dimension `e` that has
number `j` afterwards. -/
def oldNumber (d : Dim) (i : Nat) (e : Dim) (j : Nat) : Nat :=
  if e = d then oldIndex i j else j

/-- `m'` is `m` without cell `i` of dimension `d`, as far as the getters tell that do not return
references to cells of dimension `d`. -/
structure CellRemoved {α : Type} (m m' : Mesh α) (d : Dim) (i : Nat) : Prop where
  dimension : m'.dimension = m.dimension
  num : m'.num d = m.num d - 1
  num_other : ∀ e, e ≠ d → m'.num e = m.num e
  ids : ∀ e, m'.ids e = m.ids e
  coordinates : ∀ j, j < m'.num .d0 → m'.coordinates j = m.coordinates (oldNumber d i .d0 j)
  extremes : d ≠ .d0 → ∀ j, j < m'.num .d1 → m'.extremes j = m.extremes (oldNumber d i .d1 j)
  marker : ∀ e j, j < m'.num e → m'.marker e j = m.marker e (oldNumber d i e j)
  active : ∀ e j, j < m'.num e → m'.active e j = m.active e (oldNumber d i e j)
  original : ∀ e j, e ≠ d → m'.original e j = m.original e j
  updated : ∀ e j, e ≠ d → m'.updated e j = m.updated e j
  rowSize : ∀ l j, j < m'.num l.owner → m'.rowSize l j = m.rowSize l (oldNumber d i l.owner j)
  entry : ∀ l j k, l.target ≠ d → j < m'.num l.owner →
    m'.entry l j k = m.entry l (oldNumber d i l.owner j) k
  propSize : ∀ e j p, j < m'.num e → m'.propSize e j p = m.propSize e (oldNumber d i e j) p
  propValue : ∀ e j p k, j < m'.num e → m'.propValue e j p k = m.propValue e (oldNumber d i e j) p k

/-- What the getters tell about the cells that exist in `m` is the same in `m'`. -/
structure SameOldCells {α : Type} (m m' : Mesh α) : Prop where
  dimension : m'.dimension = m.dimension
  ids : ∀ e, m'.ids e = m.ids e
  coordinates : ∀ j, j < m.num .d0 → m'.coordinates j = m.coordinates j
  extremes : ∀ j, j < m.num .d1 → m'.extremes j = m.extremes j
  marker : ∀ e j, j < m.num e → m'.marker e j = m.marker e j
  active : ∀ e j, j < m.num e → m'.active e j = m.active e j
  original : ∀ e j, j < m.num e → m'.original e j = m.original e j
  updated : ∀ e j, j < m.num e → m'.updated e j = m.updated e j
  rowSize : ∀ l j, j < m.num l.owner → m'.rowSize l j = m.rowSize l j
  entry : ∀ l j k, j < m.num l.owner → m'.entry l j k = m.entry l j k
  propSize : ∀ e j p, j < m.num e → m'.propSize e j p = m.propSize e j p
  propValue : ∀ e j p k, j < m.num e → m'.propValue e j p k = m.propValue e j p k

/-- Cell `j` of dimension `d` is blank: marker 0, inactive, no original cell, no updated cells, all
lists empty, no property values, coordinates 0. -/
structure BlankCell {α : Type} [Zero α] (m : Mesh α) (d : Dim) (j : Nat) : Prop where
  marker : m.marker d j = ok 0
  active : m.active d j = ok false
  original : d ≠ .d0 → m.original d j = ok UINT_MAX
  updated : m.updated d j = ok none
  rowSize : ∀ l, l.owner = d → m.rowSize l j = ok 0
  propSize : ∀ p, p < (m.ids d).length → m.propSize d j p = ok 0
  coordinates : d = .d0 → m.coordinates j = ok (0, 0, 0)

/-- A mesh with plain lists of rows in place of (number vector, element vector) pairs. -/
structure AMesh (α : Type) where
  dimension : Nat
  num : Dim → Nat
  coord : List α
  ext : List Nat
  mark : Dim → List Nat
  act : Dim → List Bool
  orig : Dim → List Nat
  upd : Dim → UpdMap
  ids : Dim → List String
  props : Dim → List (List (List α))
  rows : Lst → List (List Nat)

namespace AMesh

variable {α : Type}

/-- The record that stores the given rows. -/
def conc (A : AMesh α) : Mesh α where
  dimension := A.dimension
  num := A.num
  coord := A.coord
  ext := A.ext
  mark := A.mark
  act := A.act
  orig := A.orig
  upd := A.upd
  ids := A.ids
  props := fun d => (A.props d).map Csr.ofRows
  lists := fun l => Csr.ofRows (A.rows l)

/-- All lengths fit the numbers of cells. -/
structure Ok (A : AMesh α) : Prop where
  coord : A.coord.length = 3 * A.num .d0
  ext : A.ext.length = 2 * A.num .d1
  mark : ∀ d, (A.mark d).length = A.num d
  act : ∀ d, (A.act d).length = A.num d
  orig0 : A.orig .d0 = []
  orig : ∀ d, d ≠ .d0 → (A.orig d).length = A.num d
  upd : ∀ d, UpdOk (A.upd d) (A.num d)
  ids : ∀ d, (A.ids d).length = (A.props d).length
  ids_nodup : ∀ d, (A.ids d).Nodup
  props : ∀ d, ∀ c ∈ A.props d, c.length = A.num d
  rows : ∀ l, (A.rows l).length = A.num l.owner

/-- The value written over references to the removed cell: the sentinel in neighbour slots, the
new number of cells elsewhere. -/
def newRef (A : AMesh α) (l : Lst) : Nat :=
  if l.isNeighbour then UINT_MAX else A.num l.target - 1

/-- Renumbering of the entries of a list when cell `i` of dimension `d` is removed. The sub-division
lists are not renumbered by the code. -/
def renumber (A : AMesh α) (d : Dim) (i : Nat) (l : Lst) : Nat → Nat :=
  if l.target = d ∧ l ≠ .sub2 then align i (A.newRef l) else id

/-- Removal of cell `i` of dimension `d`, uniformly for all dimensions. -/
def remove (A : AMesh α) (d : Dim) (i : Nat) : AMesh α where
  dimension := A.dimension
  num := fset A.num d (A.num d - 1)
  coord := if d = .d0 then A.coord.take (3 * i) ++ A.coord.drop (3 * i + 3) else A.coord
  ext :=
    if d = .d0 then A.ext.map (align i (A.num .d0 - 1))
    else if d = .d1 then A.ext.take (2 * i) ++ A.ext.drop (2 * i + 2) else A.ext
  mark := fset A.mark d ((A.mark d).eraseIdx i)
  act := fset A.act d ((A.act d).eraseIdx i)
  orig := if d = .d0 then A.orig else
    fset A.orig d (((A.orig d).eraseIdx i).map (align i UINT_MAX))
  upd := fset A.upd d
    (alignMap ((A.upd d).filter fun p => p.1 ≠ i) i (A.num d - 1))
  ids := A.ids
  props := fset A.props d ((A.props d).map fun r => r.eraseIdx i)
  rows := fun l =>
    (if l.owner = d then (A.rows l).eraseIdx i else A.rows l).map
      (List.map (A.renumber d i l))

/-- Appending `k` blank cells of dimension `d`. -/
def append [Zero α] (A : AMesh α) (d : Dim) (k : Nat) : AMesh α where
  dimension := A.dimension
  num := fset A.num d (A.num d + k)
  coord := if d = .d0 then A.coord ++ List.replicate (3 * k) 0 else A.coord
  ext := if d = .d1 then A.ext ++ List.replicate (2 * k) 0 else A.ext
  mark := fset A.mark d (A.mark d ++ List.replicate k 0)
  act := fset A.act d (A.act d ++ List.replicate k false)
  orig := if d = .d0 then A.orig else fset A.orig d (A.orig d ++ List.replicate k UINT_MAX)
  upd := A.upd
  ids := A.ids
  props := fset A.props d ((A.props d).map fun r => r ++ List.replicate k [])
  rows := fun l => if l.owner = d then A.rows l ++ List.replicate k [] else A.rows l

end AMesh
end Verif
