import Verif.ExtractModel
import Verif.FillSpec

/-
What it means that a mesh is the restriction of another mesh to some of its cells.
-/
namespace Verif

open Res

/-- The lists of a cell that an extraction keeps. -/
def Lst.isKept : Lst → Bool
  | .vert2 | .edge2 | .vert3 | .edge3 | .face3 => true
  | _ => false

/-- `o` sends the `i`-th element of `f` to `i`, and every other number below `n` to the sentinel. -/
structure InverseOf (f : List Nat) (n : Nat) (o : List Nat) : Prop where
  length : o.length = n
  selected : ∀ i x : Nat, f[i]? = some x → o[x]? = some i
  others : ∀ x : Nat, x < n → x ∉ f → o[x]? = some UINT_MAX

namespace Mesh

variable {α : Type}

/-- The selected cells exist, without repetitions and fewer than the sentinel, and name existing cells;
selected polygons have as many vertices as edges. -/
structure ValidFilter (m : Mesh α) (f : Dim → List Nat) : Prop where
  nodup : ∀ d, (f d).Nodup
  range : ∀ d, ∀ x ∈ f d, x < m.num d
  small : ∀ d, (f d).length ≤ UINT_MAX
  extremes : ∀ x ∈ f .d1, ∀ a b, m.extremes x = ok (a, b) → a < m.num .d0 ∧ b < m.num .d0
  rows : ∀ l : Lst, l.isKept = true → ∀ x ∈ f l.owner, ∀ r, m.row l x = ok r → ∀ y ∈ r, y < m.num l.target
  sizes : ∀ x ∈ f .d2, ∀ r r', m.row .vert2 x = ok r → m.row .edge2 x = ok r' → r.length = r'.length

/-- Together with a cell all cells that it names are selected. -/
structure ClosedFilter (m : Mesh α) (f : Dim → List Nat) : Prop where
  extremes : ∀ x ∈ f .d1, ∀ a b, m.extremes x = ok (a, b) → a ∈ f .d0 ∧ b ∈ f .d0
  rows : ∀ l : Lst, l.isKept = true → ∀ x ∈ f l.owner, ∀ r, m.row l x = ok r → ∀ y ∈ r, y ∈ f l.target

/-- `m'` has the selected cells of `m`: cell `i` of `m'` is the `i`-th selected cell, with the same
coordinates, and with extremes, vertices, edges and faces that are the selected cells in question. -/
structure Extracted (m : Mesh α) (f : Dim → List Nat) (m' : Mesh α) : Prop where
  num : ∀ d, m'.num d = (f d).length
  coordinates : ∀ i x : Nat, (f .d0)[i]? = some x → m'.coordinates i = m.coordinates x
  extremes : ∀ i x : Nat, (f .d1)[i]? = some x → ∃ a b a' b', m.extremes x = ok (a, b) ∧
    m'.extremes i = ok (a', b') ∧ (f .d0)[a']? = some a ∧ (f .d0)[b']? = some b
  rows : ∀ l : Lst, l.isKept = true → ∀ i x : Nat, (f l.owner)[i]? = some x → ∃ r r', m.row l x = ok r ∧
    m'.row l i = ok r' ∧ r'.map (fun y => (f l.target)[y]?) = r.map some
  plain : m'.Plain

/-- The selected cells keep their markers. -/
def SameMarkers (m : Mesh α) (f : Dim → List Nat) (m' : Mesh α) : Prop :=
  ∀ d (i x : Nat), (f d)[i]? = some x → m'.marker d i = m.marker d x

/-- The selected cells keep their states. -/
def SameStates (m : Mesh α) (f : Dim → List Nat) (m' : Mesh α) : Prop :=
  ∀ d (i x : Nat), (f d)[i]? = some x → m'.active d i = m.active d x

/-- Both maps that an extraction returns. -/
def MapsOf (m : Mesh α) (f : CellLists) (d : CellMaps) (dims : List Dim) : Prop :=
  d.newToOld = f ∧ ∀ e ∈ dims, InverseOf (f.cells e) (m.num e) (d.oldToNew.cells e)

/-- Every polygon names existing cells, has as many edges as vertices, and the extremes of its edges are
among its vertices. -/
structure Nested2 (m : Mesh α) : Prop where
  range : ∀ c, c < m.num .d2 → ∀ r s, m.row .vert2 c = ok r → m.row .edge2 c = ok s →
    r.length = s.length ∧ (∀ v ∈ r, v < m.num .d0) ∧ ∀ e ∈ s, e < m.num .d1
  extremes : ∀ c, c < m.num .d2 → ∀ r s, m.row .vert2 c = ok r → m.row .edge2 c = ok s →
    ∀ e ∈ s, ∀ a b, m.extremes e = ok (a, b) → a ∈ r ∧ b ∈ r

/-- Every polyhedron names existing cells, the extremes of its edges are among its vertices, and the
vertices and edges of its faces are among its vertices and edges. -/
structure Nested3 (m : Mesh α) : Prop where
  range : ∀ c, c < m.num .d3 → ∀ r s t, m.row .vert3 c = ok r → m.row .edge3 c = ok s →
    m.row .face3 c = ok t →
    (∀ v ∈ r, v < m.num .d0) ∧ (∀ e ∈ s, e < m.num .d1) ∧ ∀ g ∈ t, g < m.num .d2
  sizes : ∀ g, g < m.num .d2 → ∀ r s, m.row .vert2 g = ok r → m.row .edge2 g = ok s → r.length = s.length
  extremes : ∀ c, c < m.num .d3 → ∀ r s, m.row .vert3 c = ok r → m.row .edge3 c = ok s →
    ∀ e ∈ s, ∀ a b, m.extremes e = ok (a, b) → a ∈ r ∧ b ∈ r
  faces : ∀ c, c < m.num .d3 → ∀ r s t, m.row .vert3 c = ok r → m.row .edge3 c = ok s →
    m.row .face3 c = ok t → ∀ g ∈ t, ∀ r' s', m.row .vert2 g = ok r' → m.row .edge2 g = ok s' →
    (∀ v ∈ r', v ∈ r) ∧ ∀ e ∈ s', e ∈ s

/-- A strictly increasing list of the numbers with a property. -/
def Lists (s : List Nat) (p : Nat → Prop) : Prop := s.Pairwise (· < ·) ∧ ∀ x, x ∈ s ↔ p x

/-- The active cells among the given ones, in the given order. -/
def IsActiveAmong (m : Mesh α) (d : Dim) (cells res : List Nat) : Prop :=
  ∃ keep : Nat → Bool, (∀ c ∈ cells, m.active d c = ok (keep c)) ∧ res = cells.filter keep

/-- The entries of one list of the given cells. -/
def Names (m : Mesh α) (l : Lst) (cells : List Nat) (x : Nat) : Prop :=
  ∃ c ∈ cells, ∃ r, m.row l c = ok r ∧ x ∈ r

end Mesh
end Verif
