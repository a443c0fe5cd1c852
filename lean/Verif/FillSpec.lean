import Verif.MeshSpec
import Verif.FillModel

/-
What it means that a mesh stores the cells it was given.
-/
namespace Verif

open Res

namespace Mesh

variable {α : Type}

/-- The points of the mesh are the given ones, in order. -/
def ReportsPoints (m : Mesh α) (ps : List (V3 α)) : Prop :=
  m.num .d0 = ps.length ∧ ∀ i p, ps[i]? = some p → m.coordinates i = ok (p.x, p.y, p.z)

/-- The edges of the mesh are the given ones, in order. -/
def ReportsEdges (m : Mesh α) (es : List (Nat × Nat)) : Prop :=
  m.num .d1 = es.length ∧ ∀ i e, es[i]? = some e → m.extremes i = ok e

/-- The polygons of the mesh are the given ones, in order. -/
def ReportsPolygons (m : Mesh α) (vs es : List (List Nat)) : Prop :=
  m.num .d2 = vs.length ∧ m.num .d2 = es.length ∧
    (∀ i r, vs[i]? = some r → m.row .vert2 i = ok r) ∧ ∀ i r, es[i]? = some r → m.row .edge2 i = ok r

/-- The polyhedra of the mesh are the given ones, in order. -/
def ReportsPolyhedra (m : Mesh α) (cs : List Polyhedron) : Prop :=
  m.num .d3 = cs.length ∧ ∀ i c, cs[i]? = some c →
    m.row .vert3 i = ok c.verts ∧ m.row .edge3 i = ok c.edges ∧ m.row .face3 i = ok c.faces

/-- Every cell is active. -/
def AllActive (m : Mesh α) : Prop := ∀ d i, i < m.num d → m.active d i = ok true

/-- Every cell of dimension `d` has marker 0. -/
def Unmarked (m : Mesh α) (d : Dim) : Prop := ∀ i, i < m.num d → m.marker d i = ok 0

/-- No cell has neighbours, sub-divisions, properties, an original cell or updated cells. -/
structure Plain (m : Mesh α) : Prop where
  neighbours : ∀ l : Lst, l.isNeighbour = true ∨ l = .sub2 → ∀ i, i < m.num l.owner → m.row l i = ok []
  original : ∀ d i, d ≠ .d0 → i < m.num d → m.original d i = ok UINT_MAX
  updated : ∀ d i, i < m.num d → m.updated d i = ok none
  properties : ∀ d, m.ids d = []

end Mesh

/-- Edges that connect existing points. -/
def EdgesInRange (n : Nat) (es : List (Nat × Nat)) : Prop := ∀ e ∈ es, e.1 < n ∧ e.2 < n

/-- Lists of indices below a bound. -/
def RowsInRange (n : Nat) (rs : List (List Nat)) : Prop := ∀ r ∈ rs, ∀ x ∈ r, x < n

instance (n : Nat) (es : List (Nat × Nat)) : Decidable (EdgesInRange n es) := by
  unfold EdgesInRange; infer_instance

instance (n : Nat) (rs : List (List Nat)) : Decidable (RowsInRange n rs) := by
  unfold RowsInRange; infer_instance

end Verif
