import Verif.FillSpec

/-
The mesh of one polygon.
-/
namespace Verif

open Res

variable {K : Type}

/-- The vertex after `v` in a polygon with `n` vertices. -/
def nextIn (n v : Nat) : Nat := if v + 1 = n then 0 else v + 1

/-- The marker of cell `i`: the given one if there are as many as cells, else the number that counts the vertices and
then the edges from 1. -/
def IsMarker (ms : List Nat) (n i d k : Nat) : Prop :=
  (ms.length = n → ms[i]? = some k) ∧ (ms.length ≠ n → k = d)

/-- The mesh has the points of the polygon, one edge from each vertex to the next and one polygon with the vertices
and edges in this order. All cells are active. The polygon is in the second slot of the neighbours of each edge,
the first slot is free. Nothing else is stored. -/
structure PolygonMesh (ps : List (V3 K)) (vm em : List Nat) (m : Mesh K) : Prop where
  wf : m.WF
  dimension : m.dimension = 2
  points : m.ReportsPoints ps
  edges : m.ReportsEdges ((List.range ps.length).map fun e => (e, nextIn ps.length e))
  polygons : m.ReportsPolygons [List.range ps.length] [List.range ps.length]
  polyhedra : m.num .d3 = 0
  active : m.AllActive
  vertexMarkers : ∀ v, v < ps.length → ∃ k, m.marker .d0 v = ok k ∧ IsMarker vm ps.length v (v + 1) k
  edgeMarkers : ∀ e, e < ps.length → ∃ k, m.marker .d1 e = ok k ∧
    IsMarker em ps.length e (ps.length + e + 1) k
  cellMarker : m.marker .d2 0 = ok 0
  neighbours : ∀ e, e < ps.length → m.row .nb12 e = ok [UINT_MAX, 0]
  others : ∀ l : Lst, l.isNeighbour = true ∨ l = .sub2 → l ≠ .nb12 → ∀ i, i < m.num l.owner → m.row l i = ok []
  original : ∀ d i, d ≠ .d0 → i < m.num d → m.original d i = ok UINT_MAX
  updated : ∀ d i, i < m.num d → m.updated d i = ok none
  properties : ∀ d, m.ids d = []

end Verif
