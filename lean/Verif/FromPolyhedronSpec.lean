import Verif.FromPolyhedronModel
import Verif.FromPolygonSpec

/-
The mesh of one polyhedron, and a polyhedron of a mesh as a polyhedron of its own.
-/
namespace Verif

open Res

variable {K : Type}

/-- The mesh has the points, edges and faces that are given and one polyhedron with all of them. All cells are active, nothing has
neighbours. -/
structure PolyhedronMesh (ps : List (V3 K)) (es : List (Nat × Nat)) (fs : List (List (Nat × Nat))) (vm em fm : List Nat) (m : Mesh K) :
    Prop where
  wf : m.WF
  dimension : m.dimension = 3
  points : m.ReportsPoints ps
  edges : m.ReportsEdges es
  polygons : m.ReportsPolygons (fs.map (·.map Prod.fst)) (fs.map (·.map Prod.snd))
  polyhedra : m.ReportsPolyhedra [⟨List.range ps.length, List.range es.length, List.range fs.length⟩]
  active : m.AllActive
  vertexMarkers : ∀ v, v < ps.length → ∃ k, m.marker .d0 v = ok k ∧ IsMarker vm ps.length v (v + 1) k
  edgeMarkers : ∀ e, e < es.length → ∃ k, m.marker .d1 e = ok k ∧ IsMarker em es.length e (ps.length + e + 1) k
  faceMarkers : ∀ f, f < fs.length → ∃ k, m.marker .d2 f = ok k ∧ IsMarker fm fs.length f (ps.length + es.length + f + 1) k
  cellMarker : m.marker .d3 0 = ok 0
  plain : m.Plain

/-- Polyhedron `c` of the mesh has all ends of its edges and all vertices and edges of its faces, and its indices are those of cells. -/
structure CellComplete (m : Mesh K) (c : Nat) (vs es fs : List Nat) : Prop where
  vertices : m.row .vert3 c = ok vs
  edges : m.row .edge3 c = ok es
  faces : m.row .face3 c = ok fs
  points : ∀ v ∈ vs, v < m.num .d0
  ends : ∀ e ∈ es, ∃ x, m.extremes e = ok x ∧ x.1 ∈ vs ∧ x.2 ∈ vs
  sides : ∀ f ∈ fs, ∃ us ds, m.row .vert2 f = ok us ∧ m.row .edge2 f = ok ds ∧ ds.length = us.length ∧ (∀ v ∈ us, v ∈ vs) ∧
    ∀ e ∈ ds, e ∈ es

/-- `P` is the polyhedron with vertices `vs`, edges `es` and faces `fs` of the mesh: vertex `i` of `P` is at the point of `vs[i]`, edge `i`
joins the local vertices of the ends of `es[i]`, and column `j` of face `i` is for vertex `j` and edge `j` of `fs[i]`. -/
structure IsLocal (m : Mesh K) (vs es fs : List Nat) (P : LocalPolyhedron K) : Prop where
  vertices : P.vertices.length = vs.length
  edges : P.edges.length = es.length
  faces : P.faces.length = fs.length
  vertex : ∀ (i : Nat) v p, vs[i]? = some v → P.vertices[i]? = some p → m.coordinates v = ok (p.x, p.y, p.z)
  edge : ∀ (i : Nat) e x, es[i]? = some e → P.edges[i]? = some x →
    ∃ a b, m.extremes e = ok (a, b) ∧ vs[x.1]? = some a ∧ vs[x.2]? = some b
  face : ∀ (i : Nat) f cols, fs[i]? = some f → P.faces[i]? = some cols → ∃ us ds, m.row .vert2 f = ok us ∧ m.row .edge2 f = ok ds ∧
    cols.length = us.length ∧ ∀ (j : Nat) x, cols[j]? = some x → ∃ v e, us[j]? = some v ∧ vs[x.1]? = some v ∧ ds[j]? = some e ∧
      es[x.2]? = some e

end Verif
