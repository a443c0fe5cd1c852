import Verif.SolidModel

/-
What it means that the data of a polyhedron fit together.
-/
namespace Verif

/-- The pair `e` joins `a` and `b`. -/
def JoinsPair (e : Nat × Nat) (a b : Nat) : Prop := e = (a, b) ∨ e = (b, a)

/-- A face of a polyhedron with the given edges: position `i` has a vertex and an edge which joins it with the vertex
of the next position, cyclically. -/
def FaceOk (numVertices : Nat) (edges : List (Nat × Nat)) (face : List (Nat × Nat)) : Prop :=
  ∀ i c c', face[i]? = some c → face[(i + 1) % face.length]? = some c' →
    c.1 < numVertices ∧ ∃ e, edges[c.2]? = some e ∧ JoinsPair e c.1 c'.1

/-- Edges join different vertices of the polyhedron, and no two edges the same ones. -/
def EdgesOk (numVertices : Nat) (edges : List (Nat × Nat)) : Prop :=
  (∀ e ∈ edges, e.1 < numVertices ∧ e.2 < numVertices ∧ e.1 ≠ e.2) ∧
    edges.Pairwise fun e e' => ¬ JoinsPair e e'.1 e'.2

/-- The faces and edges of the polyhedron fit together. -/
structure Solid.Consistent {K : Type} (s : Solid K) : Prop where
  edges : EdgesOk s.vertices.length s.edges
  faces : ∀ face ∈ s.faces, FaceOk s.vertices.length s.edges face

/-- Number of times edge `e` is the side of a face. -/
def Solid.sides {K : Type} (s : Solid K) (e : Nat) : Nat := s.faces.flatten.countP fun c => decide (c.2 = e)

/-- Each edge is the side of two faces. -/
def Solid.Closed {K : Type} (s : Solid K) : Prop := ∀ e, e < s.edges.length → s.sides e = 2

/-- Number of sides of the facets that join `a` and `b`. -/
def facetSides (facets : List (List Nat)) (a b : Nat) : Nat :=
  (facets.map fun f => (List.range f.length).countP fun v =>
    decide (f[v]? = some a ∧ f[(v + 1) % f.length]? = some b ∨ f[v]? = some b ∧ f[(v + 1) % f.length]? = some a)).sum

/-- No facet has the same identifier at two consecutive positions. -/
def NoLoops (facets : List (List Nat)) : Prop :=
  ∀ f ∈ facets, ∀ v x y, f[v]? = some x → f[(v + 1) % f.length]? = some y → x ≠ y

/-- The identifiers of the facets are 0, 1, 2, … in the order of their first appearance. -/
def Numbered (facets : List (List Nat)) : Prop :=
  ∀ k ∈ facets.flatten, ∀ j, j < k → j ∈ facets.flatten ∧ facets.flatten.idxOf j < facets.flatten.idxOf k

end Verif
