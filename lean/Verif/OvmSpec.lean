import Verif.OvmModel
import Verif.FillSpec

/-
What a mesh and its OVM mesh have in common.
-/
namespace Verif

open Res

variable {K : Type}

/-- The indices in the polygons and polyhedra are those of cells, a polygon has as many edges as vertices, and there is an orientation for every face of
every polyhedron. -/
structure OvmReady (m : Mesh K) (orientation : List (List Bool)) : Prop where
  faces : ∀ f vs es, m.row .vert2 f = ok vs → m.row .edge2 f = ok es →
    es.length = vs.length ∧ (∀ v ∈ vs, v < m.num .d0) ∧ ∀ e ∈ es, e < m.num .d1
  solids : ∀ c fs, m.row .face3 c = ok fs → ∀ f ∈ fs, f < m.num .d2
  orientations : orientation.length = m.num .d3
  orientation : ∀ c fs o, m.row .face3 c = ok fs → orientation[c]? = some o → o.length = fs.length

/-- Edge `i` of a polygon has vertex `i` of the polygon as one of its ends. -/
def SidesMeet (m : Mesh K) : Prop :=
  ∀ f vs es (i : Nat) v e x, m.row .vert2 f = ok vs → m.row .edge2 f = ok es → vs[i]? = some v → es[i]? = some e →
    m.extremes e = ok x → x.1 = v ∨ x.2 = v

/-- The half edges, half faces and numbers of an OVM mesh fit together: the two half edges of an edge are opposite to each other, the
half edge of a column of a polygon begins at its vertex, and the even half faces are those with the orientation of the polygon. -/
structure OvmMesh.Consistent (o : OvmMesh K) : Prop where
  num0 : o.num0 = o.points.length
  num1 : 2 * o.num1 = o.halfEdges.length
  num2 : o.num2 = o.faces.length
  num3 : o.num3 = o.solids.length
  opposite : ∀ e a b, o.halfEdges[2 * e]? = some (a, b) → o.halfEdges[2 * e + 1]? = some (b, a)
  begins : ∀ face ∈ o.faces, ∀ x ∈ face, ∃ b, o.halfEdges[x.2]? = some (x.1, b)
  orientation : ∀ s ∈ o.solids, s.2 = s.1.map fun h => decide (h % 2 = 0)

/-- The two meshes have the same vertices, edges and polygons, and polyhedra with the same faces; the vertices and edges of a polyhedron
of `m'` are those of its faces, each one time. All cells of `m'` are active and have no marker. -/
structure OvmSame (m m' : Mesh K) : Prop where
  wf : m'.WF
  dimension : m'.dimension = 3
  num : ∀ d, m'.num d = m.num d
  points : ∀ i, i < m.num .d0 → m'.coordinates i = m.coordinates i
  edges : ∀ e, e < m.num .d1 → m'.extremes e = m.extremes e
  polygons : ∀ f, f < m.num .d2 → m'.row .vert2 f = m.row .vert2 f ∧ m'.row .edge2 f = m.row .edge2 f
  solids : ∀ c, c < m.num .d3 → m'.row .face3 c = m.row .face3 c
  vertices : ∀ c fs, m.row .face3 c = ok fs → ∃ r, m'.row .vert3 c = ok r ∧ r.Nodup ∧
    ∀ v, v ∈ r ↔ ∃ f ∈ fs, ∃ vs, m.row .vert2 f = ok vs ∧ v ∈ vs
  sides : ∀ c fs, m.row .face3 c = ok fs → ∃ r, m'.row .edge3 c = ok r ∧ r.Nodup ∧
    ∀ e, e ∈ r ↔ ∃ f ∈ fs, ∃ es, m.row .edge2 f = ok es ∧ e ∈ es
  active : m'.AllActive
  unmarked : ∀ d, m'.Unmarked d
  plain : m'.Plain

end Verif
