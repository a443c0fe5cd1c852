import Verif.OffModel
import Verif.FillSpec
import Verif.EdgeSpec

/-
The format OFF, and what a mesh and its file have in common.
-/
namespace Verif

open Res

variable {K : Type}

/-- The numbers of an OFF mesh are those of its vertices and polygons. -/
def OffMesh.Consistent (o : OffMesh K) : Prop := o.num0 = o.points.length ∧ o.num2 = o.faces.length

/-- The line of a vertex. -/
def pointLine (p : V3 K) : List (OffWord K) := [.num p.x, .num p.y, .num p.z]

/-- The line of a polygon: the number of its vertices and the vertices. -/
def faceLine (f : List Nat) : List (OffWord K) := .nat f.length :: f.map .nat

/-- The text of an OFF mesh: a first line, the numbers of vertices, polygons and edges, the vertices and the polygons; more lines may
follow. -/
def IsOffText (o : OffMesh K) (lines : List (List (OffWord K))) : Prop :=
  ∃ first rest, lines = first :: [.nat o.num0, .nat o.num2, .nat o.num1] :: (o.points.map pointLine ++ o.faces.map faceLine ++ rest)

/-- The polygons of the mesh have vertices of the mesh, and no vertex twice in a row. -/
def GoodPolygons (m : Mesh K) : Prop :=
  ∀ c r, m.row .vert2 c = ok r → (∀ v ∈ r, v < m.num .d0) ∧ ∀ a, ¬ Side r a a

/-- The mesh `m'` has the vertices and polygons of `m`, all of them active and without marker, and its edges are the sides of the
polygons, each one time, from the vertex with the smaller number to the other one. -/
structure SameShape (m m' : Mesh K) : Prop where
  wf : m'.WF
  dimension : m'.dimension = 2
  points : m'.num .d0 = m.num .d0 ∧ ∀ i, i < m.num .d0 → m'.coordinates i = m.coordinates i
  polygons : m'.num .d2 = m.num .d2 ∧ ∀ c, c < m.num .d2 → m'.row .vert2 c = m.row .vert2 c
  solids : m'.num .d3 = 0
  edge : ∀ e, e < m'.num .d1 → ∃ a b, m'.extremes e = ok (a, b) ∧ a < b ∧
    ∃ c r, m.row .vert2 c = ok r ∧ (Side r a b ∨ Side r b a)
  once : ∀ e e' x, m'.extremes e = ok x → m'.extremes e' = ok x → e = e'
  sides : ∀ c r, m.row .vert2 c = ok r → ∃ es, m'.row .edge2 c = ok es ∧ es.length = r.length ∧
    ∀ (v : Nat) a b, r[v]? = some a → r[(v + 1) % r.length]? = some b →
      ∃ e, es[v]? = some e ∧ m'.extremes e = ok (min a b, max a b)
  active : m'.AllActive
  unmarked : ∀ d, m'.Unmarked d
  plain : m'.Plain

end Verif
