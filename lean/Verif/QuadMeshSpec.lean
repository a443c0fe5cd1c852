import Verif.NeighSpec
import Verif.BisectModel
import Verif.CheckSpec

/-
The quadrilaterals of a triangulation: each triangle is cut into three by the lines from its barycenter to the middles of
its sides.
-/
namespace Verif

open Res

variable {K : Type} [Field K]

/-- The edge `e` joins `a` and `b`. -/
def JoinedBy (t : Mesh K) (e a b : Nat) : Prop := t.extremes e = ok (a, b) ∨ t.extremes e = ok (b, a)

/-- The cell `c` is a triangle with the corners `a`, `b`, `d` and the sides `e` from `a` to `b`, `f` and `g`. -/
structure TriangleAt (t : Mesh K) (c a b d e f g : Nat) : Prop where
  corners : t.row .vert2 c = ok [a, b, d]
  sides : t.row .edge2 c = ok [e, f, g]
  different : a ≠ b ∧ b ≠ d ∧ d ≠ a
  first : JoinedBy t e a b
  second : JoinedBy t f b d
  third : JoinedBy t g d a

/-- All polygons of `t` are triangles; all edges join vertices. -/
structure IsTriangulation (t : Mesh K) : Prop where
  wf : t.WF
  edges : ∀ e < t.num .d1, ∃ a b, t.extremes e = ok (a, b) ∧ a < t.num .d0 ∧ b < t.num .d0
  cells : ∀ c < t.num .d2, ∃ a b d e f g, TriangleAt t c a b d e f g

/-- `m` consists of the quadrilaterals of the triangulation `t`. The vertices are those of `t`, the middles of its edges and
the barycenters of its triangles; the edges are the halves of the edges of `t` and the lines from barycenters to middles. -/
structure QuadsOf (t m : Mesh K) : Prop where
  wf : m.WF
  dim : m.dimension = 2
  points : m.num .d0 = t.num .d0 + t.num .d1 + t.num .d2
  lines : m.num .d1 = 2 * t.num .d1 + 3 * t.num .d2
  quads : m.num .d2 = 3 * t.num .d2
  solids : m.num .d3 = 0
  /-- the vertices of `t` -/
  corners : ∀ v < t.num .d0, m.coordinates v = t.coordinates v ∧ m.marker .d0 v = t.marker .d0 v ∧ m.active .d0 v = ok true
  /-- the middles of the edges of `t` -/
  middles : ∀ e a b p q, t.extremes e = ok (a, b) → t.point a = ok p → t.point b = ok q →
    m.coordinates (t.num .d0 + e) = ok ((p.x + q.x) / 2, (p.y + q.y) / 2, (p.z + q.z) / 2) ∧
    m.marker .d0 (t.num .d0 + e) = t.marker .d1 e ∧ m.active .d0 (t.num .d0 + e) = ok true
  /-- the halves of the edges of `t` -/
  halves : ∀ e a b, t.extremes e = ok (a, b) →
    (m.extremes (2 * e) = ok (a, t.num .d0 + e) ∧ m.marker .d1 (2 * e) = t.marker .d1 e ∧ m.active .d1 (2 * e) = ok true) ∧
    m.extremes (2 * e + 1) = ok (t.num .d0 + e, b) ∧ m.marker .d1 (2 * e + 1) = t.marker .d1 e ∧
      m.active .d1 (2 * e + 1) = ok true
  /-- the barycenters -/
  centers : ∀ c a b d p q r, t.row .vert2 c = ok [a, b, d] → t.point a = ok p → t.point b = ok q → t.point d = ok r →
    m.coordinates (t.num .d0 + t.num .d1 + c) =
      ok ((p.x + q.x + r.x) / 3, (p.y + q.y + r.y) / 3, (p.z + q.z + r.z) / 3) ∧
    m.marker .d0 (t.num .d0 + t.num .d1 + c) = ok 0 ∧ m.active .d0 (t.num .d0 + t.num .d1 + c) = ok true
  /-- the lines from the barycenters to the middles of the sides -/
  spokes : ∀ (c i e : Nat) es, t.row .edge2 c = ok es → es[i]? = some e →
    m.extremes (2 * t.num .d1 + 3 * c + i) = ok (t.num .d0 + e, t.num .d0 + t.num .d1 + c) ∧
    m.marker .d1 (2 * t.num .d1 + 3 * c + i) = ok 0 ∧ m.active .d1 (2 * t.num .d1 + 3 * c + i) = ok true
  /-- the quadrilateral at the corner `v` of the triangle `c`, between the sides `e'` and `e` -/
  cells : ∀ (c i v e e' : Nat) vs es, t.row .vert2 c = ok vs → t.row .edge2 c = ok es → vs[i]? = some v → es[i]? = some e →
    es[(i + 2) % 3]? = some e' →
    m.row .vert2 (3 * c + i) = ok [v, t.num .d0 + e, t.num .d0 + t.num .d1 + c, t.num .d0 + e'] ∧
    m.marker .d2 (3 * c + i) = ok 0 ∧ m.active .d2 (3 * c + i) = ok true ∧
    ∃ h h', m.row .edge2 (3 * c + i) =
        ok [h, 2 * t.num .d1 + 3 * c + i, 2 * t.num .d1 + 3 * c + (i + 2) % 3, h'] ∧
      (h = 2 * e ∨ h = 2 * e + 1) ∧ (h' = 2 * e' ∨ h' = 2 * e' + 1)
  /-- in each quadrilateral the edges join the vertices one after the other -/
  closed : PolygonsOk m

end Verif
