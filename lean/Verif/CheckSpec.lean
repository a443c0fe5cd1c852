import Verif.CheckModel
import Verif.MeshSpec
import Verif.EarSpec

/-
What a correct mesh in the plane is, in terms of what the mesh reports.
-/
namespace Verif

open Res

variable {K : Type} [Field K] [LinearOrder K] [IsStrictOrderedRing K]

/-- There are vertices, and they are in the plane `z = 0`, up to the tolerance. -/
def Planar (g : GeoCfg K) (m : Mesh K) : Prop :=
  0 < m.num .d0 ∧ ∀ i p, m.point i = ok p → |p.z| ≤ g.tolerance1D

/-- Different vertices are different points. -/
def VerticesApart (g : GeoCfg K) (sqrt : K → K) (m : Mesh K) : Prop :=
  ∀ i j p q, i ≠ j → m.point i = ok p → m.point j = ok q → g.tol1D < sqrt (dist2 p q)

/-- The edge `e` joins the vertices `x` and `y`. -/
def Joins {α : Type} (m : Mesh α) (e x y : Nat) : Prop := m.extremes e = ok (x, y) ∨ m.extremes e = ok (y, x)

/-- Every edge joins two different vertices, and no other edge joins them. -/
def EdgesUnique {α : Type} (m : Mesh α) : Prop :=
  ∀ e x y, m.extremes e = ok (x, y) → x < m.num .d0 ∧ y < m.num .d0 ∧ x ≠ y ∧ ∀ f, Joins m f x y → f = e

/-- Every edge has slots for neighbours, and the polygons in the slots have the edge. -/
def NeighboursHaveEdge {α : Type} (m : Mesh α) : Prop :=
  ∀ e r, m.row .nb12 e = ok r → r ≠ [] ∧
    ∀ t ∈ r, t < m.num .d2 → ∃ es, m.row .edge2 t = ok es ∧ e ∈ es

/-- The ends of every edge are different points. -/
def EdgesLong (g : GeoCfg K) (sqrt : K → K) (m : Mesh K) : Prop :=
  ∀ e x y, m.extremes e = ok (x, y) →
    ∃ p q, m.point x = ok p ∧ m.point y = ok q ∧ g.tol1D < sqrt (dist2 p q)

/-- The polygon `p` has different edges, and the edge at each position joins the vertex at this position and the
next one; after the last edge comes the first vertex. There are at least as many vertices as edges. -/
structure SidesJoin {α : Type} (m : Mesh α) (p : Nat) (vs es : List Nat) : Prop where
  vertices : m.row .vert2 p = ok vs
  edges : m.row .edge2 p = ok es
  nodup : es.Nodup
  le : es.length ≤ vs.length
  sides : ∀ k e, es[k]? = some e →
    ∃ x y, vs[k]? = some x ∧ vs[(k + 1) % es.length]? = some y ∧ Joins m e x y

/-- As many edges as vertices in each polygon. -/
def CountsAgree {α : Type} (m : Mesh α) : Prop :=
  ∀ p vs es, m.row .vert2 p = ok vs → m.row .edge2 p = ok es → vs.length = es.length

/-- The edges of every polygon go round the polygon. -/
def PolygonsClosed {α : Type} (m : Mesh α) : Prop := ∀ p, p < m.num .d2 → ∃ vs es, SidesJoin m p vs es

/-- No two polygons have the same vertices, or the same edges. -/
def PolygonsDiffer {α : Type} (m : Mesh α) : Prop :=
  ∀ p q vs vs' es es', p ≠ q → m.row .vert2 p = ok vs → m.row .vert2 q = ok vs' → m.row .edge2 p = ok es →
    m.row .edge2 q = ok es' → ¬ vs.Perm vs' ∧ ¬ es.Perm es'

/-- The vertices of the polygon `p` are the points `ps`. -/
def CornersAre (m : Mesh K) (p : Nat) (ps : List (V3 K)) : Prop :=
  ∃ vs, m.row .vert2 p = ok vs ∧ List.Forall₂ (fun v q => m.point v = ok q) vs ps

/-- Twice the area of a polygon, positive if it runs counter clockwise. -/
def shoelace (ps : List (V3 K)) : K :=
  ((ps.zip (ps.rotate 1)).map fun e => e.1.x * e.2.y - e.2.x * e.1.y).sum

/-- Every polygon has at least three vertices in the plane and a positive area. -/
def AreasPositive (g : GeoCfg K) (tol2D : K) (m : Mesh K) : Prop :=
  ∀ p, p < m.num .d2 → ∃ ps, CornersAre m p ps ∧ 2 < ps.length ∧ (∀ q ∈ ps, |q.z| ≤ g.tolerance1D) ∧
    max |tol2D| g.minTolerance < shoelace ps / 2

/-- The points `us` are the points of the polygon `ps` that are not aligned with the points before and after
them. -/
def IsUnaligned (g : GeoCfg K) (sqrt : K → K) (ps us : List (V3 K)) : Prop :=
  ∃ ids : List Nat, ids.Pairwise (· < ·) ∧ IsSelection ps ids us ∧
    ∀ i, i ∈ ids ↔ ∃ a b c, ps[(i + ps.length - 1) % ps.length]? = some a ∧ ps[i]? = some b ∧
      ps[(i + 1) % ps.length]? = some c ∧ g.pointIsAligned sqrt a b c = false

/-- The points are different points of the plane, not all on one line, which the tolerances tell apart. -/
structure ProperPoints (g : GeoCfg K) (sqrt : K → K) (us : List (V3 K)) : Prop where
  resolved : HullResolved g sqrt us
  lines : LinesResolved g us
  flat : ∀ q ∈ us, q.z = 0
  nodup : us.Nodup
  notAligned : NotAligned us

/-- Every polygon is convex and runs counter clockwise, after the removal of aligned vertices, and has vertices that
the tolerances tell apart. -/
def PolygonsConvex (g : GeoCfg K) (sqrt : K → K) (m : Mesh K) : Prop :=
  ∀ p, p < m.num .d2 → ∃ ps us, CornersAre m p ps ∧ 2 < ps.length ∧ IsUnaligned g sqrt ps us ∧
    ProperPoints g sqrt us ∧ WeaklyConvex us

/-- Every polygon has at least three vertices, and those that are not aligned are points that the tolerances tell
apart. -/
def CellsProper (g : GeoCfg K) (sqrt : K → K) (m : Mesh K) : Prop :=
  ∀ p, p < m.num .d2 → ∃ ps us, CornersAre m p ps ∧ 2 < ps.length ∧ IsUnaligned g sqrt ps us ∧
    ProperPoints g sqrt us

/-- No vertex of a polygon is in the interior of the convex hull of the polygon. -/
def NoVertexInside (g : GeoCfg K) (sqrt : K → K) (m : Mesh K) : Prop :=
  ∀ p ps us, CornersAre m p ps → IsUnaligned g sqrt ps us → ∀ q ∈ us, ¬ StrictlyInside us q

/-- The call comes back with a value or stops at an assertion. -/
def Answers {β : Type} (r : Res β) : Prop := (∃ a, r = ok a) ∨ r = abort

/-- The check of a mesh in the plane: every test that is switched on is passed. -/
structure Correct2D (g : GeoCfg K) (sqrt : K → K) (tol2D : K) (cfg : CheckCfg) (m : Mesh K) : Prop where
  dimension : m.dimension = 2
  planar : cfg.cell0DCoordinates2D = true → Planar g m
  apart : cfg.cell0DDuplications = true → VerticesApart g sqrt m
  unique : cfg.cell1DDuplications = true → EdgesUnique m
  neighbours : cfg.cell1DNeighbours = true → NeighboursHaveEdge m
  long : cfg.cell1DMeasure = true → EdgesLong g sqrt m
  closed : cfg.cell2DEdges = true → PolygonsClosed m
  differ : cfg.cell2DDuplications = true → PolygonsDiffer m
  inside : cfg.cell2DConvexity = true → CellsProper g sqrt m → NoVertexInside g sqrt m
  areas : cfg.cell2DMeasure = true → AreasPositive g tol2D m

end Verif
