import Verif.PointPosSpec
import Verif.PointPosModel
import Verif.CheckSpec

/-!
# Spec of the search for a point in a mesh
-/

namespace Verif
open Res

variable {K : Type} [Field K] [LinearOrder K] [IsStrictOrderedRing K]

/-- `p` is in the closed polygon that runs counter clockwise through `vs`: it is right of no edge. -/
def InPolygon (vs : List (V3 K)) (p : V3 K) : Prop := ∀ v a b, IsEdge vs v a b → 0 ≤ area2 a b p

/-- `p` is strictly between `a` and `b`. -/
def InSegment (a b p : V3 K) : Prop := ∃ t, 0 < t ∧ t < 1 ∧ p = pointAt a b t

/-- Where `p` is with respect to the polygon. -/
def IsAt (vs : List (V3 K)) (p : V3 K) : PointPolygonPos → Prop
  | .outside => ∃ v a b, IsEdge vs v a b ∧ area2 a b p < 0
  | .borderEdge i => ∃ a b, IsEdge vs i a b ∧ InSegment a b p
  | .borderVertex i => vs[i]? = some p
  | .inside => ∀ v a b, IsEdge vs v a b → 0 < area2 a b p

/-- The tolerances tell where `p` is with respect to the lines and the ends of the edges: what is on the line of an edge
or at one of its ends up to the tolerance is there. -/
def GeoCfg.PointClear (g : GeoCfg K) (vs : List (V3 K)) (p : V3 K) : Prop :=
  ∀ v a b, IsEdge vs v a b → g.OnLine a b p → area2 a b p = 0 ∧
    (|coordOn a b p| ≤ g.tol1D → coordOn a b p = 0) ∧ (|coordOn a b p - 1| ≤ g.tol1D → coordOn a b p = 1)

/-- `p` is in the relative interior of the cell of the mesh: it is the vertex, or between the ends of the edge, or
strictly left of all edges of the polygon. -/
def InCell (m : Mesh K) (p : V3 K) : Dim × Nat → Prop
  | (.d0, v) => m.point v = ok p
  | (.d1, e) => ∃ x y a b, m.extremes e = ok (x, y) ∧ m.point x = ok a ∧ m.point y = ok b ∧ InSegment a b p
  | (.d2, c) => ∃ vs, CornersAre m c vs ∧ ∀ v a b, IsEdge vs v a b → 0 < area2 a b p
  | (.d3, _) => False

/-- The relative interiors of the cells of the mesh have no common points. -/
def CellsDisjoint (m : Mesh K) : Prop := ∀ p c c', InCell m p c → InCell m p c' → c = c'

end Verif
