import Verif.HullModel
import Verif.PointPosModel

/-
The orientation of a polygon from its convex hull and the check of its convexity
(`GeDiM/src/Geometry/GeometryUtilities_Polygon.cpp:400-443`).
-/
namespace Verif

open Res

variable {K : Type} [Field K] [LinearOrder K] [IsStrictOrderedRing K]

/-- `PolygonOrientations` (`GeDiM/src/Geometry/GeometryUtilities.hpp:60-65`), without the unknown one. -/
inductive PolygonOrient where
  | clockwise
  | counterClockwise
  deriving DecidableEq, Repr

/-- `PolygonOrientation` (`GeDiM/src/Geometry/GeometryUtilities_Polygon.cpp:428-443`). -/
def polygonOrientation (convexHull : List Nat) : Res PolygonOrient := do
  assert (2 < convexHull.length)
  match convexHull.min? with
  | none => ub
  | some m => do
      let minIndex := convexHull.idxOf m
      let next := (minIndex + 1) % convexHull.length
      let nextNext := (next + 1) % convexHull.length
      let a ← vget convexHull next
      let b ← vget convexHull nextNext
      ok (if a < b then .counterClockwise else .clockwise)

/-- The position is on the border of the polygon. -/
def PointPolygonPos.isBorder : PointPolygonPos → Bool
  | .borderEdge _ => true
  | .borderVertex _ => true
  | _ => false

/-- The loop of `PolygonIsConvex` over the given vertices
(`GeDiM/src/Geometry/GeometryUtilities_Polygon.cpp:404-413`). -/
def GeoCfg.polygonIsConvexLoop (g : GeoCfg K) (sqrt : K → K) (convexHull : List (V3 K)) : List (V3 K) → Res Bool
  | [] => ok true
  | v :: rest => do
      let position ← g.pointPolygonPosition sqrt v convexHull
      if position.isBorder then g.polygonIsConvexLoop sqrt convexHull rest else ok false

/-- `PolygonIsConvex` (`GeDiM/src/Geometry/GeometryUtilities_Polygon.cpp:400-414`). -/
def GeoCfg.polygonIsConvex (g : GeoCfg K) (sqrt : K → K) (polygonVertices convexHull : List (V3 K)) : Res Bool := do
  let flat ← g.pointsAre2D polygonVertices
  assert (flat = true ∧ 2 < polygonVertices.length)
  g.polygonIsConvexLoop sqrt convexHull polygonVertices

end Verif
