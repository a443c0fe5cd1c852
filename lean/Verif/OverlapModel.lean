import Verif.GeomModel

/-
The test whether two triangles in the plane intersect
(`GeDiM/src/Geometry/GeometryUtilities_Polygon.cpp`). `double` is an arbitrary ordered field.
-/
namespace Verif

variable {K : Type} [Field K] [LinearOrder K] [IsStrictOrderedRing K]

/-- The columns of a matrix with three columns. -/
abbrev Tri (K : Type) := Fin 3 → V3 K

/-- The lambda `det_2D` (`GeDiM/src/Geometry/GeometryUtilities_Polygon.cpp:29-31`). -/
def det2D (p1 p2 p3 : V3 K) : K :=
  p1.x * (p2.y - p3.y) + p2.x * (p3.y - p1.y) + p3.x * (p1.y - p2.y)

/-- The lambda `check_overlap` (`GeDiM/src/Geometry/GeometryUtilities_Polygon.cpp:33-36`). -/
def GeoCfg.checkOverlap (g : GeoCfg K) (admitBoundary : Bool) (p1 p2 p3 : V3 K) : Bool :=
  if admitBoundary then !g.isValueGreaterOrEqual (det2D p1 p2 p3) 0 g.tol1D
  else !g.isValueGreater (det2D p1 p2 p3) 0 g.tol1D

/-- One of the two loops of `CheckTrianglesIntersection`: an edge of `s` has all of `t` on its outer side
(`GeDiM/src/Geometry/GeometryUtilities_Polygon.cpp:38-46` and `48-56`). -/
def GeoCfg.edgeSeparates (g : GeoCfg K) (admitBoundary : Bool) (s t : Tri K) : Bool :=
  (List.finRange 3).any fun i =>
    let j := i + 1
    g.checkOverlap admitBoundary (s i) (s j) (t 0) && g.checkOverlap admitBoundary (s i) (s j) (t 1) &&
      g.checkOverlap admitBoundary (s i) (s j) (t 2)

/-- `CheckTrianglesIntersection` (`GeDiM/src/Geometry/GeometryUtilities_Polygon.cpp:25-59`). The columns of
both matrices are assumed to have three entries. -/
def GeoCfg.checkTrianglesIntersection (g : GeoCfg K) (one two : Tri K) (admitBoundary : Bool) : Bool :=
  if g.edgeSeparates admitBoundary one two then false
  else if g.edgeSeparates admitBoundary two one then false
  else true

end Verif
