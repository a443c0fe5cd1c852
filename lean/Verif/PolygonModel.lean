import Verif.GeomModel
import Verif.MeshModel

/-
Polygons: `GeDiM/src/Geometry/GeometryUtilities_Polygon.cpp` and the inline functions of
`GeometryUtilities.hpp` used there. A polygon is the list of the columns of the matrix of its
vertices. `double` is an arbitrary ordered field; the square root is a parameter.
-/
namespace Verif

open Res

variable {K : Type} [Field K] [LinearOrder K] [IsStrictOrderedRing K]

/-- `PointsAre2D` (`GeDiM/src/Geometry/GeometryUtilities.hpp:1058-1062`). `isZero(prec)` of Eigen
compares each entry with `prec`; the configured value is used, not `Tolerance1D()`. -/
def GeoCfg.pointsAre2D (g : GeoCfg K) (points : List (V3 K)) : Res Bool := do
  assert (0 < points.length)
  ok (points.all fun p => decide (|p.z| ≤ g.tolerance1D))

/-- Eigen `normalized`: a vector whose squared norm is not positive is returned unchanged. -/
def V3.normalized (sqrt : K → K) (v : V3 K) : V3 K :=
  if 0 < v.dot v then V3.smul (1 / sqrt (v.dot v)) v else v

/-- Eigen `norm`. -/
def V3.norm (sqrt : K → K) (v : V3 K) : K := sqrt (v.dot v)

/-- Eigen `dot` of two vectors of equal size. -/
def dotL (a b : List K) : K := (List.zipWith (· * ·) a b).sum

/-- `PolygonArea` (`GeDiM/src/Geometry/GeometryUtilities_Polygon.cpp:1354-1367`). -/
def GeoCfg.polygonArea (g : GeoCfg K) (vs : List (V3 K)) : Res K := do
  let flat ← g.pointsAre2D vs
  assert (flat = true ∧ 2 < vs.length)
  let v0 ← vget vs 0
  let xPoints := vs.map V3.x ++ [v0.x]
  let yPoints := vs.map V3.y ++ [v0.y]
  let n := vs.length
  ok (1 / 2 * (dotL (xPoints.take n) ((yPoints.drop 1).take n) -
    dotL ((xPoints.drop 1).take n) (yPoints.take n)))

/-- `PolygonArea3D` (`GeDiM/src/Geometry/GeometryUtilities_Polygon.cpp:1369-1382`). -/
def polygonArea3D (sqrt : K → K) (vs : List (V3 K)) : Res K := do
  assert (2 < vs.length)
  let s ← foldRes (fun (s : V3 K) v => do
    let a ← vget vs v
    let b ← vget vs ((v + 1) % vs.length)
    ok (s.add (a.cross b))) V3.zero (List.range vs.length)
  ok (1 / 2 * s.norm sqrt)

/-- `PolygonNormal` (`GeDiM/src/Geometry/GeometryUtilities_Polygon.cpp:62-79`). The index
`(i - 1) % numVertices` is computed with unsigned numbers of 32 bits. -/
def polygonNormal (sqrt : K → K) (vs : List (V3 K)) : Res (V3 K) := do
  assert (2 < vs.length)
  let s ← foldRes (fun (s : V3 K) i => do
    let next ← vget vs ((i + 1) % vs.length)
    let here ← vget vs i
    let prev ← vget vs (usub i 1 % vs.length)
    ok (s.add ((next.sub here).cross (prev.sub here)))) V3.zero (List.range vs.length)
  ok (s.normalized sqrt)

/-- `PolygonCentroid` (`GeDiM/src/Geometry/GeometryUtilities_Polygon.cpp:152-173`). The division by
an area of zero is not meaningful; the theorems exclude it. -/
def GeoCfg.polygonCentroid (g : GeoCfg K) (vs : List (V3 K)) (area : K) : Res (V3 K) := do
  let flat ← g.pointsAre2D vs
  assert (flat = true ∧ 2 < vs.length)
  let s ← foldRes (fun (s : V3 K) v => do
    let a ← vget vs v
    let b ← vget vs ((v + 1) % vs.length)
    ok (⟨s.x + (a.x + b.x) * (a.x * b.y - b.x * a.y),
         s.y + (a.y + b.y) * (a.x * b.y - b.x * a.y), s.z⟩ : V3 K))
    V3.zero (List.range vs.length)
  ok ⟨s.x / (6 * area), s.y / (6 * area), s.z / (6 * area)⟩

/-- `ChangePolygonOrientation` (`GeDiM/src/Geometry/GeometryUtilities.hpp:1857-1864`). -/
def changePolygonOrientation (n : Nat) : Res (List Nat) := do
  let l ← vset (List.replicate n 0) 0 0
  foldRes (fun l i => vset l i (n - i)) l (List.range' 1 (n - 1))

/-- `ExtractPoints`: the columns with the given indices
(`GeDiM/src/Geometry/GeometryUtilities.cpp:322-329`). -/
def extractPoints {α : Type} (points : List α) (filter : List Nat) : Res (List α) :=
  match filter with
  | [] => ok []
  | i :: is => do
      let p ← vget points i
      let ps ← extractPoints points is
      ok (p :: ps)

/-- `ExtractTriangulationPoints` (`GeDiM/src/Geometry/GeometryUtilities.cpp:331-346`): the corners
of each triangle. -/
def extractTriangulationPoints {α : Type} (points : List α) (l : List Nat) :
    Res (List (α × α × α)) :=
  mapRes (fun t => do
    let i ← vget l (3 * t)
    let a ← vget points i
    let j ← vget l (3 * t + 1)
    let b ← vget points j
    let k ← vget l (3 * t + 2)
    let c ← vget points k
    ok (a, b, c)) (List.range (l.length / 3))

/-- `ExtractTriangulationPointsByInternalPoint`
(`GeDiM/src/Geometry/GeometryUtilities.cpp:348-364`). -/
def extractTriangulationPointsByInternalPoint {α : Type} (points : List α) (internal : α)
    (l : List Nat) : Res (List (α × α × α)) :=
  mapRes (fun t => do
    let j ← vget l (3 * t + 1)
    let b ← vget points j
    let k ← vget l (3 * t + 2)
    let c ← vget points k
    ok (internal, b, c)) (List.range (l.length / 3))

/-- `PointIsAligned` through `PointsAreAligned` and `PointsAreOnLine`
(`GeDiM/src/Geometry/GeometryUtilities.hpp:1941-1965`,
`GeometryUtilities_Point.cpp:655-671`). -/
def GeoCfg.pointIsAligned (g : GeoCfg K) (sqrt : K → K) (origin end_ point : V3 K) : Bool :=
  let t := (end_.sub origin).normalized sqrt
  let s := (point.sub origin).normalized sqrt
  g.isValueZero ((t.cross s).norm sqrt) g.tol1D

/-- The loop of `PolygonTriangulationByFirstVertex` from `v` on; the fuel is the number of rounds
the loop has left. -/
def GeoCfg.fanLoop (g : GeoCfg K) (sqrt : K → K) (vs : List (V3 K)) :
    List Nat → List Nat → Res (List Nat)
  | [], acc => ok acc
  | v :: rest, acc => do
      let next := (v + 1) % vs.length
      let nextNext := (v + 2) % vs.length
      if nextNext = 0 then ok acc
      else do
        let a ← vget vs 0
        let b ← vget vs next
        let c ← vget vs nextNext
        if g.pointIsAligned sqrt a b c then g.fanLoop sqrt vs rest acc
        else g.fanLoop sqrt vs rest (acc ++ [0, next, nextNext])

/-- `PolygonTriangulationByFirstVertex`
(`GeDiM/src/Geometry/GeometryUtilities_Polygon.cpp:445-473`). -/
def GeoCfg.triangulationByFirstVertex (g : GeoCfg K) (sqrt : K → K) (vs : List (V3 K)) :
    Res (List Nat) := do
  assert (2 < vs.length)
  let l ← g.fanLoop sqrt vs (List.range vs.length) []
  assert (l.length % 3 = 0)
  ok l

/-- `PolygonTriangulationByInternalPoint`
(`GeDiM/src/Geometry/GeometryUtilities_Polygon.cpp:569-588`). -/
def triangulationByInternalPoint (vs : List (V3 K)) : Res (List Nat) := do
  assert (2 < vs.length)
  let n := vs.length
  foldRes (fun l v => do
    let l ← vset l (3 * v) n
    let l ← vset l (3 * v + 1) v
    vset l (3 * v + 2) ((v + 1) % n)) (List.replicate (3 * n) 0) (List.range n)

end Verif
