import Verif.PolygonModel
import Verif.MapModel

/-
Integrals over polygons: `GeDiM/src/Geometry/GeometryUtilities_Polygon.cpp:92-358,1384-1495` and the
inline functions of `GeometryUtilities.hpp` used there. A matrix with three rows is the list of its
columns. `double` is an arbitrary ordered field; the square root is a parameter.
-/
namespace Verif

open Res

variable {K : Type} [Field K]

/-- `SegmentLength` (`GeDiM/src/Geometry/GeometryUtilities.hpp:1164-1167`). -/
def segmentLength (sqrt : K → K) (a b : V3 K) : K := (b.sub a).norm sqrt

/-- `SegmentTangent` (`GeDiM/src/Geometry/GeometryUtilities.hpp:1172-1175`). -/
def segmentTangent (a b : V3 K) : V3 K := b.sub a

/-- `SegmentBarycenter`, the mean of the two columns
(`GeDiM/src/Geometry/GeometryUtilities.hpp:1682-1686,1703-1706`). -/
def segmentBarycenter (a b : V3 K) : V3 K :=
  ⟨(a.x + b.x) / 2, (a.y + b.y) / 2, (a.z + b.z) / 2⟩

/-- `PolygonBarycenter` of a triangle (`GeDiM/src/Geometry/GeometryUtilities.hpp:1710-1714`). -/
def triangleBarycenter (t : V3 K × V3 K × V3 K) : V3 K :=
  ⟨(t.1.x + t.2.1.x + t.2.2.x) / 3, (t.1.y + t.2.1.y + t.2.2.y) / 3,
    (t.1.z + t.2.1.z + t.2.2.z) / 3⟩

/-- The entry of a loop over the edges `v`, `(v + 1) % numVertices` of a polygon. -/
def atEdge {α : Type} (f : V3 K → V3 K → Res α) (vs : List (V3 K)) (v : Nat) : Res α := do
  let a ← vget vs v
  let b ← vget vs ((v + 1) % vs.length)
  f a b

/-- `PolygonEdgesCentroid` (`GeDiM/src/Geometry/GeometryUtilities_Polygon.cpp:92-105`). -/
def polygonEdgesCentroid (vs : List (V3 K)) : Res (List (V3 K)) := do
  assert (2 < vs.length)
  mapRes (atEdge (fun a b => ok (segmentBarycenter a b)) vs) (List.range vs.length)

/-- `PolygonEdgeLengths` (`GeDiM/src/Geometry/GeometryUtilities_Polygon.cpp:107-120`). -/
def polygonEdgeLengths (sqrt : K → K) (vs : List (V3 K)) : Res (List K) := do
  assert (2 < vs.length)
  mapRes (atEdge (fun a b => ok (segmentLength sqrt a b)) vs) (List.range vs.length)

/-- `PolygonEdgeTangents` (`GeDiM/src/Geometry/GeometryUtilities_Polygon.cpp:122-135`). -/
def polygonEdgeTangents (vs : List (V3 K)) : Res (List (V3 K)) := do
  assert (2 < vs.length)
  mapRes (atEdge (fun a b => ok (segmentTangent a b)) vs) (List.range vs.length)

variable [LinearOrder K] [IsStrictOrderedRing K]

/-- `SegmentNormal` (`GeDiM/src/Geometry/GeometryUtilities.hpp:1181-1186`). -/
def GeoCfg.segmentNormal (g : GeoCfg K) (sqrt : K → K) (a b : V3 K) : Res (V3 K) := do
  let fa ← g.pointsAre2D [a]
  let fb ← g.pointsAre2D [b]
  assert (fa = true ∧ fb = true)
  let t := (segmentTangent a b).normalized sqrt
  ok ⟨t.y, -t.x, 0⟩

/-- `PolygonEdgeNormals` (`GeDiM/src/Geometry/GeometryUtilities_Polygon.cpp:137-150`). -/
def GeoCfg.polygonEdgeNormals (g : GeoCfg K) (sqrt : K → K) (vs : List (V3 K)) :
    Res (List (V3 K)) := do
  let flat ← g.pointsAre2D vs
  assert (flat = true ∧ 2 < vs.length)
  mapRes (atEdge (g.segmentNormal sqrt) vs) (List.range vs.length)

/-- The quadrature points of one edge and the weights times the normal, per column
(`GeDiM/src/Geometry/GeometryUtilities_Polygon.cpp:197-210,303-314`). -/
def edgeQuadrature (vs : List (V3 K)) (lengths : List K) (tangents normals : List (V3 K))
    (points weights : List K) (e : Nat) : Res (List (V3 K × V3 K)) := do
  let v ← vget vs e
  let l ← vget lengths e
  let t ← vget tangents e
  let n ← vget normals e
  ok (List.zipWith (fun q w => (v.add (V3.smul q t), V3.smul (|l| * w) n)) points weights)

/-- The quadrature of the boundary: the columns of the edges one after the other
(`GeDiM/src/Geometry/GeometryUtilities_Polygon.cpp:191-210,297-314`). The code writes the columns of
edge `e` at positions `e * numReferenceQuadraturePoints + q` of matrices of the right size. -/
def boundaryQuadrature (vs : List (V3 K)) (lengths : List K) (tangents normals : List (V3 K))
    (points weights : List K) : Res (List (V3 K × V3 K)) := do
  let qs ← mapRes (edgeQuadrature vs lengths tangents normals points weights) (List.range vs.length)
  ok qs.flatten

/-- `PolygonAreaByBoundaryIntegral`
(`GeDiM/src/Geometry/GeometryUtilities_Polygon.cpp:175-212`). Of the reference points only the first
coordinate is used. -/
def polygonAreaByBoundaryIntegral (vs : List (V3 K)) (lengths : List K)
    (tangents normals : List (V3 K)) (points : List (V3 K)) (weights : List K) : Res K := do
  assert (2 < vs.length)
  assert (lengths.length = vs.length)
  assert (tangents.length = vs.length)
  assert (normals.length = vs.length)
  assert (points.length = weights.length)
  let qs ← boundaryQuadrature vs lengths tangents normals (points.map V3.x) weights
  ok (qs.map fun q => q.1.x * q.2.x).sum

/-- The reference points and weights that `PolygonAreaByBoundaryIntegral` takes when none are given
(`GeDiM/src/Geometry/GeometryUtilities.hpp:1758-1759`). -/
def midRule : List (V3 K) × List K := ([⟨1 / 2, 0, 0⟩], [1])

/-- Product of two vectors entry by entry; different sizes are a failure inside Eigen. -/
def mulEntries (a b : List K) : Res (List K) :=
  if a.length = b.length then ok (List.zipWith (· * ·) a b) else ub

/-- `DetJ(mapData, x)` of `MapTriangle` (`GeDiM/src/Geometry/MapTriangle.hpp:90-93`): one entry per column of `x`. -/
def AffMap.detPerColumn (m : AffMap K) (columns : Nat) : List K := List.replicate columns m.det

/-- `PolygonAreaByInternalIntegral` (`GeDiM/src/Geometry/GeometryUtilities_Polygon.cpp:214-236`). The weights are
passed to `DetJ` in place of the points: as a matrix they have one column, whatever their number. -/
def polygonAreaByInternalIntegral (ts : List (V3 K × V3 K × V3 K)) (weights : List K) : Res K := do
  let ws ← mapRes (fun (t : V3 K × V3 K × V3 K) =>
    mulEntries weights (((mapTriangle t.1 t.2.1 t.2.2).detPerColumn 1).map fun d => |d|)) ts
  ok ws.flatten.sum

/-- The reference weights that `PolygonAreaByInternalIntegral` takes when none are given
(`GeDiM/src/Geometry/GeometryUtilities.hpp:1766`). -/
def halfRule : List K := [1 / 2]

/-- First point of the rule on the segment
(`GeDiM/src/Geometry/GeometryUtilities_Polygon.cpp:292`). -/
def gaussFirst : K := 21132486540518713 / 100000000000000000

/-- Second point of the rule on the segment
(`GeDiM/src/Geometry/GeometryUtilities_Polygon.cpp:292`). -/
def gaussSecond : K := 78867513459481287 / 100000000000000000

/-- `PolygonCentroidByIntegral` (`GeDiM/src/Geometry/GeometryUtilities_Polygon.cpp:280-323`). -/
def polygonCentroidByIntegral (vs : List (V3 K)) (lengths : List K) (tangents normals : List (V3 K))
    (area : K) : Res (V3 K) := do
  assert (2 < vs.length)
  assert (lengths.length = vs.length)
  assert (tangents.length = vs.length)
  assert (normals.length = vs.length)
  let qs ← boundaryQuadrature vs lengths tangents normals [gaussFirst, gaussSecond] [1 / 2, 1 / 2]
  ok ⟨(qs.map fun q => q.1.x * q.2.x * q.1.x).sum * (1 / 2 / area),
      (qs.map fun q => q.1.y * q.2.y * q.1.y).sum * (1 / 2 / area), 0⟩

/-- `PolygonCentroid` of a polygon divided in parts
(`GeDiM/src/Geometry/GeometryUtilities.hpp:1734-1742`). -/
def centroidOfParts (centroids : List (V3 K)) (areas : List K) (area : K) : Res (V3 K) := do
  assert (0 < centroids.length ∧ centroids.length = areas.length)
  ok ⟨dotL (centroids.map V3.x) areas / area, dotL (centroids.map V3.y) areas / area,
      dotL (centroids.map V3.z) areas / area⟩

/-- The decimal number close to 2/3 (`GeDiM/src/Geometry/GeometryUtilities_Polygon.cpp:1389`). -/
def twoThirds : K := 6666666666666666297 / 10000000000000000000

/-- The decimal number close to 1/6 (`GeDiM/src/Geometry/GeometryUtilities_Polygon.cpp:1390`). -/
def oneSixth : K := 1666666666666666574 / 10000000000000000000

/-- Reference quadrature points of the triangle
(`GeDiM/src/Geometry/GeometryUtilities_Polygon.cpp:1387-1394,1443-1450`). -/
def massPoints : List (V3 K) :=
  [⟨twoThirds, oneSixth, 0⟩, ⟨oneSixth, twoThirds, 0⟩, ⟨oneSixth, oneSixth, 0⟩]

/-- The quadrature points and weights of all triangles
(`GeDiM/src/Geometry/GeometryUtilities_Polygon.cpp:1400-1422,1456-1478`). -/
def triangleQuadrature (ts : List (V3 K × V3 K × V3 K)) : List (V3 K × K) :=
  ts.flatMap fun t => massPoints.map fun p =>
    ((mapTriangle t.1 t.2.1 t.2.2).F p, oneSixth * |(mapTriangle t.1 t.2.1 t.2.2).det|)

/-- `PolygonMass` (`GeDiM/src/Geometry/GeometryUtilities_Polygon.cpp:1384-1437`): the two rows. -/
def polygonMass (c : V3 K) (ts : List (V3 K × V3 K × V3 K)) : (K × K) × (K × K) :=
  let qs := triangleQuadrature ts
  let m00 := (qs.map fun q => (q.1.x - c.x) ^ 2 * q.2).sum
  let m11 := (qs.map fun q => (q.1.y - c.y) ^ 2 * q.2).sum
  let m01 := (qs.map fun q => (q.1.x - c.x) * (q.1.y - c.y) * q.2).sum
  ((m00, m01), (m01, m11))

/-- `PolygonInertia` (`GeDiM/src/Geometry/GeometryUtilities_Polygon.cpp:1439-1495`). -/
def polygonInertia (c : V3 K) (ts : List (V3 K × V3 K × V3 K)) : M3 K :=
  let qs := triangleQuadrature ts
  let m00 := (qs.map fun q => (q.1.y - c.y) ^ 2 * q.2).sum
  let m11 := (qs.map fun q => (q.1.x - c.x) ^ 2 * q.2).sum
  let m01 := -(qs.map fun q => (q.1.x - c.x) * (q.1.y - c.y) * q.2).sum
  ⟨m00, m01, 0, m01, m11, 0, 0, 0, 0⟩

/-- `PointLineDistance` (`GeDiM/src/Geometry/GeometryUtilities.hpp:1044-1047`). The division by the
norm of a vanishing normal is not meaningful; the theorems exclude it. -/
def pointLineDistance (sqrt : K → K) (p origin n : V3 K) : K :=
  |n.dot (p.sub origin)| / n.norm sqrt

/-- One entry of `PolygonCentroidEdgesDistance`. -/
def centroidEdgeDistance (sqrt : K → K) (vs : List (V3 K)) (c : V3 K) (normals : List (V3 K))
    (e : Nat) : Res K := do
  let v ← vget vs e
  let n ← vget normals e
  ok (pointLineDistance sqrt c v n)

/-- `PolygonCentroidEdgesDistance`
(`GeDiM/src/Geometry/GeometryUtilities_Polygon.cpp:325-341`). -/
def polygonCentroidEdgesDistance (sqrt : K → K) (vs : List (V3 K)) (c : V3 K)
    (normals : List (V3 K)) : Res (List K) := do
  assert (2 < vs.length)
  mapRes (centroidEdgeDistance sqrt vs c normals) (List.range vs.length)

/-- `PolygonCentroidVerticesDistance`
(`GeDiM/src/Geometry/GeometryUtilities_Polygon.cpp:343-358`). -/
def polygonCentroidVerticesDistance (sqrt : K → K) (vs : List (V3 K)) (c : V3 K) :
    Res (List K) := do
  assert (2 < vs.length)
  mapRes (fun v => do
    let p ← vget vs v
    ok ((p.sub c).norm sqrt)) (List.range vs.length)

/-- Eigen `minCoeff`: an assertion of Eigen fails on an empty vector. -/
def minCoeff : List K → Res K
  | [] => ub
  | a :: l => ok (l.foldl min a)

/-- `PolygonInRadius` (`GeDiM/src/Geometry/GeometryUtilities.hpp:1797-1800`). -/
def polygonInRadius (distances : List K) : Res K := minCoeff distances

end Verif
