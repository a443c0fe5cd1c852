import Verif.IntersectModel
import Verif.MapModel

/-
Position of a point with respect to a segment, a polygon, a polyhedron and a tetrahedron, and some
queries on sets of points: `GeDiM/src/Geometry/GeometryUtilities_Point.cpp`. `double` is an arbitrary
ordered field; the square root is a parameter. Where the code divides zero by zero the model
returns what the comparisons give for the value "not a number".
-/
namespace Verif

open Res

variable {K : Type} [Field K] [LinearOrder K] [IsStrictOrderedRing K]

/-- `PointSegmentPosition(point, segmentOrigin, segmentEnd)`
(`GeDiM/src/Geometry/GeometryUtilities_Point.cpp:110-138`). For a segment of length zero the coordinate
is not a number, and all comparisons in `PointSegmentPosition(curvilinearCoordinate)` fail but the
last one. -/
def GeoCfg.pointSegmentSide (g : GeoCfg K) (sqrt : K → K) (point origin end_ : V3 K) :
    Res PointSegmentPos := do
  let t := (end_.sub origin).normalized sqrt
  let d := (point.sub origin).normalized sqrt
  let sq := (point.sub origin).dot (point.sub origin)
  let c := d.cross t
  if g.isValueZero sq g.tol1DSquared || g.isValueZero (c.dot c) g.tol1DSquared then
    if (end_.sub origin).dot (end_.sub origin) = 0 then ok .onSegmentLineAfterEnd
    else g.pointSegmentPosition (curvilinear point origin end_)
  else do
    assert (g.isValueZero t.z g.tol1D = true ∧ g.isValueZero d.z g.tol1D = true)
    if g.isValuePositive (d.dot ⟨t.y, -t.x, 0⟩) g.tol1DSquared then ok .rightTheSegment
    else ok .leftTheSegment

/-- `PointPolygonPositionResult` (`GeDiM/src/Geometry/GeometryUtilities.hpp`), with the index of the
border. -/
inductive PointPolygonPos where
  | outside
  | borderEdge (i : Nat)
  | borderVertex (i : Nat)
  | inside
  deriving DecidableEq, Repr

/-- The loop of `PointPolygonPosition` over the given edges. -/
def GeoCfg.pointPolygonLoop (g : GeoCfg K) (sqrt : K → K) (point : V3 K) (vs : List (V3 K)) :
    List Nat → Res PointPolygonPos
  | [] => ok .inside
  | v :: rest => do
      let a ← vget vs v
      let b ← vget vs ((v + 1) % vs.length)
      match ← g.pointSegmentSide sqrt point a b with
      | .rightTheSegment => ok .outside
      | .leftTheSegment => g.pointPolygonLoop sqrt point vs rest
      | .insideSegment => ok (.borderEdge v)
      | .onSegmentOrigin => ok (.borderVertex v)
      | .onSegmentEnd => ok (.borderVertex ((v + 1) % vs.length))
      | .onSegmentLineBeforeOrigin => g.pointPolygonLoop sqrt point vs rest
      | .onSegmentLineAfterEnd => g.pointPolygonLoop sqrt point vs rest

/-- `PointPolygonPosition` (`GeDiM/src/Geometry/GeometryUtilities_Point.cpp:253-300`). -/
def GeoCfg.pointPolygonPosition (g : GeoCfg K) (sqrt : K → K) (point : V3 K) (vs : List (V3 K)) :
    Res PointPolygonPos := do
  let flat ← g.pointsAre2D [point]
  assert (2 < vs.length ∧ flat = true)
  g.pointPolygonLoop sqrt point vs (List.range vs.length)

/-- What one edge of the polygon does in `PointPolygonPosition_RayCasting`: end the search with a
position on the border, or add a number of intersections. -/
inductive RayStep where
  | stop (p : PointPolygonPos)
  | count (n : Nat)
  deriving DecidableEq

/-- The body of the loop of `PointPolygonPosition_RayCasting` for the edge from `a` to `b`, whose
vertices have the numbers `v` and `w`
(`GeDiM/src/Geometry/GeometryUtilities_Point.cpp:313-423`). -/
def GeoCfg.rayStep (g : GeoCfg K) (point a b : V3 K) (v w : Nat) : Res RayStep := do
  let t := b.sub a
  if g.isValueZero t.y g.tol1D then
    if g.isValueZero (point.y - a.y) g.tol1D then
      let pos ← if t.dot t = 0 then ok .onSegmentLineAfterEnd
        else g.pointSegmentPosition (curvilinear point a b)
      match pos with
      | .onSegmentLineBeforeOrigin => ok (.count 0)
      | .onSegmentLineAfterEnd => ok (.count 0)
      | .onSegmentOrigin => ok (.stop (.borderVertex v))
      | .insideSegment => ok (.stop (.borderEdge v))
      | .onSegmentEnd => ok (.stop (.borderVertex w))
      | _ => throw
    else ok (.count 0)
  else do
    let s := (point.y - a.y) / t.y
    let edgePos ← g.pointSegmentPosition s
    match edgePos with
    | .onSegmentLineBeforeOrigin => ok (.count 0)
    | .onSegmentLineAfterEnd => ok (.count 0)
    | .rightTheSegment => throw
    | .leftTheSegment => throw
    | _ => do
      let x := a.x + s * t.x
      let pos ← g.pointSegmentPosition (x - point.x)
      match pos with
      | .onSegmentLineBeforeOrigin => ok (.count 0)
      | .onSegmentOrigin =>
          if edgePos = .onSegmentOrigin then ok (.stop (.borderVertex v))
          else if edgePos = .onSegmentEnd then ok (.stop (.borderVertex w))
          else ok (.stop (.borderEdge v))
      | .rightTheSegment => throw
      | .leftTheSegment => throw
      | _ =>
          if edgePos = .onSegmentOrigin then
            ok (.count (if g.isValueGreater point.y b.y g.tol1D then 1 else 0))
          else if edgePos = .onSegmentEnd then
            ok (.count (if g.isValueGreater point.y a.y g.tol1D then 1 else 0))
          else ok (.count 1)

/-- The loop of `PointPolygonPosition_RayCasting` over the given edges with the number of
intersections so far. -/
def GeoCfg.rayLoop (g : GeoCfg K) (point : V3 K) (vs : List (V3 K)) :
    List Nat → Nat → Res PointPolygonPos
  | [], n => ok (if n % 2 = 1 then .inside else .outside)
  | v :: rest, n => do
      let a ← vget vs v
      let b ← vget vs ((v + 1) % vs.length)
      match ← g.rayStep point a b v ((v + 1) % vs.length) with
      | .stop p => ok p
      | .count k => g.rayLoop point vs rest (n + k)

/-- `PointPolygonPosition_RayCasting`
(`GeDiM/src/Geometry/GeometryUtilities_Point.cpp:302-430`). -/
def GeoCfg.pointPolygonRayCasting (g : GeoCfg K) (point : V3 K) (vs : List (V3 K)) :
    Res PointPolygonPos := do
  let flat ← g.pointsAre2D [point]
  assert (2 < vs.length ∧ flat = true)
  g.rayLoop point vs (List.range vs.length) 0

/-- `PointPlanePosition(PointPlaneDistance(point, planeNormal, planeOrigin))`
(`GeDiM/src/Geometry/GeometryUtilities_Point.cpp:169-189`); 1 is `Positive`. A normal of length zero
gives the distance "not a number", which counts as positive. -/
def GeoCfg.pointPlane (g : GeoCfg K) (sqrt : K → K) (point normal origin : V3 K) : Int :=
  let pod := point.sub origin
  if g.isValueZero (pod.norm sqrt) g.tol1D then g.pointPlanePosition 0
  else if normal.dot normal = 0 then 1
  else g.pointPlanePosition (normal.dot pod / normal.norm sqrt)

/-- A face of a polyhedron as the functions get it: the vertices and edges
(`polyhedronFaces[f]`, two rows), the vertices in space and in the plane, the normal, its
direction, the translation and the rotation. -/
structure PolyhedronFace (K : Type) where
  border : List (Nat × Nat)
  vertices3D : List (V3 K)
  vertices2D : List (V3 K)
  normal : V3 K
  outgoing : Bool
  translation : V3 K
  rotation : M3 K

/-- `RotatePointsFrom3DTo2D` of one point with the transposed rotation
(`GeDiM/src/Geometry/GeometryUtilities.hpp:1919-1928`). -/
def rotateTo2D (rotation : M3 K) (translation point : V3 K) : V3 K :=
  let q := point.sub translation
  ⟨rotation.col0.dot q, rotation.col1.dot q, 0⟩

/-- `PointPolyhedronPositionResult` (`GeDiM/src/Geometry/GeometryUtilities.hpp`), without the internal
indices. -/
inductive PointPolyhedronPos where
  | outside
  | borderFace (i : Nat)
  | borderEdge (i : Nat)
  | borderVertex (i : Nat)
  | inside
  deriving DecidableEq, Repr

/-- The outgoing normal of a face. -/
def PolyhedronFace.out (f : PolyhedronFace K) : V3 K :=
  V3.smul (if f.outgoing then 1 else -1) f.normal

/-- The loop of `PointPolyhedronPosition` over the faces; `i` is the number of the first one, `neg`
the number of negative positions so far. -/
def GeoCfg.pointPolyhedronLoop (g : GeoCfg K) (sqrt : K → K) (point : V3 K) :
    List (PolyhedronFace K) → Nat → Nat → Res (Sum Nat PointPolyhedronPos)
  | [], _, neg => ok (.inl neg)
  | f :: rest, i, neg => do
      let o ← vget f.vertices3D 0
      let position := g.pointPlane sqrt point f.out o
      if position = 1 then g.pointPolyhedronLoop sqrt point rest (i + 1) neg
      else if position = -1 then g.pointPolyhedronLoop sqrt point rest (i + 1) (neg + 1)
      else do
        match ← g.pointPolygonPosition sqrt (rotateTo2D f.rotation f.translation point)
            f.vertices2D with
        | .borderVertex b => do let e ← vget f.border b; ok (.inr (.borderVertex e.1))
        | .borderEdge b => do let e ← vget f.border b; ok (.inr (.borderEdge e.2))
        | .inside => ok (.inr (.borderFace i))
        | .outside => g.pointPolyhedronLoop sqrt point rest (i + 1) neg

/-- `PointPolyhedronPosition` for convex polyhedra
(`GeDiM/src/Geometry/GeometryUtilities_Point.cpp:432-510`). -/
def GeoCfg.pointPolyhedronPosition (g : GeoCfg K) (sqrt : K → K) (point : V3 K)
    (faces : List (PolyhedronFace K)) : Res PointPolyhedronPos := do
  match ← g.pointPolyhedronLoop sqrt point faces 0 0 with
  | .inr p => ok p
  | .inl neg => ok (if neg = faces.length then .inside else .outside)

/-- `IsPointInsideTetrahedron` (`GeDiM/src/Geometry/GeometryUtilities_Point.cpp:602-625`). -/
def GeoCfg.isPointInsideTetrahedron (g : GeoCfg K) (sqrt : K → K) (tetra : List (V3 K))
    (point : V3 K) : Res Bool := do
  let m ← mapTetrahedron sqrt g tetra
  let r := m.FInv point
  ok (g.isValueGreaterOrEqual r.x 0 g.tol1D && g.isValueGreaterOrEqual r.y 0 g.tol1D &&
    g.isValueGreaterOrEqual r.z 0 g.tol1D && g.isValueLowerOrEqual r.x 1 g.tol1D &&
    g.isValueLowerOrEqual r.y 1 g.tol1D && g.isValueLowerOrEqual r.z 1 g.tol1D &&
    g.isValueLowerOrEqual (r.x + r.y + r.z) 1 g.tol1D)

/-- `PointsMaxDistance` (`GeDiM/src/Geometry/GeometryUtilities_Point.cpp:63-86`). -/
def GeoCfg.pointsMaxDistance (g : GeoCfg K) (sqrt : K → K) (points : List (V3 K)) : Res K :=
  foldRes (fun (d : K) v => foldRes (fun (d : K) w => do
      let a ← vget points v
      let b ← vget points w
      let distance := (b.sub a).norm sqrt
      ok (if g.compareValues d distance g.tol1D = .firstBeforeSecond then distance else d))
    d ((List.range points.length).drop (v + 1))) 0 (List.range points.length)

/-- `FindPointInPoints` (`GeDiM/src/Geometry/GeometryUtilities_Point.cpp:88-101`). -/
def GeoCfg.findPointInPoints (g : GeoCfg K) (sqrt : K → K) (points : List (V3 K)) (point : V3 K) :
    Res (List Nat) :=
  foldRes (fun (s : List Nat) p => do
    let a ← vget points p
    ok (if g.isValueZero ((a.sub point).norm sqrt) g.tol1D then s ++ [p] else s))
    [] (List.range points.length)

/-- `PointsBoundingBox` (`GeDiM/src/Geometry/GeometryUtilities_Point.cpp:49-61`): the corners with the
smallest and the largest coordinates. Without points Eigen stops at an assertion in a debug build and
reads outside the matrix otherwise. -/
def pointsBoundingBox : List (V3 K) → Res (V3 K × V3 K)
  | [] => ub
  | p :: ps => ok (
      ps.foldl (fun m q => ⟨min m.x q.x, min m.y q.y, min m.z q.z⟩) p,
      ps.foldl (fun m q => ⟨max m.x q.x, max m.y q.y, max m.z q.z⟩) p)

/-- `IsPointInBoundingBox` (`GeDiM/src/Geometry/GeometryUtilities.hpp:995-1003`). -/
def GeoCfg.isPointInBoundingBox (g : GeoCfg K) (p : V3 K) (b : V3 K × V3 K) : Bool :=
  (g.isValueGreaterOrEqual p.x b.1.x g.tol1D && g.isValueGreaterOrEqual b.2.x p.x g.tol1D) &&
  (g.isValueGreaterOrEqual p.y b.1.y g.tol1D && g.isValueGreaterOrEqual b.2.y p.y g.tol1D) &&
  (g.isValueGreaterOrEqual p.z b.1.z g.tol1D && g.isValueGreaterOrEqual b.2.z p.z g.tol1D)

/-- `BoundingBoxesIntersects` (`GeDiM/src/Geometry/GeometryUtilities.hpp:1005-1013`). -/
def GeoCfg.boundingBoxesIntersects (g : GeoCfg K) (b c : V3 K × V3 K) : Bool :=
  g.isValueLowerOrEqual b.1.x c.2.x g.tol1D && g.isValueGreaterOrEqual b.2.x c.1.x g.tol1D &&
  g.isValueLowerOrEqual b.1.y c.2.y g.tol1D && g.isValueGreaterOrEqual b.2.y c.1.y g.tol1D &&
  g.isValueLowerOrEqual b.1.z c.2.z g.tol1D && g.isValueGreaterOrEqual b.2.z c.1.z g.tol1D

/-- The loop of `UnalignedPoints` over the given points. -/
def GeoCfg.unalignedLoop (g : GeoCfg K) (sqrt : K → K) (points : List (V3 K)) (desired : Nat) :
    List Nat → List Nat → Res (List Nat)
  | [], acc => ok acc
  | p :: rest, acc => do
      let a ← vget points (if p = 0 then points.length - 1 else p - 1)
      let b ← vget points p
      let c ← vget points ((p + 1) % points.length)
      let acc := if g.pointIsAligned sqrt a b c then acc else acc ++ [p]
      if 0 < desired ∧ acc.length = desired then ok acc
      else g.unalignedLoop sqrt points desired rest acc

/-- `UnalignedPoints` (`GeDiM/src/Geometry/GeometryUtilities_Point.cpp:707-732`). -/
def GeoCfg.unalignedPoints (g : GeoCfg K) (sqrt : K → K) (points : List (V3 K)) (desired : Nat) :
    Res (List Nat) := do
  assert (1 < points.length)
  if points.length = 2 then ok [0, 1]
  else g.unalignedLoop sqrt points desired (List.range points.length) []

end Verif
