import Verif.PointPosModel
import Verif.IntersectModel
import Verif.OrientModel
import Verif.HullModel
import Verif.PolygonModel

/-!
# The directions of the normals of a polyhedron and the test of its convexity

`GeDiM/src/Geometry/GeometryUtilities_Polyhedron.cpp:697-899`. The lists that the functions get for the
faces are one list of records here; the functions read them at the number of the face only, so lists of
different lengths are not modelled for the two functions that get many of them.
-/

namespace Verif
open Res

variable {K : Type} [Field K] [LinearOrder K] [IsStrictOrderedRing K]

/-- `PolyhedronFaceNormalDirections` with a point inside
(`GeDiM/src/Geometry/GeometryUtilities_Polyhedron.cpp:762-781`). -/
def GeoCfg.normalDirections (g : GeoCfg K) (sqrt : K → K) (faceVertices : List (List (V3 K))) (inside : V3 K)
    (normals : List (V3 K)) : Res (List Bool) :=
  mapRes (fun f => do
    let n ← vget normals f
    let vs ← vget faceVertices f
    let o ← vget vs 0
    let position := g.pointPlane sqrt inside n o
    assert (position = -1 ∨ position = 1)
    ok (!decide (position = 1))) (List.range faceVertices.length)

/-- A face as `PolyhedronFaceNormalDirections` without a point inside and `PolyhedronIsConvex` get it: the
vertices and edges (`polyhedronFaces[f]`, two rows), the vertices in space and in the plane, a point in the face,
the normal and its direction, the translation and the rotation. -/
structure NormalFace (K : Type) where
  border : List (Nat × Nat)
  vertices3D : List (V3 K)
  vertices2D : List (V3 K)
  point : V3 K
  normal : V3 K
  outgoing : Bool
  translation : V3 K
  rotation : M3 K

/-- The variables of the loops of `PolyhedronFaceNormalDirections`: the vertices and the edges that were met, and
the coordinates of the intersections of the ray of the face. -/
structure RayMarks (K : Type) where
  vertices : List Bool
  edges : List Bool
  coords : List K
  deriving DecidableEq

/-- What is done with an intersection at the given coordinate
(`GeDiM/src/Geometry/GeometryUtilities_Polyhedron.cpp:833-886`). -/
def GeoCfg.rayHit (g : GeoCfg K) (face other : NormalFace K) (s : K) (st : RayMarks K) : Res (RayMarks K) :=
  if st.coords.any fun c => g.areValuesEqual c s g.tol1D then ok st
  else do
    let q := face.point.add (V3.smul s face.normal)
    match ← g.pointPolygonRayCasting (rotateTo2D other.rotation other.translation q) other.vertices2D with
    | .outside => ok st
    | .borderVertex b => do
        let e ← vget other.border b
        let met ← vget st.vertices e.1
        if met then ok st
        else ok { st with vertices := st.vertices.set e.1 true, coords := st.coords ++ [s] }
    | .borderEdge b => do
        let e ← vget other.border b
        let met ← vget st.edges e.2
        if met then ok st
        else ok { st with edges := st.edges.set e.2 true, coords := st.coords ++ [s] }
    | .inside => ok { st with coords := st.coords ++ [s] }

/-- The body of the inner loop (`GeDiM/src/Geometry/GeometryUtilities_Polyhedron.cpp:810-893`). -/
def GeoCfg.rayFace (g : GeoCfg K) (sqrt : K → K) (face other : NormalFace K) (st : RayMarks K) :
    Res (RayMarks K) := do
  let o ← vget other.vertices3D 0
  match ← g.intersectionSegmentPlane sqrt face.point (face.point.add face.normal) other.normal o with
  | .noIntersection => ok st
  | .multipleIntersections => ok st
  | .singleIntersection p =>
      match p.type with
      | .onSegmentLineBeforeOrigin => ok st
      | .onSegmentOrigin => ok st
      | .onSegmentLineAfterEnd => g.rayHit face other p.coord st
      | .onSegmentEnd => g.rayHit face other p.coord st
      | .insideSegment => g.rayHit face other p.coord st
      | _ => throw

/-- The inner loop for the face with number `f1`. -/
def GeoCfg.rayOfFace (g : GeoCfg K) (sqrt : K → K) (faces : List (NormalFace K)) (f1 : Nat) (st : RayMarks K) :
    Res (RayMarks K) := do
  let face ← vget faces f1
  foldRes (fun st f2 =>
    if f2 = f1 then ok st
    else do
      let other ← vget faces f2
      g.rayFace sqrt face other st) { st with coords := [] } (List.range faces.length)

/-- `PolyhedronFaceNormalDirections` with rays
(`GeDiM/src/Geometry/GeometryUtilities_Polyhedron.cpp:783-899`). The marks of the vertices and of the edges are
kept from face to face. -/
def GeoCfg.normalDirectionsByRays (g : GeoCfg K) (sqrt : K → K) (numVertices numEdges : Nat)
    (faces : List (NormalFace K)) : Res (List Bool) := do
  let r ← foldRes (fun (st : RayMarks K × List Bool) f1 => do
      let m ← g.rayOfFace sqrt faces f1 st.1
      ok (m, st.2 ++ [decide (m.coords.length % 2 = 0)]))
    (⟨List.replicate numVertices false, List.replicate numEdges false, []⟩, []) (List.range faces.length)
  ok r.2

/-- The normal in the direction that was found
(`GeDiM/src/Geometry/GeometryUtilities_Polyhedron.cpp:723-724`). -/
def NormalFace.out (f : NormalFace K) : V3 K := if f.outgoing then f.normal else V3.smul (-1) f.normal

/-- The body of the inner loop of `PolyhedronIsConvex`, true to go on
(`GeDiM/src/Geometry/GeometryUtilities_Polyhedron.cpp:722-755`). -/
def GeoCfg.convexPair (g : GeoCfg K) (sqrt : K → K) (inside : V3 K) (face other : NormalFace K) : Res Bool := do
  let o ← vget other.vertices3D 0
  match ← g.intersectionSegmentPlane sqrt inside face.point other.out o with
  | .noIntersection => ok true
  | .multipleIntersections => throw
  | .singleIntersection p =>
      match p.type with
      | .onSegmentLineBeforeOrigin => ok true
      | .onSegmentLineAfterEnd => ok true
      | .onSegmentOrigin => ok true
      | .onSegmentEnd => ok true
      | .insideSegment => ok false
      | _ => throw

/-- The inner loop of `PolyhedronIsConvex` over the faces with the given numbers. -/
def GeoCfg.convexPairs (g : GeoCfg K) (sqrt : K → K) (inside : V3 K) (faces : List (NormalFace K)) (f1 : Nat)
    (face : NormalFace K) : List Nat → Res Bool
  | [] => ok true
  | f2 :: rest =>
      if f2 = f1 then g.convexPairs sqrt inside faces f1 face rest
      else do
        let other ← vget faces f2
        let go ← g.convexPair sqrt inside face other
        if go then g.convexPairs sqrt inside faces f1 face rest else ok false

/-- The test of the convexity of one face (`GeDiM/src/Geometry/GeometryUtilities_Polyhedron.cpp:711-715`). -/
def GeoCfg.faceIsConvex (g : GeoCfg K) (sqrt : K → K)
    (sort : (HullPt K → HullPt K → Bool) → List (HullPt K) → List (HullPt K)) (vertices2D : List (V3 K)) :
    Res Bool := do
  let hull ← g.convexHull sqrt sort vertices2D true
  let points ← extractPoints vertices2D hull
  g.polygonIsConvex sqrt vertices2D points

/-- The outer loop of `PolyhedronIsConvex` over the faces with the given numbers. -/
def GeoCfg.convexFaces (g : GeoCfg K) (sqrt : K → K)
    (sort : (HullPt K → HullPt K → Bool) → List (HullPt K) → List (HullPt K)) (inside : V3 K)
    (faces : List (NormalFace K)) : List Nat → Res Bool
  | [] => ok true
  | f1 :: rest => do
      let face ← vget faces f1
      let convex ← g.faceIsConvex sqrt sort face.vertices2D
      if convex then do
        let go ← g.convexPairs sqrt inside faces f1 face (List.range faces.length)
        if go then g.convexFaces sqrt sort inside faces rest else ok false
      else ok false

/-- `PolyhedronIsConvex` (`GeDiM/src/Geometry/GeometryUtilities_Polyhedron.cpp:697-760`). -/
def GeoCfg.polyhedronIsConvex (g : GeoCfg K) (sqrt : K → K)
    (sort : (HullPt K → HullPt K → Bool) → List (HullPt K) → List (HullPt K)) (faces : List (NormalFace K))
    (inside : V3 K) : Res Bool :=
  g.convexFaces sqrt sort inside faces (List.range faces.length)

end Verif
