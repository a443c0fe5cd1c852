import Verif.MomentModel
import Verif.PlaneModel

/-
Integrals over polyhedra: `GeDiM/src/Geometry/GeometryUtilities_Polyhedron.cpp:210-334,523-678,987-1077` and the
default arguments in `GeometryUtilities.hpp`. A matrix with three rows is the list of its columns, a triangle is the
triple of its corners. `double` is an arbitrary ordered field; the square root is a parameter.
-/
namespace Verif

open Res

variable {K : Type} [Field K]

/-- Sum of a matrix with three rows and of a vector with three entries; the matrix needs one column, other sizes are
a failure inside Eigen. -/
def addColumn (cols : List (V3 K)) (v : V3 K) : Res (List (V3 K)) :=
  if cols.length = 1 then ok (cols.map fun c => c.add v) else ub

/-- Product of a row and of a column; different sizes are a failure inside Eigen. -/
def rowTimesCol (row col : List K) : Res K :=
  if row.length = col.length then ok (List.zipWith (· * ·) row col).sum else ub

/-- The normal of face `f`, turned if its direction is `false`
(`GeDiM/src/Geometry/GeometryUtilities_Polyhedron.cpp:226-229,307-310`). -/
def faceNormalOut (normals : List (V3 K)) (directions : List Bool) (f : Nat) : Res (V3 K) := do
  let d ← vget directions f
  let n ← vget normals f
  ok (if d then n else V3.smul (-1) n)

variable [LinearOrder K] [IsStrictOrderedRing K]

/-- The part of one triangle in `PolyhedronVolumeByBoundaryIntegral`
(`GeDiM/src/Geometry/GeometryUtilities_Polyhedron.cpp:231-249`). The weights are passed to `DetJ` in place of the
points: as a matrix they have one column, whatever their number. -/
def volumeOfTriangle (n : V3 K) (rotation : M3 K) (translation : V3 K) (points : List (V3 K)) (weights : List K)
    (t : V3 K × V3 K × V3 K) : Res K := do
  let m := mapTriangle t.1 t.2.1 t.2.2
  let ws ← mulEntries ((m.detPerColumn 1).map fun d => |d|) weights
  let moved ← addColumn (points.map (rotation.mul m.mat).mulVec) (rotation.mulVec m.b)
  let qs ← addColumn moved translation
  let sx ← rowTimesCol (qs.map V3.x) (ws.map fun w => w * n.x)
  let sy ← rowTimesCol (qs.map V3.y) (ws.map fun w => w * n.y)
  let sz ← rowTimesCol (qs.map V3.z) (ws.map fun w => w * n.z)
  ok (1 / 3 * (sx + sy + sz))

/-- The part of one face in `PolyhedronVolumeByBoundaryIntegral`
(`GeDiM/src/Geometry/GeometryUtilities_Polyhedron.cpp:222-250`). -/
def volumeOfFace (faces : List (List (V3 K × V3 K × V3 K))) (normals : List (V3 K)) (directions : List Bool)
    (translations : List (V3 K)) (rotations : List (M3 K)) (points : List (V3 K)) (weights : List K)
    (volume : K) (f : Nat) : Res K := do
  let ts ← vget faces f
  let rotation ← vget rotations f
  let translation ← vget translations f
  let n ← faceNormalOut normals directions f
  foldRes (fun v t => do
    let d ← volumeOfTriangle n rotation translation points weights t
    ok (v + d)) volume ts

/-- `PolyhedronVolumeByBoundaryIntegral`
(`GeDiM/src/Geometry/GeometryUtilities_Polyhedron.cpp:210-253`). -/
def polyhedronVolumeByBoundaryIntegral (faces : List (List (V3 K × V3 K × V3 K))) (normals : List (V3 K))
    (directions : List Bool) (translations : List (V3 K)) (rotations : List (M3 K)) (points : List (V3 K))
    (weights : List K) : Res K :=
  foldRes (volumeOfFace faces normals directions translations rotations points weights) 0 (List.range faces.length)

/-- The reference points and weights that `PolyhedronVolumeByBoundaryIntegral` takes when none are given
(`GeDiM/src/Geometry/GeometryUtilities.hpp:2133-2135`). -/
def centreRule : List (V3 K) × List K := ([⟨1 / 3, 1 / 3, 0⟩], [1 / 2])

/-- The weights of one tetrahedron in `PolyhedronVolumeByInternalIntegral`
(`GeDiM/src/Geometry/GeometryUtilities_Polyhedron.cpp:269-273`): as above the weights are passed to `DetJ`. -/
def tetrahedronWeights (sqrt : K → K) (g : GeoCfg K) (weights : List K) (t : List (V3 K)) : Res (List K) := do
  let m ← mapTetrahedron sqrt g t
  mulEntries weights ((m.detPerColumn 1).map fun d => |d|)

/-- `PolyhedronVolumeByInternalIntegral`
(`GeDiM/src/Geometry/GeometryUtilities_Polyhedron.cpp:255-277`). -/
def polyhedronVolumeByInternalIntegral (sqrt : K → K) (g : GeoCfg K) (ts : List (List (V3 K))) (weights : List K) :
    Res K := do
  let ws ← mapRes (tetrahedronWeights sqrt g weights) ts
  ok ws.flatten.sum

/-- The reference weights that `PolyhedronVolumeByInternalIntegral` takes when none are given
(`GeDiM/src/Geometry/GeometryUtilities.hpp:2141-2142`). -/
def sixthRule : List K := [1 / 6]

/-- The quadrature points of one triangle in space, in `PolyhedronCentroid`
(`GeDiM/src/Geometry/GeometryUtilities_Polyhedron.cpp:318-320`). -/
def centroidPoints (g : GeoCfg K) (rotation : M3 K) (translation : V3 K) (t : V3 K × V3 K × V3 K) :
    Res (List (V3 K)) := do
  let mapped := massPoints.map (mapTriangle t.1 t.2.1 t.2.2).F
  let flat ← g.pointsAre2D mapped
  assert (flat = true)
  ok (mapped.map fun p => (rotation.mulVec p).add translation)

/-- The part of one triangle in `PolyhedronCentroid`: row times diagonal times column in each coordinate
(`GeDiM/src/Geometry/GeometryUtilities_Polyhedron.cpp:313-330`). -/
def centroidOfTriangle (g : GeoCfg K) (n : V3 K) (rotation : M3 K) (translation : V3 K)
    (t : V3 K × V3 K × V3 K) : Res (V3 K) := do
  let d := (mapTriangle t.1 t.2.1 t.2.2).mat.det
  let qs ← centroidPoints g rotation translation t
  ok ⟨(qs.map fun q => q.x * (n.x * oneSixth * d) * q.x).sum,
      (qs.map fun q => q.y * (n.y * oneSixth * d) * q.y).sum,
      (qs.map fun q => q.z * (n.z * oneSixth * d) * q.z).sum⟩

/-- The part of one face in `PolyhedronCentroid`
(`GeDiM/src/Geometry/GeometryUtilities_Polyhedron.cpp:303-331`). -/
def centroidOfFace (g : GeoCfg K) (faces : List (List (V3 K × V3 K × V3 K))) (normals : List (V3 K))
    (directions : List Bool) (translations : List (V3 K)) (rotations : List (M3 K)) (c : V3 K) (f : Nat) :
    Res (V3 K) := do
  let ts ← vget faces f
  let rotation ← vget rotations f
  let translation ← vget translations f
  let n ← faceNormalOut normals directions f
  foldRes (fun v t => do
    let d ← centroidOfTriangle g n rotation translation t
    ok (v.add d)) c ts

/-- `PolyhedronCentroid` (`GeDiM/src/Geometry/GeometryUtilities_Polyhedron.cpp:279-334`). The division by a vanishing
volume is not meaningful; the theorems exclude it. -/
def polyhedronCentroid (g : GeoCfg K) (faces : List (List (V3 K × V3 K × V3 K))) (normals : List (V3 K))
    (directions : List Bool) (translations : List (V3 K)) (rotations : List (M3 K)) (volume : K) : Res (V3 K) := do
  let c ← foldRes (centroidOfFace g faces normals directions translations rotations) V3.zero
    (List.range faces.length)
  ok ⟨1 / 2 * c.x / volume, 1 / 2 * c.y / volume, 1 / 2 * c.z / volume⟩

/-- Reference quadrature points of the tetrahedron
(`GeDiM/src/Geometry/GeometryUtilities_Polyhedron.cpp:527-539,606-618`). -/
def tetPoints : List (V3 K) :=
  [⟨36531451881463450 / 10 ^ 17, 18002969351036546 / 10 ^ 17, 69232355736274656 / 10 ^ 19⟩,
   ⟨45746158708559548 / 10 ^ 17, 15593312049918590 / 10 ^ 17, 38176535606934675 / 10 ^ 17⟩,
   ⟨37551502872933986 / 10 ^ 20, 21607642918484790 / 10 ^ 17, 43070170707783589 / 10 ^ 17⟩,
   ⟨12366680032845828 / 10 ^ 17, 82157254096761967 / 10 ^ 17, 39933048641498409 / 10 ^ 18⟩]

/-- Reference quadrature weights of the tetrahedron
(`GeDiM/src/Geometry/GeometryUtilities_Polyhedron.cpp:540-544,619-623`). -/
def tetWeights : List K :=
  [50086823222829355 / 10 ^ 18, 46462929447761252 / 10 ^ 18, 53182322583579078 / 10 ^ 18,
   16934591412496775 / 10 ^ 18]

/-- The quadrature points and weights of one tetrahedron
(`GeDiM/src/Geometry/GeometryUtilities_Polyhedron.cpp:555-565,636-645`). `DetJ` of the points and `DetQ` are the same
number. -/
def tetrahedronRule (sqrt : K → K) (g : GeoCfg K) (t : List (V3 K)) : Res (List (V3 K × K)) := do
  let m ← mapTetrahedron sqrt g t
  ok (List.zipWith (fun p w => (m.F p, w * |m.det|)) tetPoints tetWeights)

/-- The quadrature points and weights of all tetrahedra
(`GeDiM/src/Geometry/GeometryUtilities_Polyhedron.cpp:546-566,625-646`). -/
def tetrahedronQuadrature (sqrt : K → K) (g : GeoCfg K) (ts : List (List (V3 K))) : Res (List (V3 K × K)) := do
  let qs ← mapRes (tetrahedronRule sqrt g) ts
  ok qs.flatten

/-- `PolyhedronMass` (`GeDiM/src/Geometry/GeometryUtilities_Polyhedron.cpp:523-601`). -/
def polyhedronMass (sqrt : K → K) (g : GeoCfg K) (c : V3 K) (ts : List (List (V3 K))) : Res (M3 K) := do
  let qs ← tetrahedronQuadrature sqrt g ts
  let m00 := (qs.map fun q => (q.1.x - c.x) ^ 2 * q.2).sum
  let m11 := (qs.map fun q => (q.1.y - c.y) ^ 2 * q.2).sum
  let m22 := (qs.map fun q => (q.1.z - c.z) ^ 2 * q.2).sum
  let m01 := (qs.map fun q => (q.1.x - c.x) * (q.1.y - c.y) * q.2).sum
  let m02 := (qs.map fun q => (q.1.x - c.x) * (q.1.z - c.z) * q.2).sum
  let m12 := (qs.map fun q => (q.1.y - c.y) * (q.1.z - c.z) * q.2).sum
  ok ⟨m00, m01, m02, m01, m11, m12, m02, m12, m22⟩

/-- `PolyhedronInertia` (`GeDiM/src/Geometry/GeometryUtilities_Polyhedron.cpp:603-678`). -/
def polyhedronInertia (sqrt : K → K) (g : GeoCfg K) (c : V3 K) (ts : List (List (V3 K))) : Res (M3 K) := do
  let qs ← tetrahedronQuadrature sqrt g ts
  let m00 := (qs.map fun q => ((q.1.y - c.y) ^ 2 + (q.1.z - c.z) ^ 2) * q.2).sum
  let m11 := (qs.map fun q => ((q.1.x - c.x) ^ 2 + (q.1.z - c.z) ^ 2) * q.2).sum
  let m22 := (qs.map fun q => ((q.1.y - c.y) ^ 2 + (q.1.x - c.x) ^ 2) * q.2).sum
  let m01 := -(qs.map fun q => (q.1.x - c.x) * (q.1.y - c.y) * q.2).sum
  let m02 := -(qs.map fun q => (q.1.x - c.x) * (q.1.z - c.z) * q.2).sum
  let m12 := -(qs.map fun q => (q.1.y - c.y) * (q.1.z - c.z) * q.2).sum
  ok ⟨m00, m01, m02, m01, m11, m12, m02, m12, m22⟩

/-! ### Tetrahedra from the triangles of the faces -/

/-- `polyhedronFaces[f](0, polyhedronFaceTriangulations[f][k])`
(`GeDiM/src/Geometry/GeometryUtilities_Polyhedron.cpp:1000-1002,1027-1028`). A face is the list of its columns. -/
def faceCorner (face : List (Nat × Nat)) (triangulation : List Nat) (k : Nat) : Res Nat := do
  let i ← vget triangulation k
  let c ← vget face i
  ok c.1

/-- The tetrahedra of one triangle of a face (`GeDiM/src/Geometry/GeometryUtilities_Polyhedron.cpp:1000-1003`). -/
def tetOfTriangle (faces : List (List (Nat × Nat))) (triangulation : List Nat) (f apex ft : Nat) : Res (List Nat) := do
  let face ← vget faces f
  let a ← faceCorner face triangulation (3 * ft)
  let b ← faceCorner face triangulation (3 * ft + 1)
  let c ← faceCorner face triangulation (3 * ft + 2)
  ok [a, b, c, apex]

/-- The same with a point inside of the face (`GeDiM/src/Geometry/GeometryUtilities_Polyhedron.cpp:1026-1029`). -/
def tetOfFacePoint (faces : List (List (Nat × Nat))) (triangulation : List Nat) (f first apex ft : Nat) :
    Res (List Nat) := do
  let face ← vget faces f
  let b ← faceCorner face triangulation (3 * ft + 1)
  let c ← faceCorner face triangulation (3 * ft + 2)
  ok [first + f, b, c, apex]

/-- `PolyhedronTetrahedronsByFaceTriangulations`
(`GeDiM/src/Geometry/GeometryUtilities_Polyhedron.cpp:986-1010`). The point inside of the polyhedron is not used. The
number of entries is a multiple of four by construction, so the assertion at the end is left out. -/
def tetrahedronsByFaceTriangulations (numVertices : Nat) (faces : List (List (Nat × Nat)))
    (triangulations : List (List Nat)) : Res (List Nat) := do
  let tets ← mapRes (fun f => do
    let tr ← vget triangulations f
    let l ← mapRes (tetOfTriangle faces tr f numVertices) (List.range (tr.length / 3))
    ok l.flatten) (List.range triangulations.length)
  ok tets.flatten

/-- `PolyhedronTetrahedronsByFaceTriangulations` with points inside of the faces
(`GeDiM/src/Geometry/GeometryUtilities_Polyhedron.cpp:1012-1036`). Of the points only the number is used. -/
def tetrahedronsByFacePoints (numVertices : Nat) (faces : List (List (Nat × Nat)))
    (triangulations : List (List Nat)) (numFacePoints : Nat) : Res (List Nat) := do
  let tets ← mapRes (fun f => do
    let tr ← vget triangulations f
    let l ← mapRes (tetOfFacePoint faces tr f numVertices (numVertices + numFacePoints)) (List.range (tr.length / 3))
    ok l.flatten) (List.range triangulations.length)
  ok tets.flatten

/-- The column of the vertices named at position `k` (`GeDiM/src/Geometry/GeometryUtilities_Polyhedron.cpp:1048-1050`). -/
def tetCorner (vertices : List (V3 K)) (tets : List Nat) (k : Nat) : Res (V3 K) := do
  let i ← vget tets k
  vget vertices i

/-- `ExtractTetrahedronPoints` (`GeDiM/src/Geometry/GeometryUtilities_Polyhedron.cpp:1038-1055`). The fourth entries of
the list are not read. -/
def extractTetrahedronPoints (vertices : List (V3 K)) (p : V3 K) (tets : List Nat) : Res (List (List (V3 K))) :=
  mapRes (fun t => do
    let a ← tetCorner vertices tets (4 * t)
    let b ← tetCorner vertices tets (4 * t + 1)
    let c ← tetCorner vertices tets (4 * t + 2)
    ok [a, b, c, p]) (List.range (tets.length / 4))

/-- The point of a face named at position `k`; a number below the number of vertices wraps around
(`GeDiM/src/Geometry/GeometryUtilities_Polyhedron.cpp:1070`). -/
def tetFacePoint (numVertices : Nat) (facePoints : List (V3 K)) (tets : List Nat) (k : Nat) : Res (V3 K) := do
  let i ← vget tets k
  if i < numVertices then ub else vget facePoints (i - numVertices)

/-- `ExtractTetrahedronPoints` with points inside of the faces
(`GeDiM/src/Geometry/GeometryUtilities_Polyhedron.cpp:1057-1077`). -/
def extractTetrahedronPointsByFacePoints (vertices : List (V3 K)) (p : V3 K) (facePoints : List (V3 K))
    (tets : List Nat) : Res (List (List (V3 K))) :=
  mapRes (fun t => do
    let a ← tetFacePoint vertices.length facePoints tets (4 * t)
    let b ← tetCorner vertices tets (4 * t + 1)
    let c ← tetCorner vertices tets (4 * t + 2)
    ok [a, b, c, p]) (List.range (tets.length / 4))

end Verif
