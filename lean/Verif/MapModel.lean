import Verif.GeomModel
import Verif.MeshModel
import Verif.GraphModel

/-
Maps from reference elements: `GeDiM/src/Geometry/MapTriangle`, `MapParallelogram`,
`MapTetrahedron`, `MapParallelepiped`, `MapQuadrilateral` and `MapHexahedron`.

Matrices of points are treated column by column: every function of the code acts on each column
independently. The vertices of an element are the list of the columns of the vertex matrix.
-/
namespace Verif

open Res

variable {K : Type} [Field K]

/-! ### Affine maps -/

/-- `MapTriangleData`, `MapParallelogramData`, `MapTetrahedronData` and `MapParallelepipedData`
(`GeDiM/src/Geometry/MapTriangle.hpp:22-29`, `MapParallelogram.hpp:22-29`,
`MapTetrahedron.hpp:23-30`, `MapParallelepiped.hpp`): the matrix, its inverse, the translation and
the two determinants. -/
structure AffMap (K : Type) where
  mat : M3 K
  inv : M3 K
  b : V3 K
  det : K
  detInv : K

/-- The assignments that fill the map data
(`GeDiM/src/Geometry/MapTriangle.cpp:24-28`, `MapParallelogram.cpp:32-36`,
`MapTetrahedron.cpp:32-40`, `MapParallelepiped.cpp:42-53`). -/
def AffMap.build (mat : M3 K) (b : V3 K) : AffMap K :=
  { mat, inv := mat.inverse, b, det := mat.det, detInv := mat.inverse.det }

/-- `F` (`GeDiM/src/Geometry/MapTriangle.hpp:68-71`, `MapParallelogram.hpp:65-68`,
`MapTetrahedron.hpp:83-86`). -/
def AffMap.F (m : AffMap K) (p : V3 K) : V3 K := (m.mat.mulVec p).add m.b

/-- `FInv` (`GeDiM/src/Geometry/MapTriangle.hpp:76-79`, `MapParallelogram.hpp:70-73`,
`MapTetrahedron.hpp:88-91`). -/
def AffMap.FInv (m : AffMap K) (p : V3 K) : V3 K := m.inv.mulVec (p.sub m.b)

/-- `J` at one point (`GeDiM/src/Geometry/MapTriangle.cpp:33-42`, `MapParallelogram.cpp:17-26`,
`MapTetrahedron.cpp:77-86`, `MapParallelepiped.cpp:84-94`). -/
def AffMap.J (m : AffMap K) (_ : V3 K) : M3 K := m.mat

/-- `DetJ` (`GeDiM/src/Geometry/MapTriangle.hpp:90-102`, `MapParallelogram.hpp:81-89`,
`MapTetrahedron.hpp:107-110`). -/
def AffMap.DetJ (m : AffMap K) : K := m.det

/-- `DetJ` of a point, for the maps of dimension three
(`GeDiM/src/Geometry/MapTetrahedron.cpp:88-98`, `MapParallelepiped.cpp:96-106`). -/
def AffMap.DetJAt (m : AffMap K) (p : V3 K) : K := (m.J p).det

/-- `BMatrix` of `MapTriangle` (columns 1 and 2) and of `MapParallelogram` (columns 1 and 3)
(`GeDiM/src/Geometry/MapTriangle.hpp:34-41`, `MapParallelogram.hpp:33-40`). -/
def bMatrix (v0 v1 v2 : V3 K) : M3 K :=
  ⟨v1.x - v0.x, v2.x - v0.x, 0,
   v1.y - v0.y, v2.y - v0.y, 0,
   0, 0, 1⟩

/-- `MapTriangle::Compute` (`GeDiM/src/Geometry/MapTriangle.cpp:20-31`). -/
def mapTriangle (v0 v1 v2 : V3 K) : AffMap K := AffMap.build (bMatrix v0 v1 v2) v0

/-- `MapParallelogram::Compute` (`GeDiM/src/Geometry/MapParallelogram.cpp:28-39`). -/
def mapParallelogram (vertices : List (V3 K)) : Res (AffMap K) := do
  let v0 ← vget vertices 0
  let v1 ← vget vertices 1
  let v3 ← vget vertices 3
  ok (AffMap.build (bMatrix v0 v1 v3) v0)

/-- `Q` (`GeDiM/src/Geometry/MapTetrahedron.hpp:51-65`, `MapParallelepiped.hpp`). -/
def qMatrix (v0 v1 v2 v3 : V3 K) : M3 K :=
  ⟨v1.x - v0.x, v2.x - v0.x, v3.x - v0.x,
   v1.y - v0.y, v2.y - v0.y, v3.y - v0.y,
   v1.z - v0.z, v2.z - v0.z, v3.z - v0.z⟩

/-- Sum of the squares of the entries of a matrix with the given columns, whose square root is
Eigen's `norm`. -/
def sqNorm (l : List (V3 K)) : K := (l.map fun v => v.dot v).sum

/-- Difference of two matrices given by columns; different sizes are a failure inside Eigen. -/
def subCols (a b : List (V3 K)) : Res (List (V3 K)) :=
  if a.length = b.length then ok (List.zipWith V3.sub a b) else ub

/-- Reference points of the tetrahedron (`GeDiM/src/Geometry/MapTetrahedron.cpp:49-54`). -/
def refTetrahedron : List (V3 K) := [⟨0, 0, 0⟩, ⟨1, 0, 0⟩, ⟨0, 1, 0⟩, ⟨0, 0, 1⟩]

/-- Reference vertices of the cube (`GeDiM/src/Geometry/MapParallelepiped.cpp:23-31`,
`MapHexahedron.cpp:25-33`). -/
def refCube : List (V3 K) :=
  [⟨0, 0, 0⟩, ⟨1, 0, 0⟩, ⟨1, 1, 0⟩, ⟨0, 1, 0⟩, ⟨0, 0, 1⟩, ⟨1, 0, 1⟩, ⟨1, 1, 1⟩, ⟨0, 1, 1⟩]

/-- Reference vertices of the square (`GeDiM/src/Geometry/MapParallelogram.hpp:53-57`,
`MapQuadrilateral.hpp:61-65`). -/
def refSquare : List (V3 K) := [⟨0, 0, 0⟩, ⟨1, 0, 0⟩, ⟨1, 1, 0⟩, ⟨0, 1, 0⟩]

/-- The six orders in which the vertices are tried
(`GeDiM/src/Geometry/MapTetrahedron.cpp:56-72`, `MapParallelepiped.cpp:63-79`). -/
def mapOrders : List (Nat × Nat × Nat) :=
  [(1, 2, 3), (1, 3, 2), (2, 1, 3), (2, 3, 1), (3, 1, 2), (3, 2, 1)]

section ordered
variable [LinearOrder K] [IsStrictOrderedRing K]

/-- `TestMapConfiguration` of the tetrahedron, with the first vertex and the columns of the three
others given (`GeDiM/src/Geometry/MapTetrahedron.cpp:25-43`, `MapParallelepiped.cpp:34-56`).
`none` stands for `false`. -/
def testMapConfiguration (sqrt : K → K) (g : GeoCfg K) (vertices ref : List (V3 K))
    (v0 v1 v2 v3 : V3 K) : Res (Option (AffMap K)) := do
  let m := AffMap.build (qMatrix v0 v1 v2 v3) v0
  let d ← subCols vertices (ref.map m.F)
  if g.isValueZero (sqrt (sqNorm d)) g.tol1D then ok (some m) else ok none

/-- The sequence of tests of `Compute`; the first success is returned, `runtime_error` if there is
none (`GeDiM/src/Geometry/MapTetrahedron.cpp:56-74`, `MapParallelepiped.cpp:63-81`). -/
def tryOrders (test : Nat × Nat × Nat → Res (Option (AffMap K))) :
    List (Nat × Nat × Nat) → Res (AffMap K)
  | [] => throw
  | o :: os => do
      match ← test o with
      | some m => ok m
      | none => tryOrders test os

/-- `MapTetrahedron::Compute` (`GeDiM/src/Geometry/MapTetrahedron.cpp:45-75`). -/
def mapTetrahedron (sqrt : K → K) (g : GeoCfg K) (vertices : List (V3 K)) : Res (AffMap K) :=
  tryOrders (fun o => do
    let v0 ← vget vertices 0
    let v1 ← vget vertices o.1
    let v2 ← vget vertices o.2.1
    let v3 ← vget vertices o.2.2
    testMapConfiguration sqrt g vertices refTetrahedron v0 v1 v2 v3) mapOrders

/-- `vertices.col(coordinateSystem[i])`. -/
def csCol (vertices : List (V3 K)) (coordinateSystem : List Nat) (i : Nat) : Res (V3 K) := do
  let j ← vget coordinateSystem i
  vget vertices j

/-- `MapParallelepiped::Compute` (`GeDiM/src/Geometry/MapParallelepiped.cpp:58-82`). -/
def mapParallelepiped (sqrt : K → K) (g : GeoCfg K) (vertices : List (V3 K))
    (coordinateSystem : List Nat) : Res (AffMap K) :=
  tryOrders (fun o => do
    let v0 ← csCol vertices coordinateSystem 0
    let v1 ← csCol vertices coordinateSystem o.1
    let v2 ← csCol vertices coordinateSystem o.2.1
    let v3 ← csCol vertices coordinateSystem o.2.2
    testMapConfiguration sqrt g vertices refCube v0 v1 v2 v3) mapOrders

end ordered

/-! ### Bilinear and trilinear maps -/

/-- Product of a matrix with the given columns and a vector of coefficients; different sizes are
a failure inside Eigen. -/
def lincomb (cols : List (V3 K)) (w : List K) : Res (V3 K) :=
  if cols.length = w.length then ok ((List.zipWith V3.smul w cols).foldr V3.add V3.zero) else ub

/-- `MapQuadrilateral::Psi` at one point (`GeDiM/src/Geometry/MapQuadrilateral.hpp:25-37`). -/
def psi2 (p : V3 K) : List K :=
  [(1 - p.x) * (1 - p.y), p.x * (1 - p.y), p.x * p.y, p.y * (1 - p.x)]

/-- `MapQuadrilateral::dPsi` at one point: the two rows
(`GeDiM/src/Geometry/MapQuadrilateral.hpp:39-56`). -/
def dpsi2 (p : V3 K) : List K × List K :=
  ([-(1 - p.y), 1 - p.y, p.y, -p.y], [-(1 - p.x), -p.x, p.x, 1 - p.x])

/-- `MapQuadrilateral::F` (`GeDiM/src/Geometry/MapQuadrilateral.cpp:23-29`). -/
def quadF (vertices : List (V3 K)) (p : V3 K) : Res (V3 K) := lincomb vertices (psi2 p)

/-- `MapQuadrilateral::J` at one point (`GeDiM/src/Geometry/MapQuadrilateral.cpp:31-49`). Only
the first two rows of the vertices are used. -/
def quadJ (vertices : List (V3 K)) (p : V3 K) : Res (M3 K) := do
  let c0 ← lincomb vertices (dpsi2 p).1
  let c1 ← lincomb vertices (dpsi2 p).2
  ok ⟨c0.x, c1.x, 0, c0.y, c1.y, 0, 0, 0, 1⟩

/-- `MapQuadrilateral::JInv` at one point (`GeDiM/src/Geometry/MapQuadrilateral.cpp:59-72`):
the block of size two is inverted by Eigen with the formula for size two. -/
def quadJInv (vertices : List (V3 K)) (p : V3 K) : Res (M3 K) := do
  let j ← quadJ vertices p
  let d := 1 / (j.a00 * j.a11 - j.a10 * j.a01)
  ok ⟨j.a11 * d, -j.a01 * d, 0, -j.a10 * d, j.a00 * d, 0, 0, 0, 1⟩

/-- `MapQuadrilateral::DetJ` at one point
(`GeDiM/src/Geometry/MapQuadrilateral.cpp:74-84`). -/
def quadDetJ (vertices : List (V3 K)) (p : V3 K) : Res K := do
  let j ← quadJ vertices p
  ok j.det

/-- `MapHexahedron::Psi` at one point (`GeDiM/src/Geometry/MapHexahedron.hpp:32-49`). -/
def psi3 (p : V3 K) : List K :=
  [(1 - p.x) * (1 - p.y) * (1 - p.z), p.x * (1 - p.y) * (1 - p.z), p.x * p.y * (1 - p.z),
   p.y * (1 - p.x) * (1 - p.z), (1 - p.x) * (1 - p.y) * p.z, p.x * (1 - p.y) * p.z,
   p.x * p.y * p.z, p.y * (1 - p.x) * p.z]

/-- `MapHexahedron::dPsi` at one point: the three rows
(`GeDiM/src/Geometry/MapHexahedron.hpp:51-87`). -/
def dpsi3 (p : V3 K) : List K × List K × List K :=
  ([-(1 - p.y) * (1 - p.z), (1 - p.y) * (1 - p.z), p.y * (1 - p.z), -p.y * (1 - p.z),
    -(1 - p.y) * p.z, (1 - p.y) * p.z, p.y * p.z, -p.y * p.z],
   [-(1 - p.x) * (1 - p.z), -p.x * (1 - p.z), p.x * (1 - p.z), (1 - p.x) * (1 - p.z),
    -(1 - p.x) * p.z, -p.x * p.z, p.x * p.z, (1 - p.x) * p.z],
   [-(1 - p.x) * (1 - p.y), -p.x * (1 - p.y), -p.x * p.y, -p.y * (1 - p.x),
    (1 - p.x) * (1 - p.y), p.x * (1 - p.y), p.x * p.y, p.y * (1 - p.x)])

/-- The columns of the matrix `A` (`GeDiM/src/Geometry/MapHexahedron.cpp:35-43`). -/
def hexA : List (List K) :=
  [[1, 0, 0, 0, 0, 0, 0, 0],
   [-1, 1, 0, 0, 0, 0, 0, 0],
   [-1, 0, 0, 1, 0, 0, 0, 0],
   [-1, 0, 0, 0, 1, 0, 0, 0],
   [1, -1, 1, -1, 0, 0, 0, 0],
   [1, -1, 0, 0, -1, 1, 0, 0],
   [1, 0, 0, -1, -1, 0, 0, 1],
   [-1, 1, -1, 1, 1, -1, 1, -1]]

/-- `MapHexahedronData` without the constant members
(`GeDiM/src/Geometry/MapHexahedron.hpp:22-29`). -/
structure HexMap (K : Type) where
  vertexOrder : UMap
  vertices : List (V3 K)
  coefficients : List (V3 K)
  deriving DecidableEq

/-- `VertexOrder` (`GeDiM/src/Geometry/MapHexahedron.cpp:47-59`): the vertices of the first face
get 0, 1, 2, 3, then the others get 4, 5, … by increasing index. -/
def hexVertexOrder (face0 : List Nat) : Res UMap := do
  let m ← foldRes (fun m v => do
    let f ← vget face0 v
    ok (umapInsert m f v)) [] (List.range 4)
  let r := (List.range 8).foldl (fun (s : UMap × Nat) v =>
    match umapFind s.1 v with
    | none => (umapInsert s.1 v s.2, s.2 + 1)
    | some _ => s) (m, 4)
  ok r.1

/-- A column that was never written has no value. -/
def readCol {α : Type} : Option α → Res α
  | some a => ok a
  | none => ub

/-- `MapHexahedron::Compute` (`GeDiM/src/Geometry/MapHexahedron.cpp:21-67`). `face0` is the first
row of `faces[0]`. The columns of `Vertices` are written through distinct indices, so the order of
the loop over the map does not matter. -/
def mapHexahedron (vertices : List (V3 K)) (face0 : List Nat) : Res (HexMap K) := do
  let order ← hexVertexOrder face0
  let cols ← foldRes (fun (cols : List (Option (V3 K))) kv => do
    let v ← vget vertices kv.1
    vset cols kv.2 (some v)) (List.replicate 8 none) order
  let vs ← mapRes readCol cols
  let coefficients ← mapRes (lincomb vs) hexA
  ok { vertexOrder := order, vertices := vs, coefficients }

/-- `MapHexahedron::F` at one point (`GeDiM/src/Geometry/MapHexahedron.cpp:69-73`). -/
def HexMap.F (m : HexMap K) (p : V3 K) : Res (V3 K) := lincomb m.vertices (psi3 p)

/-- `MapHexahedron::J` at one point (`GeDiM/src/Geometry/MapHexahedron.cpp:75-93`). -/
def HexMap.J (m : HexMap K) (p : V3 K) : Res (M3 K) := do
  let c0 ← lincomb m.vertices (dpsi3 p).1
  let c1 ← lincomb m.vertices (dpsi3 p).2.1
  let c2 ← lincomb m.vertices (dpsi3 p).2.2
  ok ⟨c0.x, c1.x, c2.x, c0.y, c1.y, c2.y, c0.z, c1.z, c2.z⟩

/-- `MapHexahedron::JInv` at one point (`GeDiM/src/Geometry/MapHexahedron.cpp:103-113`). -/
def HexMap.JInv (m : HexMap K) (p : V3 K) : Res (M3 K) := do
  let j ← m.J p
  ok j.inverse

/-- `MapHexahedron::DetJ` at one point (`GeDiM/src/Geometry/MapHexahedron.cpp:115-125`). -/
def HexMap.DetJ (m : HexMap K) (p : V3 K) : Res K := do
  let j ← m.J p
  ok j.det

/-! ### Barycentric coordinates -/

/-- `PointToBarycentricCoordinates2D` (`GeDiM/src/Geometry/GeometryUtilities_Point.cpp:673-694`).
`tol2D` is the value of `Tolerance2D()`. -/
def GeoCfg.pointToBarycentric [LinearOrder K] [IsStrictOrderedRing K] (g : GeoCfg K) (tol2D : K)
    (t0 t1 t2 p : V3 K) : K × K × K :=
  let detA := (t0.x - t2.x) * (t1.y - t2.y) - (t1.x - t2.x) * (t0.y - t2.y)
  if g.isValueZero detA tol2D then (0, 0, 0)
  else
    let r0 := 1 / detA * ((t1.y - t2.y) * (p.x - t2.x) - (p.y - t2.y) * (t1.x - t2.x))
    let r1 := 1 / detA * ((p.y - t2.y) * (t0.x - t2.x) - (t0.y - t2.y) * (p.x - t2.x))
    (r0, r1, 1 - r0 - r1)

/-- `BarycentricCoordinatesToPoint2D`
(`GeDiM/src/Geometry/GeometryUtilities_Point.cpp:696-706`). -/
def barycentricToPoint (t0 t1 t2 : V3 K) (c : K × K × K) : V3 K :=
  ⟨((t0.x - t2.x) * c.1 + (t1.x - t2.x) * c.2.1) + t2.x,
   ((t0.y - t2.y) * c.1 + (t1.y - t2.y) * c.2.1) + t2.y, 0⟩

end Verif
