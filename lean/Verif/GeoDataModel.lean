import Verif.MomentModel
import Verif.CheckModel

/-
The geometric data of a mesh in the plane and their check: `FillMesh2DGeometricData` for meshes of convex
polygons and `CheckMeshGeometricData2D` (`GeDiM/src/Mesh/MeshUtilities2D.cpp:415-497,655-743`). `double` is an
arbitrary ordered field; `tol2D` is the value of `Tolerance2D()`.
-/
namespace Verif

open Res

/-- The entries of one polygon in `MeshGeometricData2D` (`GeDiM/src/Mesh/MeshUtilities.hpp:148-164`): the code has
one vector over the polygons for each field. -/
structure CellGeo (K : Type) where
  vertices : List (V3 K)
  box : V3 K × V3 K
  triangles : List (V3 K × V3 K × V3 K)
  area : K
  centroid : V3 K
  diameter : K
  directions : List Bool
  edgesCentroid : List (V3 K)
  lengths : List K
  tangents : List (V3 K)
  normals : List (V3 K)

variable {K : Type} [Field K] [LinearOrder K] [IsStrictOrderedRing K]

/-- The triangles of a convex polygon: the aligned vertices are left out, and the others are joined with the first of
them (`GeDiM/src/Mesh/MeshUtilities2D.cpp:684-696`). -/
def GeoCfg.convexTriangles (g : GeoCfg K) (sqrt : K → K) (vs : List (V3 K)) : Res (List (V3 K × V3 K × V3 K)) := do
  let filter ← g.unalignedPoints sqrt vs 0
  let us ← extractPoints vs filter
  let tri ← g.triangulationByFirstVertex sqrt us
  let tri ← mapRes (vget filter) tri
  extractTriangulationPoints vs tri

/-- The direction of the edge `e` of a polygon with `num` edges
(`GeDiM/src/Mesh/MeshUtilities2D.cpp:728-734`). -/
def Mesh.edgeDirection (m : Mesh K) (c num e : Nat) : Res Bool := do
  let o ← m.entry .vert2 c e
  let d ← m.entry .vert2 c ((e + 1) % num)
  let k ← m.findEdgeByExt .edge2 c o d
  ok (decide (k = e))

/-- The data of one polygon (`GeDiM/src/Mesh/MeshUtilities2D.cpp:680-739`). -/
def GeoCfg.cellGeo (g : GeoCfg K) (sqrt : K → K) (m : Mesh K) (c : Nat) : Res (CellGeo K) := do
  let vs ← m.cellPoints c
  let ts ← g.convexTriangles sqrt vs
  let areas ← mapRes (fun t => g.polygonArea [t.1, t.2.1, t.2.2]) ts
  let centroid ← centroidOfParts (ts.map triangleBarycenter) areas areas.sum
  let box ← pointsBoundingBox vs
  let diameter ← g.pointsMaxDistance sqrt vs
  let num ← m.rowSize .edge2 c
  let directions ← mapRes (m.edgeDirection c num) (List.range num)
  let edgesCentroid ← polygonEdgesCentroid vs
  let lengths ← polygonEdgeLengths sqrt vs
  let tangents ← polygonEdgeTangents vs
  let normals ← g.polygonEdgeNormals sqrt vs
  ok { vertices := vs, box, triangles := ts, area := areas.sum, centroid, diameter, directions, edgesCentroid,
       lengths, tangents, normals }

/-- `FillMesh2DGeometricData` (`GeDiM/src/Mesh/MeshUtilities2D.cpp:655-743`). The entries of polygons that are not
active keep what `resize` made: here `none`. -/
def GeoCfg.fillGeo (g : GeoCfg K) (sqrt : K → K) (m : Mesh K) : Res (List (Option (CellGeo K))) :=
  mapRes (fun c => do
    let act ← m.active .d2 c
    if act then do
      let d ← g.cellGeo sqrt m c
      ok (some d)
    else ok none) (List.range (m.num .d2))

/-- `CheckMeshGeometricData2DConfiguration` (`GeDiM/src/Mesh/MeshUtilities.hpp:55-63`); the two orders of quadrature
rules are not used. -/
structure GeoCheckCfg where
  cell1DMeasure : Bool := true
  cell1DNormals : Bool := true
  cell2DMeasure : Bool := true
  cell2DTriangles : Bool := true

/-- One loop of `CheckMeshGeometricData2D`: a test on the data of each active polygon. The index runs to the number of
polyhedra (`GeDiM/src/Mesh/MeshUtilities2D.cpp:422,437,465,477`). Data of an active polygon that were never filled are
outside of the vectors that the test reads: undefined behaviour. -/
def Mesh.testData (m : Mesh K) (data : List (Option (CellGeo K))) (test : Nat → CellGeo K → Res Unit) : Res Unit :=
  forEach 0 (m.num .d3) fun c => do
    let act ← m.active .d2 c
    if act then do
      let d ← vget data c
      match d with
      | none => ub
      | some d => test c d
    else ok ()

/-- Check of the lengths (`GeDiM/src/Mesh/MeshUtilities2D.cpp:420-431`). -/
def GeoCfg.testLengths (g : GeoCfg K) (m : Mesh K) (c : Nat) (d : CellGeo K) : Res Unit := do
  let num ← m.rowSize .edge2 c
  forEach 0 num fun e => do
    let l ← vget d.lengths e
    assert (g.isValuePositive l g.tol1D = true)

/-- Check of the normals (`GeDiM/src/Mesh/MeshUtilities2D.cpp:433-461`). The message is left out. -/
def GeoCfg.testNormals (g : GeoCfg K) (tol2D : K) (d : CellGeo K) : Res Unit := do
  let a ← polygonAreaByBoundaryIntegral d.vertices d.lengths d.tangents d.normals midRule.1 midRule.2
  assert (g.areValuesEqual d.area a tol2D = true)

/-- Check of the area (`GeDiM/src/Mesh/MeshUtilities2D.cpp:463-473`). -/
def GeoCfg.testArea (g : GeoCfg K) (tol2D : K) (d : CellGeo K) : Res Unit :=
  assert (g.isValuePositive d.area tol2D = true)

/-- Check of the triangles (`GeDiM/src/Mesh/MeshUtilities2D.cpp:475-496`). The message is left out. -/
def GeoCfg.testTriangles (g : GeoCfg K) (tol2D : K) (d : CellGeo K) : Res Unit := do
  let a ← polygonAreaByInternalIntegral d.triangles halfRule
  assert (g.areValuesEqual d.area a tol2D = true)

/-- `CheckMeshGeometricData2D` (`GeDiM/src/Mesh/MeshUtilities2D.cpp:415-497`). -/
def GeoCfg.checkGeo (g : GeoCfg K) (tol2D : K) (cfg : GeoCheckCfg) (m : Mesh K) (data : List (Option (CellGeo K))) :
    Res Unit := do
  testIf cfg.cell1DMeasure (m.testData data (g.testLengths m))
  testIf cfg.cell1DNormals (m.testData data fun _ => g.testNormals tol2D)
  testIf cfg.cell2DMeasure (m.testData data fun _ => g.testArea tol2D)
  testIf cfg.cell2DTriangles (m.testData data fun _ => g.testTriangles tol2D)

end Verif
