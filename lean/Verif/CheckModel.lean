import Verif.BisectModel
import Verif.OrientModel
import Verif.HullModel

/-
The check of a mesh in the plane: `CheckMesh2D` (`GeDiM/src/Mesh/MeshUtilities2D.cpp:269-413`). `double` is an
arbitrary ordered field; `tol2D` is the value of `Tolerance2D()`. `std::sort` of numbers is `List.mergeSort`.
-/
namespace Verif

open Res

variable {K : Type} [Field K] [LinearOrder K] [IsStrictOrderedRing K]

/-- `CheckMesh2DConfiguration` (`GeDiM/src/Mesh/MeshUtilities.hpp:25-36`). -/
structure CheckCfg where
  cell0DCoordinates2D : Bool := true
  cell0DDuplications : Bool := true
  cell1DDuplications : Bool := true
  cell1DNeighbours : Bool := true
  cell1DMeasure : Bool := true
  cell2DEdges : Bool := true
  cell2DDuplications : Bool := true
  cell2DConvexity : Bool := true
  cell2DMeasure : Bool := true

/-- A loop `for (i = first; i < n; i++)` of checks. -/
def forEach (first n : Nat) (f : Nat → Res Unit) : Res Unit :=
  foldRes (fun _ i => f i) () (List.range' first (n - first))

/-- A test that is made if it is switched on, for instance `if (configuration.Cell0D_CheckDuplications)`
(`GeDiM/src/Mesh/MeshUtilities2D.cpp:280`). -/
def testIf (b : Bool) (r : Res Unit) : Res Unit := if b then r else ok ()

/-- `Cell2DVerticesCoordinates` (`GeDiM/src/Mesh/MeshMatricesDAO.cpp:1005-1011`). -/
def Mesh.cellPoints (m : Mesh K) (p : Nat) : Res (List (V3 K)) := do
  let vs ← m.row .vert2 p
  mapRes m.point vs

/-- Check of the coordinates (`GeDiM/src/Mesh/MeshUtilities2D.cpp:275-277`), with `Cell0DsCoordinates`
(`GeDiM/src/Mesh/MeshMatricesDAO.cpp:272-278`). -/
def GeoCfg.checkPlanar (g : GeoCfg K) (m : Mesh K) : Res Unit := do
  let ps ← mapRes m.point (List.range (m.num .d0))
  let flat ← g.pointsAre2D ps
  assert (flat = true)

/-- Check of the duplications of vertices (`GeDiM/src/Mesh/MeshUtilities2D.cpp:280-290`). -/
def GeoCfg.checkVertices (g : GeoCfg K) (sqrt : K → K) (m : Mesh K) : Res Unit :=
  forEach 0 (m.num .d0) fun p1 =>
    forEach (p1 + 1) (m.num .d0) fun p2 => do
      let a ← m.point p1
      let b ← m.point p2
      assert (g.isValueZero ((b.sub a).norm sqrt) g.tol1D = false)

/-- Check of the duplications of edges (`GeDiM/src/Mesh/MeshUtilities2D.cpp:292-308`). -/
def Mesh.checkEdgeCopies (m : Mesh K) : Res Unit :=
  forEach 0 (m.num .d1) fun e1 => do
    let x ← m.extremes e1
    let f ← m.cell1DByExt x.1 x.2
    assert (f = e1)
    let b ← m.cell1DByExt x.2 x.1
    assert (b = m.num .d1)
    forEach (e1 + 1) (m.num .d1) fun e2 => do
      let y ← m.extremes e2
      assert (¬ (x.1 = y.1 ∧ x.2 = y.2))
      assert (¬ (x.2 = y.1 ∧ x.1 = y.2))

/-- Check of one neighbour `n` of the edge `e` (`GeDiM/src/Mesh/MeshUtilities2D.cpp:318-333`). The second search is
made only if the result of the first one is one of the two values. -/
def Mesh.checkNeighbour (m : Mesh K) (e n : Nat) : Res Unit := do
  let has ← m.hasEntry .nb12 e n
  if has then do
    let t ← m.entry .nb12 e n
    let num ← m.rowSize .edge2 t
    let k ← m.findEntry .edge2 t e
    if num = 0 then ub
    else do
      let o ← m.entry .vert2 t ((k + 1) % num)
      let d ← m.entry .vert2 t k
      let a ← m.findEdgeByExt .edge2 t o d
      if a = k ∨ a = num then do
        let b ← m.findEdgeByExt .edge2 t d o
        assert ((a = k ∧ b = num) ∨ (a = num ∧ b = k))
      else abort
  else ok ()

/-- Check of the neighbours (`GeDiM/src/Mesh/MeshUtilities2D.cpp:310-335`). -/
def Mesh.checkNeighbours (m : Mesh K) : Res Unit :=
  forEach 0 (m.num .d1) fun e => do
    let s ← m.rowSize .nb12 e
    assert (0 < s)
    forEach 0 s (m.checkNeighbour e)

/-- Check of the lengths (`GeDiM/src/Mesh/MeshUtilities2D.cpp:337-345`). -/
def GeoCfg.checkLengths (g : GeoCfg K) (sqrt : K → K) (m : Mesh K) : Res Unit :=
  forEach 0 (m.num .d1) fun e => do
    let x ← m.extremes e
    let a ← m.point x.1
    let b ← m.point x.2
    assert (g.isValuePositive ((b.sub a).norm sqrt) g.tol1D = true)

/-- Check of the edges of the polygons (`GeDiM/src/Mesh/MeshUtilities2D.cpp:347-364`). -/
def Mesh.checkSides (m : Mesh K) : Res Unit :=
  forEach 0 (m.num .d2) fun p => do
    let num ← m.rowSize .edge2 p
    forEach 0 num fun v => do
      let o ← m.entry .vert2 p v
      let d ← m.entry .vert2 p ((v + 1) % num)
      let a ← m.findEdgeByExt .edge2 p o d
      let b ← m.findEdgeByExt .edge2 p d o
      assert ((a < num ∧ a = v) ∨ (b < num ∧ b = v))

/-- Check of the duplications of polygons (`GeDiM/src/Mesh/MeshUtilities2D.cpp:366-388`). -/
def Mesh.checkPolygonCopies (m : Mesh K) : Res Unit :=
  forEach 0 (m.num .d2) fun p1 => do
    let v1 ← m.row .vert2 p1
    let e1 ← m.row .edge2 p1
    forEach (p1 + 1) (m.num .d2) fun p2 => do
      let v2 ← m.row .vert2 p2
      let e2 ← m.row .edge2 p2
      assert (v1.mergeSort.length ≠ v2.mergeSort.length ∨ ¬ v1.mergeSort = v2.mergeSort)
      assert (e1.mergeSort.length ≠ e2.mergeSort.length ∨ ¬ e1.mergeSort = e2.mergeSort)

/-- Check of the convexity (`GeDiM/src/Mesh/MeshUtilities2D.cpp:390-403`). -/
def GeoCfg.checkConvexity (g : GeoCfg K) (sqrt : K → K)
    (sort : (HullPt K → HullPt K → Bool) → List (HullPt K) → List (HullPt K)) (m : Mesh K) : Res Unit :=
  forEach 0 (m.num .d2) fun p => do
    let ps ← m.cellPoints p
    let filter ← g.unalignedPoints sqrt ps 0
    let us ← extractPoints ps filter
    let hull ← g.convexHull sqrt sort us true
    let hs ← extractPoints us hull
    let convex ← g.polygonIsConvex sqrt us hs
    assert (convex = true)

/-- Check of the areas (`GeDiM/src/Mesh/MeshUtilities2D.cpp:405-412`). -/
def GeoCfg.checkAreas (g : GeoCfg K) (tol2D : K) (m : Mesh K) : Res Unit :=
  forEach 0 (m.num .d2) fun p => do
    let ps ← m.cellPoints p
    let a ← g.polygonArea ps
    assert (g.isValuePositive a tol2D = true)

/-- `CheckMesh2D` (`GeDiM/src/Mesh/MeshUtilities2D.cpp:269-413`). -/
def GeoCfg.checkMesh2D (g : GeoCfg K) (sqrt : K → K)
    (sort : (HullPt K → HullPt K → Bool) → List (HullPt K) → List (HullPt K)) (tol2D : K) (cfg : CheckCfg)
    (m : Mesh K) : Res Unit := do
  assert (m.dimension = 2)
  testIf cfg.cell0DCoordinates2D (g.checkPlanar m)
  testIf cfg.cell0DDuplications (g.checkVertices sqrt m)
  testIf cfg.cell1DDuplications m.checkEdgeCopies
  testIf cfg.cell1DNeighbours m.checkNeighbours
  testIf cfg.cell1DMeasure (g.checkLengths sqrt m)
  testIf cfg.cell2DEdges m.checkSides
  testIf cfg.cell2DDuplications m.checkPolygonCopies
  testIf cfg.cell2DConvexity (g.checkConvexity sqrt sort m)
  testIf cfg.cell2DMeasure (g.checkAreas tol2D m)

end Verif
