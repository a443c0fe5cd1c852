import Verif.PointPosModel
import Verif.BisectModel
import Verif.ExtractModel

/-!
# The cells of a mesh that contain a point

`FindPointCell2D` and `FindPointMeshPosition` (`GeDiM/src/Mesh/MeshUtilities2D.cpp:2388-2465`), and the functions with
the same name for the cells of dimension three (`GeDiM/src/Mesh/MeshUtilities3D.cpp:2195-2289`). The sum of the first
number and the counter of the loop is taken without overflow.
-/

namespace Verif
open Res

variable {K : Type} [Field K] [LinearOrder K] [IsStrictOrderedRing K]

/-- The loop over the cells with the given numbers. `test` gives the position of the point, or `none` if the cell is not
active, its box does not have the point or the point is outside; `found` are the cells so far. -/
def findLoop {P : Type} (test : Nat → Res (Option P)) (onlyFirst : Bool) :
    List Nat → List (Nat × P) → Res (List (Nat × P))
  | [], found => ok found
  | c :: rest, found => do
      match ← test c with
      | none => findLoop test onlyFirst rest found
      | some p => if onlyFirst then ok (found ++ [(c, p)]) else findLoop test onlyFirst rest (found ++ [(c, p)])

/-- The numbers of the cells in the order of the loop. -/
def findOrder (n start : Nat) : List Nat := (List.range n).map fun c => (start + c) % n

/-- The body of the loop for one polygon (`GeDiM/src/Mesh/MeshUtilities2D.cpp:2400-2423`). -/
def GeoCfg.findTest2D (g : GeoCfg K) (sqrt : K → K) (point : V3 K) (m : Mesh K) (cellVertices : List (List (V3 K)))
    (boxes : List (V3 K × V3 K)) (c : Nat) : Res (Option PointPolygonPos) := do
  let active ← m.active .d2 c
  if active = false then ok none
  else do
    let box ← vat boxes c
    if g.isPointInBoundingBox point box = false then ok none
    else do
      let vs ← vat cellVertices c
      let pos ← g.pointPolygonPosition sqrt point vs
      match pos with
      | .outside => ok none
      | pos => ok (some pos)

/-- `FindPointCell2D` (`GeDiM/src/Mesh/MeshUtilities2D.cpp:2388-2429`). -/
def GeoCfg.findPointCell2D (g : GeoCfg K) (sqrt : K → K) (point : V3 K) (m : Mesh K)
    (cellVertices : List (List (V3 K))) (boxes : List (V3 K × V3 K)) (onlyFirst : Bool) (start : Nat) :
    Res (List (Nat × PointPolygonPos)) :=
  findLoop (g.findTest2D sqrt point m cellVertices boxes) onlyFirst (findOrder (m.num .d2) start) []

/-- `FindPointMeshPosition` for polygons (`GeDiM/src/Mesh/MeshUtilities2D.cpp:2431-2464`): the dimension and the number
of the cell whose relative interior has the point. -/
def findMeshPosition2D (m : Mesh K) (found : List (Nat × PointPolygonPos)) : Res (List (Dim × Nat)) :=
  mapRes (fun f => do
    match f.2 with
    | .inside => ok (.d2, f.1)
    | .borderEdge i => do
        let e ← m.entry .edge2 f.1 i
        ok (.d1, e)
    | .borderVertex i => do
        let v ← m.entry .vert2 f.1 i
        ok (.d0, v)
    | .outside => throw) found

/-- The body of the loop for one polyhedron (`GeDiM/src/Mesh/MeshUtilities3D.cpp:2250-2284`). -/
def GeoCfg.findTest3D (g : GeoCfg K) (sqrt : K → K) (point : V3 K) (m : Mesh K)
    (cellFaces : List (List (PolyhedronFace K))) (boxes : List (V3 K × V3 K)) (c : Nat) :
    Res (Option PointPolyhedronPos) := do
  let active ← m.active .d3 c
  if active = false then ok none
  else do
    let box ← vat boxes c
    if g.isPointInBoundingBox point box = false then ok none
    else do
      let fs ← vat cellFaces c
      let pos ← g.pointPolyhedronPosition sqrt point fs
      match pos with
      | .outside => ok none
      | pos => ok (some pos)

/-- `FindPointCell3D` for convex polyhedra (`GeDiM/src/Mesh/MeshUtilities3D.cpp:2233-2289`). -/
def GeoCfg.findPointCell3D (g : GeoCfg K) (sqrt : K → K) (point : V3 K) (m : Mesh K)
    (cellFaces : List (List (PolyhedronFace K))) (boxes : List (V3 K × V3 K)) (onlyFirst : Bool) (start : Nat) :
    Res (List (Nat × PointPolyhedronPos)) :=
  findLoop (g.findTest3D sqrt point m cellFaces boxes) onlyFirst (findOrder (m.num .d3) start) []

/-- `FindPointMeshPosition` for polyhedra (`GeDiM/src/Mesh/MeshUtilities3D.cpp:2195-2231`). -/
def findMeshPosition3D (m : Mesh K) (found : List (Nat × PointPolyhedronPos)) : Res (List (Dim × Nat)) :=
  mapRes (fun f => do
    match f.2 with
    | .inside => ok (.d3, f.1)
    | .borderFace i => do
        let e ← m.entry .face3 f.1 i
        ok (.d2, e)
    | .borderEdge i => do
        let e ← m.entry .edge3 f.1 i
        ok (.d1, e)
    | .borderVertex i => do
        let v ← m.entry .vert3 f.1 i
        ok (.d0, v)
    | .outside => throw) found

end Verif
