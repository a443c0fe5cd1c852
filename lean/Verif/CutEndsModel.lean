import Verif.UnionModel
import Verif.CommonModel

/-
The ends and the segments of the intersection of a mesh with a segment: parts of `GeDiM/src/Mesh/IntersectorMesh2DSegment.cpp`.
`std::map<double, _>` is a list of pairs with increasing keys, `std::set<unsigned int>` an increasing list.
-/
namespace Verif

open Res

variable {K : Type} [Field K] [LinearOrder K] [IsStrictOrderedRing K]

/-- `IntersectionMeshPoint` (`GeDiM/src/Mesh/IntersectorMesh2DSegment.hpp`): the polygons, edges and vertices of the mesh at the point. -/
structure CutPoint where
  cells2 : List Nat := []
  cells1 : List Nat := []
  cells0 : List Nat := []
  deriving DecidableEq, Repr

/-- `IntersectionMeshSegment` (`GeDiM/src/Mesh/IntersectorMesh2DSegment.hpp`). -/
structure CutSegment (K : Type) where
  ends : K × K
  cells2 : List Nat
  cells1 : List Nat
  deriving DecidableEq

/-- `InsertNewIntersection` (`GeDiM/src/Mesh/IntersectorMesh2DSegment.cpp:61-89`): the map, the key of the point that is returned and the
flag `found`. The value -1 of `foundCoordinate` means that no point was found. -/
def insertCut (g : GeoCfg K) (c : K) (points : List (K × CutPoint)) : List (K × CutPoint) × K × Bool :=
  let foundCoordinate := ((points.find? fun p => !g.isValuePositive |p.1 - c| g.tol1D).map (·.1)).getD (-1)
  if foundCoordinate ≠ -1 then (points, foundCoordinate, true)
  else (kmapInsert c {} points, c, false)

/-- One end (`GeDiM/src/Mesh/IntersectorMesh2DSegment.cpp:445-453`, `:456-465`). `e` is the first or last element; the reference in the code
is to a copy, since the types of the pairs differ. -/
def cutEnd (g : GeoCfg K) (c : K) (e : K × CutPoint) (points : List (K × CutPoint)) : Res (List (K × CutPoint)) :=
  let r := insertCut g c points
  if r.2.2 = true then ok r.1
  else do
    let m ← kmapModify r.2.1 (fun _ => ok e.2) r.1
    ok (m.filter fun p => decide (p.1 ≠ e.1))

/-- `CheckOriginAndEndPointExistence` (`GeDiM/src/Mesh/IntersectorMesh2DSegment.cpp:441-466`), with the assertion before its call (`:616`). -/
def cutEnds (g : GeoCfg K) (points : List (K × CutPoint)) : Res (List (K × CutPoint)) := do
  assert (1 < points.length)
  match points.head? with
  | none => ub
  | some e => do
      let m ← cutEnd g 0 e points
      match m.getLast? with
      | none => ub
      | some e => cutEnd g 1 e m

/-- The loop of `CreateIntersectionSegments` (`GeDiM/src/Mesh/IntersectorMesh2DSegment.cpp:411-438`) and of `CreateConformSegments`, which has
the same body (`GeDiM/src/Mesh/ConformerMeshSegment.cpp:159-186`). -/
def cutSegmentsLoop : List (K × CutPoint) → List (CutSegment K)
  | p :: q :: l =>
      ⟨(p.1, q.1), setIntersection p.2.cells2 q.2.cells2, setIntersection p.2.cells1 q.2.cells1⟩ :: cutSegmentsLoop (q :: l)
  | _ => []

/-- `CreateIntersectionSegments` (`GeDiM/src/Mesh/IntersectorMesh2DSegment.cpp:405-439`) and `CreateConformSegments`
(`GeDiM/src/Mesh/ConformerMeshSegment.cpp:153-187`). Without points the number of segments is the largest `size_t`, and `resize` throws. -/
def cutSegments (points : List (K × CutPoint)) : Res (List (CutSegment K)) :=
  if points.length = 0 then throw else ok (cutSegmentsLoop points)

end Verif
