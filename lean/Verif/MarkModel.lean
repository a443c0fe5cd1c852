import Verif.BisectModel
import Verif.PointPosModel

/-
`MeshUtilities::SetMeshMarkersOnLine` and `SetMeshMarkersOnSegment`
(`GeDiM/src/Mesh/MeshUtilities2D.cpp:557-637`). `double` is an arbitrary ordered field.
-/
namespace Verif

open Res

variable {K : Type} [Field K] [LinearOrder K] [IsStrictOrderedRing K]

/-- `IsPointOnLine` (`GeDiM/src/Geometry/GeometryUtilities_Point.cpp:99-111`); `sq` is the squared length of the
tangent, as the caller gives it. For `sq = 0` the quotient is infinite or not a number, and the second test
fails. -/
def GeoCfg.isPointOnLine (g : GeoCfg K) (p o t : V3 K) (sq : K) : Bool :=
  let d := p.sub o
  let c := d.cross t
  g.isValueZero (d.dot d) g.tol1DSquared || (sq ≠ 0 && g.isValueZero (c.dot c / sq) g.tol1DSquared)

/-- The test of a vertex in `SetMeshMarkersOnSegment` (`GeDiM/src/Mesh/MeshUtilities2D.cpp:600-622`). -/
def GeoCfg.isVertexOnSegment (g : GeoCfg K) (sqrt : K → K) (o t : V3 K) (sq : K) (p : V3 K) : Res Bool :=
  if g.isPointOnLine p o t sq = false then ok false
  else do
    match ← g.pointSegmentSide sqrt p o (o.add t) with
    | .rightTheSegment => ok false
    | .leftTheSegment => ok false
    | .onSegmentLineAfterEnd => ok false
    | .onSegmentLineBeforeOrigin => ok false
    | .onSegmentOrigin => ok true
    | .onSegmentEnd => ok true
    | .insideSegment => ok true

namespace Mesh

/-- One round of the loop over the vertices (`GeDiM/src/Mesh/MeshUtilities2D.cpp:568-575`, `:595-622`); `test`
decides if the vertex is marked. The second component is the vector `vertices_on_line`. -/
def markVertex (test : V3 K → Res Bool) (marker : Nat) (s : Mesh K × List Bool) (v : Nat) :
    Res (Mesh K × List Bool) := do
  let p ← s.1.point v
  let b ← test p
  if b then do
    let on ← vset s.2 v true
    let m ← s.1.setMark .d0 v marker
    ok (m, on)
  else ok s

/-- One round of the loop over the edges (`GeDiM/src/Mesh/MeshUtilities2D.cpp:578-586`, `:627-635`). The second
flag is read only if the first is set. -/
def markEdge (on : List Bool) (marker : Nat) (m : Mesh K) (e : Nat) : Res (Mesh K) := do
  let x ← m.extremes e
  let a ← vget on x.1
  if a then do
    let b ← vget on x.2
    if b then m.setMark .d1 e marker else ok m
  else ok m

/-- The two loops (`GeDiM/src/Mesh/MeshUtilities2D.cpp:566-587`, `:594-636`). -/
def markOn (test : V3 K → Res Bool) (marker : Nat) (m : Mesh K) : Res (Mesh K) := do
  let s ← foldRes (markVertex test marker) (m, List.replicate (m.num .d0) false) (List.range (m.num .d0))
  foldRes (markEdge s.2 marker) s.1 (List.range (s.1.num .d1))

end Mesh

/-- `SetMeshMarkersOnLine` (`GeDiM/src/Mesh/MeshUtilities2D.cpp:559-587`). -/
def GeoCfg.setMarkersOnLine (g : GeoCfg K) (o t : V3 K) (sq : K) (marker : Nat) (m : Mesh K) : Res (Mesh K) :=
  m.markOn (fun p => ok (g.isPointOnLine p o t sq)) marker

/-- `SetMeshMarkersOnSegment` (`GeDiM/src/Mesh/MeshUtilities2D.cpp:589-637`). -/
def GeoCfg.setMarkersOnSegment (g : GeoCfg K) (sqrt : K → K) (o t : V3 K) (sq : K) (marker : Nat) (m : Mesh K) :
    Res (Mesh K) :=
  m.markOn (g.isVertexOnSegment sqrt o t sq) marker

end Verif
