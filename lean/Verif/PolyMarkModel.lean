import Verif.MarkModel
import Verif.MetisModel

/-
`MeshUtilities::ChangePolygonMeshMarkers` and `SetPolygonMeshMarkers`
(`GeDiM/src/Mesh/MeshUtilities2D.cpp:2016-2115`). `double` is an arbitrary ordered field.
-/
namespace Verif

open Res

variable {K : Type} [Field K] [LinearOrder K] [IsStrictOrderedRing K]

namespace Mesh

/-- The new marker of a vertex (`GeDiM/src/Mesh/MeshUtilities2D.cpp:2030-2032`); the marker is not zero. -/
def changedMarker0 (n : Nat) (c0 c1 : List Nat) (mk : Nat) : Res Nat :=
  if mk ≤ n then vat c0 (mk - 1) else vat c1 (mk - n - 1)

/-- The new marker of an edge (`GeDiM/src/Mesh/MeshUtilities2D.cpp:2042`); the marker is not zero. With a marker up to `n`
the difference wraps around to a number near 2³²; vectors are assumed to be shorter, so `at` throws. -/
def changedMarker1 (n : Nat) (c1 : List Nat) (mk : Nat) : Res Nat :=
  if mk ≤ n then throw else vat c1 (mk - n - 1)

/-- One round of a loop over cells (`GeDiM/src/Mesh/MeshUtilities2D.cpp:2025-2035`, `:2037-2045`): marker zero is kept. -/
def changeMarker (d : Dim) (f : Nat → Res Nat) (m : Mesh K) (i : Nat) : Res (Mesh K) := do
  let mk ← m.marker d i
  if mk = 0 then ok m
  else do
    let k ← f mk
    m.setMark d i k

/-- `ChangePolygonMeshMarkers` (`GeDiM/src/Mesh/MeshUtilities2D.cpp:2016-2046`); `n` is the number of vertices of the
polygon. -/
def changePolygonMarkers (n : Nat) (c0 c1 : List Nat) (m : Mesh K) : Res (Mesh K) := do
  assert (m.dimension = 2)
  let m ← foldRes (changeMarker .d0 (changedMarker0 n c0 c1)) m (List.range (m.num .d0))
  foldRes (changeMarker .d1 (changedMarker1 n c1)) m (List.range (m.num .d1))

end Mesh

/-- The test of a vertex in `SetPolygonMeshMarkers` (`GeDiM/src/Mesh/MeshUtilities2D.cpp:2072-2101`): `none` if the vertex
is not on the edge `e`, otherwise the new marker, if it gets one. The vectors of markers are read without check. -/
def GeoCfg.vertexOnEdge (g : GeoCfg K) (sqrt : K → K) (o t : V3 K) (sq : K) (c0 c1 : List Nat) (e : Nat) (p : V3 K) :
    Res (Option (Option Nat)) :=
  if g.isPointOnLine p o t sq = false then ok none
  else do
    match ← g.pointSegmentSide sqrt p o (o.add t) with
    | .rightTheSegment => ok none
    | .leftTheSegment => ok none
    | .onSegmentLineAfterEnd => ok none
    | .onSegmentLineBeforeOrigin => ok none
    | .onSegmentOrigin => do
        let k ← vget c0 e
        ok (some (some k))
    | .onSegmentEnd => ok (some none)
    | .insideSegment => do
        let k ← vget c1 e
        ok (some (some k))

namespace Mesh

/-- One round of the loop over the vertices (`GeDiM/src/Mesh/MeshUtilities2D.cpp:2068-2102`); the second component is the
vector `vertices_on_segment`. -/
def markVertexBy (test : V3 K → Res (Option (Option Nat))) (s : Mesh K × List Bool) (v : Nat) :
    Res (Mesh K × List Bool) := do
  let p ← s.1.point v
  match ← test p with
  | none => ok s
  | some none => do
      let on ← vset s.2 v true
      ok (s.1, on)
  | some (some k) => do
      let on ← vset s.2 v true
      let m ← s.1.setMark .d0 v k
      ok (m, on)

/-- One round of the loop over the edges of the mesh (`GeDiM/src/Mesh/MeshUtilities2D.cpp:2105-2113`). The second flag is
read only if the first is set, the marker only if both are. -/
def markEdgeBy (on : List Bool) (c1 : List Nat) (e : Nat) (m : Mesh K) (s : Nat) : Res (Mesh K) := do
  let x ← m.extremes s
  let a ← vget on x.1
  if a then do
    let b ← vget on x.2
    if b then do
      let k ← vget c1 e
      m.setMark .d1 s k
    else ok m
  else ok m

/-- One round of the loop over the edges of the polygon (`GeDiM/src/Mesh/MeshUtilities2D.cpp:2058-2114`). -/
def markPolygonEdge (g : GeoCfg K) (sqrt : K → K) (vs : List (V3 K)) (c0 c1 : List Nat) (m : Mesh K) (e : Nat) :
    Res (Mesh K) := do
  let o ← vget vs e
  let b ← vget vs ((e + 1) % vs.length)
  let t := b.sub o
  let s ← foldRes (markVertexBy (g.vertexOnEdge sqrt o t (t.dot t) c0 c1 e))
    (m, List.replicate (m.num .d0) false) (List.range (m.num .d0))
  foldRes (markEdgeBy s.2 c1 e) s.1 (List.range (s.1.num .d1))

/-- `SetPolygonMeshMarkers` (`GeDiM/src/Mesh/MeshUtilities2D.cpp:2048-2115`). -/
def setPolygonMarkers (g : GeoCfg K) (sqrt : K → K) (vs : List (V3 K)) (c0 c1 : List Nat) (m : Mesh K) :
    Res (Mesh K) := do
  assert (m.dimension = 2)
  foldRes (markPolygonEdge g sqrt vs c0 c1) m (List.range vs.length)

end Mesh

end Verif
