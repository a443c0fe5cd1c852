import Verif.IntersectModel

/-
Position of a line with respect to a polygon: `LinePolygonPosition` of
`GeDiM/src/Geometry/GeometryUtilities_Polygon.cpp`. `double` is an arbitrary ordered field; the square
root is a parameter.
-/
namespace Verif

open Res

variable {K : Type} [Field K] [LinearOrder K] [IsStrictOrderedRing K]

/-- `LinePolygonPositionResult::EdgeIntersection::Types` without `Unknown`
(`GeDiM/src/Geometry/GeometryUtilities.hpp:622-629`). -/
inductive EdgeHitType where
  | onEdgeOrigin
  | insideEdge
  | onEdgeEnd
  | parallel
  deriving DecidableEq, Repr

/-- `LinePolygonPositionResult::EdgeIntersection`
(`GeDiM/src/Geometry/GeometryUtilities.hpp:620-635`). -/
structure EdgeHit (K : Type) where
  type : EdgeHitType
  index : Nat
  coord : K
  deriving DecidableEq

/-- `LinePolygonPositionResult` (`GeDiM/src/Geometry/GeometryUtilities.hpp:611-640`); `intersecting`
stands for `Types::Intersecting` against `Types::Outside`. -/
structure LinePolygonResult (K : Type) where
  intersecting : Bool
  hits : List (EdgeHit K)
  deriving DecidableEq

/-- The choice of the entry for an edge with a position on the line through it
(`GeDiM/src/Geometry/GeometryUtilities_Polygon.cpp:1628-1658`); `none` is `continue` without entry.
The `default` cases are positions that `PointSegmentPosition` does not give. -/
def edgeHitOf (e : Nat) (p : SegPos K) : Option (EdgeHit K) :=
  match p.type with
  | .onSegmentOrigin => some ⟨.onEdgeOrigin, e, p.coord⟩
  | .insideSegment => some ⟨.insideEdge, e, p.coord⟩
  | .onSegmentEnd => some ⟨.onEdgeEnd, e, p.coord⟩
  | _ => none

/-- One round of the loop over the edges
(`GeDiM/src/Geometry/GeometryUtilities_Polygon.cpp:1600-1664`). `FirstSegmentIntersections[0]` is an
unchecked access. -/
def edgeHit (e : Nat) (r : SegSegResult K) : Res (Option (EdgeHit K)) :=
  if r.lines = .onDifferentPlanes then ok none
  else if r.lines = .coPlanarParallel ∧ r.segments = .noIntersection then ok none
  else if r.segments = .multipleIntersections then ok (some ⟨.parallel, e, 0⟩)
  else do
    let p ← vget r.first 0
    ok (edgeHitOf e p)

/-- The loop over the edges with what it has collected
(`GeDiM/src/Geometry/GeometryUtilities_Polygon.cpp:1598-1665`). -/
def GeoCfg.linePolygonStep (g : GeoCfg K) (sqrt : K → K) (tangent origin : V3 K) (vs : List (V3 K))
    (acc : LinePolygonResult K) (e : Nat) : Res (LinePolygonResult K) := do
  let a ← vget vs e
  let b ← vget vs ((e + 1) % vs.length)
  let r ← g.intersectionSegmentSegment sqrt a b origin (origin.add tangent)
  let h ← edgeHit e r
  match h with
  | none => ok acc
  | some x => ok ⟨true, acc.hits ++ [x]⟩

/-- `LinePolygonPosition` (`GeDiM/src/Geometry/GeometryUtilities_Polygon.cpp:1587-1672`). -/
def GeoCfg.linePolygonPosition (g : GeoCfg K) (sqrt : K → K) (tangent origin : V3 K)
    (vs : List (V3 K)) : Res (LinePolygonResult K) :=
  foldRes (g.linePolygonStep sqrt tangent origin vs) ⟨false, []⟩ (List.range vs.length)

end Verif
