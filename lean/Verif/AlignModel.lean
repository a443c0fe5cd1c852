import Verif.GraphModel
import Verif.PolygonModel
import Verif.HullModel

/-!
# The lines of the edges of a polyhedron

`GeDiM/src/Geometry/GeometryUtilities_Polyhedron.cpp:1388-1524`.
-/

namespace Verif
open Res

variable {K : Type} [Field K] [LinearOrder K] [IsStrictOrderedRing K]

/-- `PointsAreOnLine` for one point (`GeDiM/src/Geometry/GeometryUtilities_Point.cpp:655-671`). -/
def GeoCfg.pointIsOnLine (g : GeoCfg K) (sqrt : K → K) (origin tangent point : V3 K) : Bool :=
  let t := tangent.normalized sqrt
  let s := (point.sub origin).normalized sqrt
  g.isValueZero ((t.cross s).norm sqrt) g.tol1D

/-- `PointLineCurvilinearCoordinate` (`GeDiM/src/Geometry/GeometryUtilities.hpp:1083-1089`). -/
def lineCoordinate (point origin tangent : V3 K) (squaredLength : K) : K :=
  (point.sub origin).dot tangent / squaredLength

/-- `SortArrayIndices` (`GeDiM/src/Common/CommonUtilities.hpp:58-66`). `sort` stands for `std::sort`; the indices
that it compares are in the range of the array. -/
def sortArrayIndices (sort : (Nat → Nat → Bool) → List Nat → List Nat) (array : List K) : List Nat :=
  sort (fun a b => decide (array.getD a 0 < array.getD b 0)) (List.range array.length)

/-- `AlignedEdge` (`GeDiM/src/Geometry/GeometryUtilities_Polyhedron.cpp:1401-1407`). -/
structure AlignedEdge (K : Type) where
  vertices : List Nat
  origin : V3 K
  tangent : V3 K
  squaredLength : K

/-- The variables of the loop: `markedVertices`, `markedSubEdges`, `alignedEdges` and `queue`
(`GeDiM/src/Geometry/GeometryUtilities_Polyhedron.cpp:1396-1411`). -/
structure AlignState (K : Type) where
  vertexMarks : List Bool
  edgeMarks : List (List Bool)
  lines : List (AlignedEdge K)
  queue : List Nat

/-- `push_back` of a vertex that is not in the list yet
(`GeDiM/src/Geometry/GeometryUtilities_Polyhedron.cpp:1472-1478`). -/
def addVertex (vs : List Nat) (v : Nat) : List Nat := if v ∈ vs then vs else vs ++ [v]

/-- The first line with both ends of the edge gets its vertices, or a new line is made
(`GeDiM/src/Geometry/GeometryUtilities_Polyhedron.cpp:1441-1479`). -/
def GeoCfg.insertAligned (g : GeoCfg K) (sqrt : K → K) (v w : Nat) (a b : V3 K) (line : Res (AlignedEdge K)) :
    List (AlignedEdge K) → Res (List (AlignedEdge K))
  | [] => do
      let l ← line
      ok [l]
  | l :: rest =>
      if g.pointIsOnLine sqrt l.origin l.tangent a && g.pointIsOnLine sqrt l.origin l.tangent b then
        ok ({ l with vertices := addVertex (addVertex l.vertices v) w } :: rest)
      else do
        let r ← g.insertAligned sqrt v w a b line rest
        ok (l :: r)

/-- The body of the loop over the vertices adjacent to `v`
(`GeDiM/src/Geometry/GeometryUtilities_Polyhedron.cpp:1427-1479`). The result of `find` is used without a test. -/
def GeoCfg.alignVisit (g : GeoCfg K) (sqrt : K → K) (points : List (V3 K)) (A : AdjacencyData)
    (tangents : List (V3 K)) (squaredLengths : List K) (v : Nat) (st : AlignState K) (k : Nat) :
    Res (AlignState K) := do
  let row ← vget st.edgeMarks v
  let met ← vget row k
  if met then ok st
  else do
    let vs ← vget A.vertices v
    let w ← vget vs k
    let es ← vget A.edges v
    let e ← vget es k
    let m ← vget A.verticesMap w
    match umapFind m v with
    | none => ub
    | some j => do
        let marks ← vset st.edgeMarks v (row.set k true)
        let other ← vget marks w
        let other ← vset other j true
        let marks ← vset marks w other
        let a ← vget points v
        let b ← vget points w
        let lines ← g.insertAligned sqrt v w a b (do
          let t ← vget tangents e
          let s ← vget squaredLengths e
          ok ⟨[v, w], a, t, s⟩) st.lines
        ok { st with edgeMarks := marks, lines := lines, queue := st.queue ++ [w] }

/-- The loop over the queue (`GeDiM/src/Geometry/GeometryUtilities_Polyhedron.cpp:1417-1481`). -/
def GeoCfg.alignLoop (g : GeoCfg K) (sqrt : K → K) (points : List (V3 K)) (A : AdjacencyData)
    (tangents : List (V3 K)) (squaredLengths : List K) : Nat → AlignState K → Res (AlignState K)
  | 0, _ => loop
  | fuel + 1, st =>
      match st.queue with
      | [] => ok st
      | v :: queue => do
          let met ← vget st.vertexMarks v
          if met then g.alignLoop sqrt points A tangents squaredLengths fuel { st with queue := queue }
          else do
            let vs ← vget A.vertices v
            let st ← foldRes (g.alignVisit sqrt points A tangents squaredLengths v)
              { st with vertexMarks := st.vertexMarks.set v true, queue := queue } (List.range vs.length)
            g.alignLoop sqrt points A tangents squaredLengths fuel st

/-- The number of the edge between two vertices
(`GeDiM/src/Geometry/GeometryUtilities_Polyhedron.cpp:1511-1515`). The result of `find` is used without a test. -/
def edgeBetween (A : AdjacencyData) (a b : Nat) : Res Nat := do
  let m ← vget A.verticesMap a
  match umapFind m b with
  | none => ub
  | some k => do
      let es ← vget A.edges a
      vget es k

/-- The vertices of one line in their order and the edges between them
(`GeDiM/src/Geometry/GeometryUtilities_Polyhedron.cpp:1489-1521`). A line has two vertices at least; the reads with
`at` are in the range. -/
def orderLine (sort : (Nat → Nat → Bool) → List Nat → List Nat) (points : List (V3 K)) (A : AdjacencyData)
    (l : AlignedEdge K) : Res (List Nat × List Nat) := do
  let coords ← mapRes (fun v => do
    let p ← vget points v
    ok (lineCoordinate p l.origin l.tangent l.squaredLength)) l.vertices
  let vs ← mapRes (fun i => vget l.vertices i) (sortArrayIndices sort coords)
  let es ← mapRes (fun i => do
    let a ← vget vs i
    let b ← vget vs (i + 1)
    edgeBetween A a b) (List.range (vs.length - 1))
  ok (vs, es)

/-- `AlignedPolyhedronEdges` (`GeDiM/src/Geometry/GeometryUtilities_Polyhedron.cpp:1388-1524`): the vertices and the
edges of each line. -/
def GeoCfg.alignedPolyhedronEdges (g : GeoCfg K) (sqrt : K → K) (sort : (Nat → Nat → Bool) → List Nat → List Nat)
    (fuel : Nat) (points : List (V3 K)) (A : AdjacencyData) (tangents : List (V3 K)) (squaredLengths : List K) :
    Res (List (List Nat × List Nat)) := do
  let st ← g.alignLoop sqrt points A tangents squaredLengths fuel
    ⟨List.replicate points.length false, A.vertices.map fun r => List.replicate r.length false, [], [0]⟩
  mapRes (orderLine sort points A) st.lines

end Verif
