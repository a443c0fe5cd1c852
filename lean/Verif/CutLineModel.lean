import Verif.MomentModel

/-
The lines along which a cell is to be cut: `ComputeTriangleMaxEdgeDirection` (both overloads),
`ComputePolygonMaxDiameterDirection` and the branch for triangles of `ComputePolygonMaxInertiaDirection`
(`GeDiM/src/Mesh/RefinementUtilities2D.cpp:670-699`, `:1006-1041`) and `ComputeTetrahedronMaxEdgeDirection`
(`GeDiM/src/Mesh/RefinementUtilities3D.cpp:18-48`). Indices that are `int` in a matrix of the code are natural numbers.
-/
namespace Verif

open Res

section order
variable {K : Type} [LinearOrder K]

/-- The loop of Eigen's `maxCoeff(&index)`: the entry `k`, with value `best`, is the greatest so far and `i` is the
index of the next entry. -/
def firstMaxFrom (best : K) (k i : Nat) : List K → Nat
  | [] => k
  | x :: xs => if best < x then firstMaxFrom x i (i + 1) xs else firstMaxFrom best k (i + 1) xs

/-- Eigen's `maxCoeff(&index)`, which needs at least one entry. -/
def firstMax : List K → Res Nat
  | [] => ub
  | x :: xs => ok (firstMaxFrom x 0 1 xs)

/-- `ComputeTriangleMaxEdgeDirection` of the lengths of the edges
(`GeDiM/src/Mesh/RefinementUtilities2D.cpp:670-680`): the edge and the opposite vertex. -/
def triangleMaxEdge (lengths : List K) : Res (Nat × Nat) := do
  let k ← firstMax lengths
  ok (k, (k + 2) % 3)

/-- The loop for the vertices of a tetrahedron that are not on an edge
(`GeDiM/src/Mesh/RefinementUtilities3D.cpp:34-43`): `fuel` vertices from `v` on are left. -/
def offEdge (a b : Nat) : (fuel v : Nat) → List Nat → List Nat
  | 0, _, found => found
  | fuel + 1, v, found =>
      if found.length < 2 then
        if v ≠ a ∧ v ≠ b then offEdge a b fuel (v + 1) (found ++ [v]) else offEdge a b fuel (v + 1) found
      else found

/-- `ComputeTetrahedronMaxEdgeDirection` (`GeDiM/src/Mesh/RefinementUtilities3D.cpp:18-48`): the edge and the two
opposite vertices. -/
def tetrahedronMaxEdge (edges : List (Nat × Nat)) (lengths : List K) : Res (Nat × List Nat) := do
  assert (edges.length = 6)
  assert (lengths.length = 6)
  let k ← firstMax lengths
  let e ← vget edges k
  let found := offEdge e.1 e.2 4 0 []
  assert (found.length = 2)
  ok (k, found)

end order

/-- `RefinementUtilities::PolygonDirection` (`GeDiM/src/Mesh/RefinementUtilities.hpp:39-43`). -/
structure CutLine (K : Type) where
  origin : V3 K
  tangent : V3 K

variable {K : Type} [Field K] [LinearOrder K] [IsStrictOrderedRing K]

/-- `ComputeTriangleMaxEdgeDirection` of the vertices and the lengths of the edges
(`GeDiM/src/Mesh/RefinementUtilities2D.cpp:682-699`). -/
def triangleMaxEdgeLine (vs : List (V3 K)) (lengths : List K) : Res (CutLine K) := do
  let k ← firstMax lengths
  let q ← vget vs ((k + 1) % 3)
  let p ← vget vs k
  let o ← vget vs ((k + 2) % 3)
  ok { origin := o, tangent := (V3.smul (1 / 2) (q.add p)).sub o }

/-- The branch for triangles of `ComputePolygonMaxInertiaDirection`
(`GeDiM/src/Mesh/RefinementUtilities2D.cpp:1029-1041`). -/
def triangleInertiaLine (sqrt : K → K) (vs : List (V3 K)) (lengths : List K) : Res (CutLine K) := do
  let k ← firstMax lengths
  let o ← vget vs ((k + 2) % 3)
  let p ← vget vs k
  let q ← vget vs ((k + 1) % 3)
  ok { origin := o, tangent := (segmentTangent o (V3.smul (1 / 2) (p.add q))).normalized sqrt }

/-- The entry of the matrix of `PointsDistance` at the place `k` in the order by columns
(`GeDiM/src/Geometry/GeometryUtilities_Point.cpp:34-44`). -/
def pointsDistanceEntry (sqrt : K → K) (vs : List (V3 K)) (k : Nat) : Res K :=
  if k % vs.length < k / vs.length then do
    let a ← vget vs (k % vs.length)
    let b ← vget vs (k / vs.length)
    ok (segmentLength sqrt a b)
  else ok (-1)

/-- `PointsDistance` (`GeDiM/src/Geometry/GeometryUtilities_Point.cpp:28-47`): the entries by columns. -/
def pointsDistance (sqrt : K → K) (vs : List (V3 K)) : Res (List K) :=
  mapRes (pointsDistanceEntry sqrt vs) (List.range (vs.length * vs.length))

/-- `ComputePolygonMaxDiameterDirection` (`GeDiM/src/Mesh/RefinementUtilities2D.cpp:1006-1020`). -/
def GeoCfg.maxDiameterLine (g : GeoCfg K) (sqrt : K → K) (vs : List (V3 K)) (centroid : V3 K) : Res (CutLine K) := do
  let distances ← pointsDistance sqrt vs
  let k ← firstMax distances
  let row := k % vs.length
  let col := k / vs.length
  assert (col ≠ row)
  let a ← vget vs row
  let b ← vget vs col
  let t ← g.segmentNormal sqrt a b
  ok { origin := centroid, tangent := t }

end Verif
