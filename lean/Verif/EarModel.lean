import Verif.HullModel
import Verif.PointPosModel

/-
The triangulation of a polygon by ear clipping, `PolygonTriangulationByEarClipping`
(`GeDiM/src/Geometry/GeometryUtilities_Polygon.cpp:475-567`).
-/
namespace Verif

open Res

variable {K : Type} [Field K] [LinearOrder K] [IsStrictOrderedRing K]

/-- The position before `v` in a closed list of length `n`
(`GeDiM/src/Geometry/GeometryUtilities_Polygon.cpp:508,554`). -/
def cyclePrev (n v : Nat) : Nat := if v = 0 then n - 1 else v - 1

/-- `IsPointInsidePolygon` (`GeDiM/src/Geometry/GeometryUtilities.hpp:1399-1403`): everything but outside. -/
def PointPolygonPos.isInside : PointPolygonPos → Bool
  | .outside => false
  | _ => true

/-- The loop that looks for a vertex inside the triangle of an ear
(`GeDiM/src/Geometry/GeometryUtilities_Polygon.cpp:524-538`): the result is `isEar`. -/
def GeoCfg.earTest (g : GeoCfg K) (sqrt : K → K) (vs triangle : List (V3 K)) (box : V3 K × V3 K)
    (v prev next : Nat) : List Nat → Res Bool
  | [] => ok true
  | ov :: rest =>
      if ov = v ∨ ov = prev ∨ ov = next then g.earTest sqrt vs triangle box v prev next rest
      else do
        let p ← vget vs ov
        if g.isPointInBoundingBox p box = false then g.earTest sqrt vs triangle box v prev next rest
        else do
          let pos ← g.pointPolygonPosition sqrt p triangle
          if pos.isInside = false then g.earTest sqrt vs triangle box v prev next rest
          else ok false

/-- The loop that looks for the first ear (`GeDiM/src/Geometry/GeometryUtilities_Polygon.cpp:506-545`) and the
assertion after it, line 547. -/
def GeoCfg.findEar (g : GeoCfg K) (sqrt : K → K) (vs : List (V3 K)) : List Nat → Res Nat
  | [] => abort
  | v :: rest => do
      let prev := cyclePrev vs.length v
      let next := (v + 1) % vs.length
      let a ← vget vs prev
      let b ← vget vs v
      let c ← vget vs next
      let polar := g.polarAngle a b c ((a.sub b).norm sqrt) ((c.sub b).norm sqrt)
      if g.isValueNegative polar g.tol1D then g.findEar sqrt vs rest
      else do
        let triangle ← extractPoints vs [prev, v, next]
        let box ← pointsBoundingBox triangle
        let isEar ← g.earTest sqrt vs triangle box v prev next (List.range vs.length)
        if isEar then ok v else g.findEar sqrt vs rest

/-- The rounds of the loop (`GeDiM/src/Geometry/GeometryUtilities_Polygon.cpp:487-562`); `ids` are the numbers of
the vertices left, `vs` the vertices left. The first argument bounds the number of rounds. -/
def GeoCfg.earRounds (g : GeoCfg K) (sqrt : K → K) (polygon : List (V3 K)) :
    Nat → List Nat → List (V3 K) → List Nat → Res (List Nat)
  | 0, _, _, _ => loop
  | fuel + 1, ids, vs, acc => do
      let unaligned ← g.unalignedPoints sqrt vs 0
      assert (2 < unaligned.length)
      let ids ← extractPoints ids unaligned
      if unaligned.length = 3 then do
        let i ← vget ids 0
        let j ← vget ids 1
        let k ← vget ids 2
        ok (acc ++ [i, j, k])
      else do
        let vs ← extractPoints polygon ids
        let v ← g.findEar sqrt vs (List.range unaligned.length)
        let i ← vget ids v
        let j ← vget ids ((v + 1) % unaligned.length)
        let k ← vget ids (cyclePrev unaligned.length v)
        let acc := acc ++ [i, j, k]
        let vs := vs.eraseIdx v
        if 2 < vs.length then g.earRounds sqrt polygon fuel (ids.eraseIdx v) vs acc else ok acc

/-- `PolygonTriangulationByEarClipping` (`GeDiM/src/Geometry/GeometryUtilities_Polygon.cpp:475-567`). Each round
removes a vertex, so that as many rounds as vertices are enough. -/
def GeoCfg.triangulationByEarClipping (g : GeoCfg K) (sqrt : K → K) (polygon : List (V3 K)) : Res (List Nat) := do
  assert (2 < polygon.length)
  let l ← g.earRounds sqrt polygon polygon.length (List.range polygon.length) polygon []
  assert (l.length % 3 = 0)
  ok l

end Verif
