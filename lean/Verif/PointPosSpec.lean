import Verif.IntersectSpec
import Mathlib.Algebra.BigOperators.Group.List.Basic

/-
Notions in which the properties of the position of a point are stated.
-/
namespace Verif

variable {K : Type} [Field K]

/-- Square of the length of the cross product of the vectors from `o` to `p` and from `o` to `e`: the
square of the distance of `p` from the line, times the square of the length of the segment. -/
def cross2 (o e p : V3 K) : K :=
  let a := (p.y - o.y) * (e.z - o.z) - (p.z - o.z) * (e.y - o.y)
  let b := (p.z - o.z) * (e.x - o.x) - (p.x - o.x) * (e.z - o.z)
  let c := (p.x - o.x) * (e.y - o.y) - (p.y - o.y) * (e.x - o.x)
  a * a + b * b + c * c

/-- The edge number `v` of a polygon goes from `a` to `b`. -/
def IsEdge (vs : List (V3 K)) (v : Nat) (a b : V3 K) : Prop :=
  vs[v]? = some a ∧ vs[(v + 1) % vs.length]? = some b

/-- `p` is a convex combination of the points. -/
def ConvexComb [LinearOrder K] (vs : List (V3 K)) (p : V3 K) : Prop :=
  ∃ w : V3 K → K, (∀ v ∈ vs, 0 ≤ w v) ∧ (vs.map w).sum = 1 ∧
    p.x = (vs.map fun v => w v * v.x).sum ∧ p.y = (vs.map fun v => w v * v.y).sum ∧
    p.z = (vs.map fun v => w v * v.z).sum

section ordered
variable [LinearOrder K] [IsStrictOrderedRing K]

/-- `p` is on the line through `o` and `e`, or at the point `o`, up to the tolerance. -/
def GeoCfg.OnLine (g : GeoCfg K) (o e p : V3 K) : Prop :=
  dist2 o p ≤ g.tolSq ∨ cross2 o e p ≤ g.tolSq * (dist2 o e * dist2 o p)

/-- The coordinate of the orthogonal projection of `p` on the line through `o` and `e`. -/
def coordOn (o e p : V3 K) : K := dot4 o p o e / dist2 o e

/-- The edge from `a` to `b` meets the horizontal ray from `p` to the right. A vertex on the ray counts
as being above it. -/
def MeetsRay (p a b : V3 K) : Prop :=
  (a.y < p.y ∧ p.y ≤ b.y ∨ b.y < p.y ∧ p.y ≤ a.y) ∧
  p.x < a.x + (p.y - a.y) / (b.y - a.y) * (b.x - a.x)

/-- The number of edges of a polygon that meet the ray from `p` is odd. -/
def InsideEvenOdd (vs : List (V3 K)) (p : V3 K) : Prop :=
  open Classical in
  ((List.range vs.length).filter fun v => ∃ a b, IsEdge vs v a b ∧ MeetsRay p a b).length % 2 = 1

/-- The polygon is strictly convex and runs counter clockwise: all vertices but its ends are left of an
edge. -/
def StrictlyConvex (vs : List (V3 K)) : Prop :=
  2 < vs.length ∧ ∀ v a b, IsEdge vs v a b → ∀ (i : Nat) c, vs[i]? = some c → i ≠ v →
    i ≠ (v + 1) % vs.length → 0 < area2 a b c

/-- The edge from `a` to `b` is clear of the ray from `p` to the right with respect to the tolerance: it is
horizontal and away from the ray or, on its line, ends away from `p`; or it is not horizontal and
crosses the line of the ray away from `p`, exactly at one of its vertices or away from them. -/
def GeoCfg.ClearOfRay (g : GeoCfg K) (p a b : V3 K) : Prop :=
  let s := (p.y - a.y) / (b.y - a.y)
  (a.y = b.y ∧ g.tol1D < |p.y - a.y|) ∨
  (a.y = b.y ∧ p.y = a.y ∧ (coordOn a b p < -g.tol1D ∨ 1 + g.tol1D < coordOn a b p)) ∨
  (g.tol1D * max 1 |p.y| < |b.y - a.y| ∧
    (s < -g.tol1D ∨ 1 + g.tol1D < s ∨
     (s = 0 ∨ s = 1 ∨ g.tol1D < s ∧ s < 1 - g.tol1D) ∧ g.tol1D < |a.x + s * (b.x - a.x) - p.x|))

end ordered

end Verif
