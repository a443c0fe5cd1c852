import Verif.MapSpec

/-
Notions in which the properties of polygons are stated.
-/
namespace Verif

variable {K : Type} [Field K]

/-- Translation. -/
def V3.shift (d p : V3 K) : V3 K := ⟨p.x + d.x, p.y + d.y, p.z + d.z⟩

/-- Sum of the signed areas of triangles. -/
def triangleAreas (ts : List (V3 K × V3 K × V3 K)) : K :=
  (ts.map fun t => area2 t.1 t.2.1 t.2.2 / 2).sum

variable [LinearOrder K]

/-- `p` is a point of the closed segment from `a` to `b`. -/
def OnSegment (a b p : V3 K) : Prop :=
  ∃ s, 0 ≤ s ∧ s ≤ 1 ∧ p.x = a.x + s * (b.x - a.x) ∧ p.y = a.y + s * (b.y - a.y) ∧
    p.z = a.z + s * (b.z - a.z)

/-- A simple polygon of the plane `z = 0`: edges that are not neighbours have no common point and
neighbouring edges only share their common vertex. -/
def SimplePolygon (vs : List (V3 K)) : Prop :=
  3 ≤ vs.length ∧ (∀ v ∈ vs, v.z = 0) ∧
  ∀ (i j : Nat) (a b c d p : V3 K), i < j → j < vs.length → vs[i]? = some a → vs[i + 1]? = some b →
    vs[j]? = some c → vs[(j + 1) % vs.length]? = some d → OnSegment a b p → OnSegment c d p →
    (j = i + 1 ∧ p = b) ∨ (i = 0 ∧ j + 1 = vs.length ∧ p = a)

/-- The volume product of three vectors: the amount by which `q`, `r` turn around `p` counter
clockwise, seen from `N`. -/
def turn (N p q r : V3 K) : K :=
  N.x * ((q.y - p.y) * (r.z - p.z) - (q.z - p.z) * (r.y - p.y)) +
  N.y * ((q.z - p.z) * (r.x - p.x) - (q.x - p.x) * (r.z - p.z)) +
  N.z * ((q.x - p.x) * (r.y - p.y) - (q.y - p.y) * (r.x - p.x))

/-- The vertices lie in a plane with unit normal `N` and form a convex polygon that runs counter
clockwise seen from `N`, with at least one corner not aligned. -/
def ConvexAbout (N : V3 K) (vs : List (V3 K)) : Prop :=
  N.x * N.x + N.y * N.y + N.z * N.z = 1 ∧
  (∀ p ∈ vs, ∀ q ∈ vs, N.x * (q.x - p.x) + N.y * (q.y - p.y) + N.z * (q.z - p.z) = 0) ∧
  (∀ (i j k : Nat) (p q r : V3 K), i < j → j < k → vs[i]? = some p → vs[j]? = some q → vs[k]? = some r →
    0 ≤ turn N p q r) ∧
  ∃ (i : Nat) (p q r : V3 K), vs[i]? = some p ∧ vs[i + 1]? = some q ∧ vs[i + 2]? = some r ∧ 0 < turn N p q r

end Verif
