import Mathlib.Logic.Relation
import Verif.GraphModel
import Verif.CompareModel
import Verif.IntersectSpec

/-!
# Spec of the lines of the edges of a polyhedron
-/

namespace Verif

variable {K : Type} [Field K] [LinearOrder K]

/-- The edges of a polyhedron as a graph on `n` vertices: the ends of an edge are different, two edges have not both
ends in common, and each vertex is reached from the first one. -/
structure EdgeGraph (n : Nat) (edges : List (Nat × Nat)) : Prop where
  pos : 0 < n
  range : ∀ e ∈ edges, e.1 < n ∧ e.2 < n ∧ e.1 ≠ e.2
  simple : ∀ (i j : Nat) p q, edges[i]? = some p → edges[j]? = some q → (p = q ∨ p = (q.2, q.1)) → i = j
  connected : ∀ v, v < n → Relation.ReflTransGen (fun u w => (u, w) ∈ edges ∨ (w, u) ∈ edges) 0 v

/-- `c` is on the line through `a` and `b`. -/
def OnLine (a b c : V3 K) : Prop := ∃ s, c = pointAt a b s

/-- `c` is between `a` and `b`. -/
def Between (a b c : V3 K) : Prop := ∃ s, 0 < s ∧ s < 1 ∧ c = pointAt a b s

/-- The vertex with the given number; the numbers are in the range below. -/
def corner (points : List (V3 K)) (v : Nat) : V3 K := points.getD v ⟨0, 0, 0⟩

/-- Both ends of the second edge are on the line of the first one. -/
def SameLine (points : List (V3 K)) (p q : Nat × Nat) : Prop :=
  OnLine (corner points p.1) (corner points p.2) (corner points q.1) ∧
    OnLine (corner points p.1) (corner points p.2) (corner points q.2)

/-- The vertex is an end of an edge on the line of `p`. -/
def OnEdgeLine (points : List (V3 K)) (edges : List (Nat × Nat)) (p : Nat × Nat) (v : Nat) : Prop :=
  ∃ q ∈ edges, SameLine points p q ∧ (v = q.1 ∨ v = q.2)

/-- Two vertices on the line of `p` that are neighbours there but not joined by an edge. -/
def Gap (points : List (V3 K)) (edges : List (Nat × Nat)) (p : Nat × Nat) (u w : Nat) : Prop :=
  OnEdgeLine points edges p u ∧ OnEdgeLine points edges p w ∧ u ≠ w ∧
    (∀ v, OnEdgeLine points edges p v → ¬ Between (corner points u) (corner points w) (corner points v)) ∧
    (u, w) ∉ edges ∧ (w, u) ∉ edges

/-- No edge runs over an end of another edge on its line. -/
def NoOverlap (points : List (V3 K)) (edges : List (Nat × Nat)) : Prop :=
  ∀ p ∈ edges, ∀ v, OnEdgeLine points edges p v → ¬ Between (corner points p.1) (corner points p.2) (corner points v)

/-- The square of twice the area of the triangle. -/
def lineCross (a b o c : V3 K) : K :=
  ((b.y - a.y) * (c.z - o.z) - (b.z - a.z) * (c.y - o.y)) ^ 2 +
    ((b.z - a.z) * (c.x - o.x) - (b.x - a.x) * (c.z - o.z)) ^ 2 +
    ((b.x - a.x) * (c.y - o.y) - (b.y - a.y) * (c.x - o.x)) ^ 2

/-- The tolerance tells whether vertices are on the lines of the edges: a vertex is on the line or the sine of the angle
is larger than the tolerance, seen from both ends. -/
def GeoCfg.LinesClear (g : GeoCfg K) (points : List (V3 K)) (edges : List (Nat × Nat)) : Prop :=
  ∀ p ∈ edges, ∀ o, (o = p.1 ∨ o = p.2) → ∀ c ∈ points,
    OnLine (corner points p.1) (corner points p.2) c ∨
      g.tol1D ^ 2 * (dist2 (corner points p.1) (corner points p.2) * dist2 (corner points o) c) <
        lineCross (corner points p.1) (corner points p.2) (corner points o) c

/-- The vertices are on one line, in the order along it. -/
def OrderedAlong (points : List (V3 K)) (vs : List Nat) : Prop :=
  ∃ a b, a ≠ b ∧ ∃ s : Nat → K, (∀ v ∈ vs, corner points v = pointAt a b (s v)) ∧
    vs.Pairwise fun u w => s u < s w

/-- The vertices `vs` of a line and its edges `es`: edge `k` joins the vertices `k` and `k + 1`. -/
def EdgesJoin (edges : List (Nat × Nat)) (vs es : List Nat) : Prop :=
  0 < es.length ∧ vs.length = es.length + 1 ∧
    ∀ (k : Nat) e, es[k]? = some e → ∃ u w, vs[k]? = some u ∧ vs[k + 1]? = some w ∧
      (edges[e]? = some (u, w) ∨ edges[e]? = some (w, u))

end Verif
