import Verif.MarkModel
import Verif.PointPosSpec
import Verif.MeshSpec

/-
Marking the part of a mesh that is on a line or a segment.
-/
namespace Verif

open Res

variable {K : Type} [Field K] [LinearOrder K] [IsStrictOrderedRing K]

/-- The new mesh is the old one, except that the vertices on the set `On` and the edges with both ends on it have
the marker. -/
structure MarkedOn (On : V3 K → Prop) (marker : Nat) (m m' : Mesh K) : Prop where
  same : m' = { m with mark := m'.mark }
  others : ∀ d, d ≠ .d0 → d ≠ .d1 → m'.mark d = m.mark d
  vertices : ∀ i p, m.point i = ok p →
    (On p → m'.marker .d0 i = ok marker) ∧ (¬ On p → m'.marker .d0 i = m.marker .d0 i)
  edges : ∀ e x y p q, m.extremes e = ok (x, y) → m.point x = ok p → m.point y = ok q →
    (On p → On q → m'.marker .d1 e = ok marker) ∧ (¬ (On p ∧ On q) → m'.marker .d1 e = m.marker .d1 e)

/-- The ends of every edge are vertices of the mesh. -/
def EndsExist {α : Type} (m : Mesh α) : Prop := ∀ e x y, m.extremes e = ok (x, y) → x < m.num .d0 ∧ y < m.num .d0

/-- Some point of the line through `o` with direction `t` is within the tolerance of `p`. -/
def GeoCfg.NearLine (g : GeoCfg K) (o t p : V3 K) : Prop := ∃ s : K, dist2 p (o.add (V3.smul s t)) ≤ g.tolSq

/-- The point is within the tolerance of the line of the segment, in distance and in the angle at the origin of the
segment, and its projection is on the segment up to the tolerance. -/
def GeoCfg.NearSegment (g : GeoCfg K) (o t p : V3 K) : Prop :=
  g.NearLine o t p ∧ g.OnLine o (o.add t) p ∧ -g.tol1D ≤ coordOn o (o.add t) p ∧
    coordOn o (o.add t) p ≤ 1 + g.tol1D

end Verif
