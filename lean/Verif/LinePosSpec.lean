import Verif.IntersectSpec
import Verif.LinePosModel

/-
What the position of a line with respect to a polygon should be.
-/
namespace Verif

variable {K : Type} [Field K] [LinearOrder K] [IsStrictOrderedRing K]

/-- The point `p` is on the line through `origin` with the direction `tangent`. -/
def OnDirLine (origin tangent p : V3 K) : Prop :=
  ∃ q : K, p = ⟨origin.x + q * tangent.x, origin.y + q * tangent.y, origin.z + q * tangent.z⟩

/-- The right entry for the edge from `a` to `b` with number `e`: no entry if no point of the edge is on
the line; `parallel` if the whole edge is on the line; otherwise the only point of the edge that is
on the line, with its coordinate and the position of the point on the edge. -/
def EdgeEntry (origin tangent a b : V3 K) (e : Nat) : Option (EdgeHit K) → Prop
  | none => ∀ s, 0 ≤ s → s ≤ 1 → ¬ OnDirLine origin tangent (pointAt a b s)
  | some h => h.index = e ∧
      if h.type = .parallel then ∀ s, OnDirLine origin tangent (pointAt a b s)
      else 0 ≤ h.coord ∧ h.coord ≤ 1 ∧ (∀ s, OnDirLine origin tangent (pointAt a b s) ↔ s = h.coord) ∧
        (h.type = .onEdgeOrigin ↔ h.coord = 0) ∧ (h.type = .onEdgeEnd ↔ h.coord = 1)

/-- The right answer: for every edge its right entry, in the order of the edges; the line
intersects the polygon if there is an entry. -/
def LinePolygonOk (origin tangent : V3 K) (vs : List (V3 K)) (r : LinePolygonResult K) : Prop :=
  ∃ entries : List (Option (EdgeHit K)), entries.length = vs.length ∧
    (∀ (e : Nat) a b x, vs[e]? = some a → vs[(e + 1) % vs.length]? = some b →
      entries[e]? = some x → EdgeEntry origin tangent a b e x) ∧
    r.hits = entries.filterMap id ∧ (r.intersecting = true ↔ r.hits ≠ [])

/-- The line and the edge from `a` to `b` are far from all limits of the tolerances. The edges and the
direction are longer than the tolerance and one of three cases holds: the edge is on the line and
touches the segment from `origin` to `origin + tangent`; the edge is parallel to the line and away
from it; the line through the edge meets the line at an angle, in a point that is an end of the
edge or away from both ends. -/
def LineEdgeResolved (g : GeoCfg K) (origin tangent a b : V3 K) : Prop :=
  let far := origin.add tangent
  g.tolSq < dist2 a b ∧ g.tolSq < dist2 origin far ∧
  ((∃ α β, origin = pointAt a b α ∧ far = pointAt a b β ∧ min α β ≤ 1 ∧ 0 ≤ max α β) ∨
   ((∃ c, tangent = V3.smul c (b.sub a)) ∧
      g.tol1D * g.tol1D * (dist2 a b * dist2 a origin) <
        ((b.sub a).cross (origin.sub a)).dot ((b.sub a).cross (origin.sub a)) ∧
      g.tol1D * g.tol1D * (dist2 a b * dist2 a far) <
        ((b.sub a).cross (origin.sub a)).dot ((b.sub a).cross (origin.sub a))) ∨
   (dot4 a b origin far * dot4 a b origin far <
        (1 - g.tolSq) * (1 - g.tolSq) * (dist2 a b * dist2 origin far) ∧
      ∃ s q, pointAt a b s = pointAt origin far q ∧
        (s = 0 ∨ s = 1 ∨ (g.tol1D < |s| ∧ g.tol1D < |s - 1|))))

end Verif
