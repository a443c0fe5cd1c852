import Verif.PolyMarkModel
import Verif.MarkSpec

/-
Marking a mesh of a polygon.
-/
namespace Verif

open Res

variable {K : Type} [Field K] [LinearOrder K] [IsStrictOrderedRing K]

/-- The new mesh is the old one up to the markers of vertices and edges. -/
structure OnlyMarkers (m m' : Mesh K) : Prop where
  same : m' = { m with mark := m'.mark }
  others : ∀ d, d ≠ .d0 → d ≠ .d1 → m'.mark d = m.mark d

/-- The marker that replaces `old` for a vertex of a mesh whose markers number the vertices of the polygon from 1 to `n`
and its edges from `n + 1` on; zero is inside. -/
def NewMarker0 (n : Nat) (c0 c1 : List Nat) (old new : Nat) : Prop :=
  (old = 0 ∧ new = 0) ∨ (∃ v, v < n ∧ old = v + 1 ∧ c0[v]? = some new) ∨
    (∃ e, old = n + 1 + e ∧ c1[e]? = some new)

/-- The same for an edge of the mesh. -/
def NewMarker1 (n : Nat) (c1 : List Nat) (old new : Nat) : Prop :=
  (old = 0 ∧ new = 0) ∨ (∃ e, old = n + 1 + e ∧ c1[e]? = some new)

/-- The edge with number `e` of the polygon. -/
def IsSide (vs : List (V3 K)) (e : Nat) (a b : V3 K) : Prop :=
  vs[e]? = some a ∧ vs[(e + 1) % vs.length]? = some b

/-- The point is on the side up to the tolerances, near its origin. -/
def GeoCfg.AtOrigin (g : GeoCfg K) (a b p : V3 K) : Prop :=
  g.NearSegment a (b.sub a) p ∧ coordOn a b p ≤ g.tol1D

/-- The point is on the side up to the tolerances, away from its ends. -/
def GeoCfg.AtInside (g : GeoCfg K) (a b p : V3 K) : Prop :=
  g.NearSegment a (b.sub a) p ∧ g.tol1D < coordOn a b p ∧ coordOn a b p < 1 - g.tol1D

/-- The side `e` gives the marker `k` to a vertex at `p`. -/
def GeoCfg.SideMarks (g : GeoCfg K) (vs : List (V3 K)) (c0 c1 : List Nat) (p : V3 K) (e k : Nat) : Prop :=
  ∃ a b, IsSide vs e a b ∧ ((g.AtOrigin a b p ∧ c0[e]? = some k) ∨ (g.AtInside a b p ∧ c1[e]? = some k))

/-- The side `e` gives the marker `k` to an edge from `p` to `q`. -/
def GeoCfg.SideMarksEdge (g : GeoCfg K) (vs : List (V3 K)) (c1 : List Nat) (p q : V3 K) (e k : Nat) : Prop :=
  ∃ a b, IsSide vs e a b ∧ g.NearSegment a (b.sub a) p ∧ g.NearSegment a (b.sub a) q ∧ c1[e]? = some k

/-- `new` is the marker of the last of `n` sides that give a marker, or `old` if none does. -/
def LastMark (R : Nat → Nat → Prop) (n old new : Nat) : Prop :=
  (∃ e, e < n ∧ R e new ∧ ∀ e', e < e' → e' < n → ∀ k, ¬ R e' k) ∨ ((∀ e, e < n → ∀ k, ¬ R e k) ∧ new = old)

/-- What `SetPolygonMeshMarkers` needs: a mesh and a polygon in the plane, sides of positive length and a marker for every
vertex and side of the polygon. -/
structure GeoCfg.CanMark (g : GeoCfg K) (vs : List (V3 K)) (c0 c1 : List Nat) (m : Mesh K) : Prop where
  minTol : 0 ≤ g.minTolerance
  tol : g.tol1D < 1 / 2
  tolSq : g.tolSq ≤ 1
  flat : ∀ p ∈ vs, p.z = 0
  sides : ∀ e a b, IsSide vs e a b → 0 < dist2 a b
  vertexMarkers : vs.length ≤ c0.length
  sideMarkers : vs.length ≤ c1.length
  wf : m.WF
  dimension : m.dimension = 2
  ends : EndsExist m
  meshFlat : ∀ i p, m.point i = ok p → p.z = 0

end Verif
