import Verif.EarModel
import Verif.HullSpec
import Verif.PolygonSpec

/-
Notions in which the properties of the ear clipping are stated.
-/
namespace Verif

variable {K : Type} [Field K] [LinearOrder K] [IsStrictOrderedRing K]

/-- How the edge from `a` to `b` crosses the horizontal ray from `p` to the right: `1` upwards, `-1` downwards,
`0` not at all. A point on the line of the ray counts as being below it. -/
def rayCrossing (p a b : V3 K) : Int :=
  if a.y ≤ p.y ∧ p.y < b.y ∧ 0 < area2 a b p then 1
  else if b.y ≤ p.y ∧ p.y < a.y ∧ area2 a b p < 0 then -1
  else 0

/-- The winding number of a closed polygon about a point off its edges. -/
def windingNumber (vs : List (V3 K)) (p : V3 K) : Int :=
  ((vs.zip (vs.rotate 1)).map fun e => rayCrossing p e.1 e.2).sum

/-- `p` is in the closed triangle that runs counter clockwise through `t`. -/
def InTriangle (t : V3 K × V3 K × V3 K) (p : V3 K) : Prop :=
  0 ≤ area2 t.1 t.2.1 p ∧ 0 ≤ area2 t.2.1 t.2.2 p ∧ 0 ≤ area2 t.2.2 t.1 p

/-- `p` is in the interior of the triangle that runs counter clockwise through `t`. -/
def InsideTriangle (t : V3 K × V3 K × V3 K) (p : V3 K) : Prop :=
  0 < area2 t.1 t.2.1 p ∧ 0 < area2 t.2.1 t.2.2 p ∧ 0 < area2 t.2.2 t.1 p

/-- `p` is on no side of the triangle. -/
def OffSides (t : V3 K × V3 K × V3 K) (p : V3 K) : Prop :=
  ¬ OnSegment t.1 t.2.1 p ∧ ¬ OnSegment t.2.1 t.2.2 p ∧ ¬ OnSegment t.2.2 t.1 p

/-- The test of alignment is exact on the vertices: three of them are aligned or their turn exceeds the tolerance. -/
def EarResolved (g : GeoCfg K) (sqrt : K → K) (vs : List (V3 K)) : Prop :=
  ∀ a ∈ vs, ∀ b ∈ vs, ∀ c ∈ vs, area2 a b c = 0 ∨
    (g.tol1D < sqrt (dist2 a b) ∧ g.tol1D < sqrt (dist2 c b) ∧
      g.tol1D * (sqrt (dist2 a b) * sqrt (dist2 c b)) < |area2 a b c|)

/-- Three vertices of the list are on one line, or are clearly not for the position of a point in a triangle. -/
def LinesResolved (g : GeoCfg K) (vs : List (V3 K)) : Prop :=
  ∀ a ∈ vs, ∀ b ∈ vs, ∀ c ∈ vs, area2 a b c = 0 ∨ ¬ g.OnLine a b c

/-- The polygon is strictly convex and runs counter clockwise: any three vertices, in their order, turn left. -/
def TurnsLeft (vs : List (V3 K)) : Prop :=
  ∀ (i j k : Nat) a b c, i < j → j < k → vs[i]? = some a → vs[j]? = some b → vs[k]? = some c → 0 < area2 a b c

end Verif
