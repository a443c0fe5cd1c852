import Verif.PolygonSpec

/-
Notions in which the properties of the intersections are stated.
-/
namespace Verif

variable {K : Type} [Field K]

/-- The point with coordinate `s` on the line from `a` (coordinate 0) to `b` (coordinate 1). -/
def pointAt (a b : V3 K) (s : K) : V3 K :=
  ⟨a.x + s * (b.x - a.x), a.y + s * (b.y - a.y), a.z + s * (b.z - a.z)⟩

/-- Square of the distance of two points. -/
def dist2 (a b : V3 K) : K :=
  (a.x - b.x) * (a.x - b.x) + (a.y - b.y) * (a.y - b.y) + (a.z - b.z) * (a.z - b.z)

/-- Scalar product of the vectors from `a` to `b` and from `c` to `d`. -/
def dot4 (a b c d : V3 K) : K :=
  (b.x - a.x) * (d.x - c.x) + (b.y - a.y) * (d.y - c.y) + (b.z - a.z) * (d.z - c.z)

/-- Signed distance, times the length of the normal `n`, of `x` from the plane through `p`. -/
def side (n p x : V3 K) : K :=
  n.x * (x.x - p.x) + n.y * (x.y - p.y) + n.z * (x.z - p.z)

/-- The tolerance that comparisons of squared lengths use: `CompareValues` never goes below the
configured minimum. -/
def GeoCfg.tolSq [LinearOrder K] [IsStrictOrderedRing K] (g : GeoCfg K) : K :=
  max g.tol1DSquared g.minTolerance

/-- The tolerance of the discriminant in the intersection of a segment and a circle. -/
def GeoCfg.tolDisc [LinearOrder K] [IsStrictOrderedRing K] (g : GeoCfg K) : K :=
  max (g.tol1DSquared * g.tol1DSquared) g.minTolerance

end Verif
