import Verif.OverlapModel
import Verif.MapSpec

/-
Notions in which the properties of the intersection of triangles are stated.
-/
namespace Verif

variable {K : Type} [Field K] [LinearOrder K] [IsStrictOrderedRing K]

/-- The point with the barycentric coordinates `u`, `v`, `w` in the plane. -/
def baryPoint (s : Tri K) (u v w : K) : K × K :=
  (u * (s 0).x + v * (s 1).x + w * (s 2).x, u * (s 0).y + v * (s 1).y + w * (s 2).y)

/-- The point belongs to the triangle. -/
def InTri (s : Tri K) (q : K × K) : Prop :=
  ∃ u v w : K, 0 ≤ u ∧ 0 ≤ v ∧ 0 ≤ w ∧ u + v + w = 1 ∧ q = baryPoint s u v w

/-- The point is inside the triangle, not on its boundary. -/
def InsideTri (s : Tri K) (q : K × K) : Prop :=
  ∃ u v w : K, 0 < u ∧ 0 < v ∧ 0 < w ∧ u + v + w = 1 ∧ q = baryPoint s u v w

/-- Twice the area of the triangle, positive if it runs counter clockwise. -/
def Tri.area (s : Tri K) : K := area2 (s 0) (s 1) (s 2)

/-- Twice the signed area between the edge `i` of the triangle and the point: the distance from the line of the
edge, times its length, positive on the left. -/
def Tri.left (s : Tri K) (i : Fin 3) (q : K × K) : K := area2 (s i) (s (i + 1)) ⟨q.1, q.2, 0⟩

end Verif
