import Verif.PolygonSpec
import Verif.QuadSpec

/-
Notions in which the integrals over polygons are stated.
-/
namespace Verif

section field
variable {K : Type} [Field K]

/-- The list `l` has one entry for each edge of the polygon `vs`, and the entry of the edge from `a` to `b`
satisfies `P a b`. -/
def PerEdge {α : Type} (P : V3 K → V3 K → α → Prop) (vs : List (V3 K)) (l : List α) : Prop :=
  l.length = vs.length ∧ ∀ i a b, vs[i]? = some a → vs[(i + 1) % vs.length]? = some b →
    ∃ x, l[i]? = some x ∧ P a b x

variable [LinearOrder K]

/-- `l` is the distance from `a` to `b`. -/
def IsLength (a b : V3 K) (l : K) : Prop :=
  0 ≤ l ∧ l ^ 2 = (b.x - a.x) ^ 2 + (b.y - a.y) ^ 2 + (b.z - a.z) ^ 2

/-- `n` is the direction from `a` to `b` turned clockwise by a right angle: of length one if the two points have
the same height and are different, zero if they coincide. -/
def IsRightNormal (a b n : V3 K) : Prop :=
  n.z = 0 ∧ (∀ l, IsLength a b l → l * n.x = b.y - a.y ∧ l * n.y = a.x - b.x) ∧
  (a.z = b.z → a ≠ b → n.x ^ 2 + n.y ^ 2 = 1) ∧ (a = b → n.x = 0 ∧ n.y = 0)

/-- No vertex is to the right of an edge. -/
def ConvexCcw (vs : List (V3 K)) : Prop :=
  ∀ (i : Nat) (a b p : V3 K), vs[i]? = some a → vs[(i + 1) % vs.length]? = some b → p ∈ vs → 0 ≤ area2 a b p

/-- The weights and points of a rule on the unit segment that integrates polynomials of degree one. -/
def LinearRule (points weights : List K) : Prop :=
  points.length = weights.length ∧ weights.sum = 1 ∧ (List.zipWith (· * ·) points weights).sum = 1 / 2

/-- `d` is the distance of `p` from the line through `a` and `b`. -/
def IsLineDistance (p a b : V3 K) (d : K) : Prop :=
  0 ≤ d ∧ (∀ s : K, d ^ 2 ≤ (a.x + s * (b.x - a.x) - p.x) ^ 2 + (a.y + s * (b.y - a.y) - p.y) ^ 2) ∧
  ∃ s : K, d ^ 2 = (a.x + s * (b.x - a.x) - p.x) ^ 2 + (a.y + s * (b.y - a.y) - p.y) ^ 2

end field

/-- The integral of `f` over the triangle: the integral over the reference triangle after the affine change of
variables, whose determinant is twice the area. -/
noncomputable def integralOn (f : ℝ → ℝ → ℝ) (t : V3 ℝ × V3 ℝ × V3 ℝ) : ℝ :=
  |area2 t.1 t.2.1 t.2.2| * triangleInt fun u v =>
    f (t.1.x + u * (t.2.1.x - t.1.x) + v * (t.2.2.x - t.1.x))
      (t.1.y + u * (t.2.1.y - t.1.y) + v * (t.2.2.y - t.1.y))

/-- The sum of the integrals over triangles. -/
noncomputable def integralOver (f : ℝ → ℝ → ℝ) (ts : List (V3 ℝ × V3 ℝ × V3 ℝ)) : ℝ :=
  (ts.map (integralOn f)).sum

/-- The coordinates of the corners differ from those of `c` by at most `D`. -/
def WithinOf (D : ℝ) (c : V3 ℝ) (ts : List (V3 ℝ × V3 ℝ × V3 ℝ)) : Prop :=
  ∀ t ∈ ts, ∀ p, p = t.1 ∨ p = t.2.1 ∨ p = t.2.2 → |p.x - c.x| ≤ D ∧ |p.y - c.y| ≤ D

end Verif
