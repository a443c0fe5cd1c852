import Verif.HullModel
import Verif.PointPosSpec
import Verif.IntersectLemmas

/-
Notions in which the properties of the convex hull are stated.
-/
namespace Verif

variable {K : Type} [Field K] [LinearOrder K] [IsStrictOrderedRing K]

/-- The comparison tells the numbers apart: they are equal, or differ more than the tolerance `t`. -/
def Apart1 (t a b : K) : Prop := a = b ∨ window t a b < |b - a|

/-- The tolerances tell the points apart: coordinates and squared distances are equal or differ more than the
tolerance, and three points are aligned or the test of their orientation exceeds the tolerance. -/
structure HullResolved (g : GeoCfg K) (sqrt : K → K) (pts : List (V3 K)) : Prop where
  x : ∀ a ∈ pts, ∀ b ∈ pts, Apart1 g.tol1D a.x b.x
  y : ∀ a ∈ pts, ∀ b ∈ pts, Apart1 g.tol1D a.y b.y
  dist : ∀ a ∈ pts, ∀ b ∈ pts, ∀ c ∈ pts, Apart1 g.tolSq (dist2 c a) (dist2 c b)
  turn : ∀ a ∈ pts, ∀ b ∈ pts, ∀ c ∈ pts, area2 a b c = 0 ∨
    (g.tol1D < sqrt (dist2 a b) ∧ g.tol1D < sqrt (dist2 c b) ∧
      g.tol1D * (sqrt (dist2 a b) * sqrt (dist2 c b)) < |area2 a b c|)

/-- `std::sort`: whenever the comparison orders the elements, the result is a permutation in which no element
comes before a smaller one. -/
def IsSort {α : Type} (sort : (α → α → Bool) → List α → List α) : Prop :=
  ∀ lt l, StrictWeak lt l → (sort lt l).Perm l ∧ (sort lt l).Pairwise fun a b => lt b a = false

/-- The points are not all on one line. -/
def NotAligned (pts : List (V3 K)) : Prop := ∃ a ∈ pts, ∃ b ∈ pts, ∃ c ∈ pts, area2 a b c ≠ 0

/-- The polygon is convex and runs counter clockwise, where straight angles are admitted: any three of its
vertices, in their order, turn left or are aligned. -/
def WeaklyConvex (vs : List (V3 K)) : Prop :=
  ∀ (i j k : Nat) a b c, i < j → j < k → vs[i]? = some a → vs[j]? = some b → vs[k]? = some c → 0 ≤ area2 a b c

/-- `q` is in the interior of the hull: every half plane that contains the points contains `q` in its interior. -/
def StrictlyInside (pts : List (V3 K)) (q : V3 K) : Prop :=
  ∀ v w : V3 K, (v.x ≠ w.x ∨ v.y ≠ w.y) → (∀ r ∈ pts, 0 ≤ area2 v w r) → 0 < area2 v w q

/-- The vertices with the given indices. -/
def IsSelection (pts : List (V3 K)) (ids : List Nat) (vs : List (V3 K)) : Prop :=
  ids.map (fun i => pts[i]?) = vs.map some

end Verif
