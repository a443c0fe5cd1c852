import Verif.ConformPointsModel
import Verif.UnionSpec

/-
What the points of the conformed mesh of a segment are.
-/
namespace Verif

variable {K : Type} [Field K] [LinearOrder K] [IsStrictOrderedRing K]

/-- The point is of the own mesh: it is not only of the other one. The own mesh is the first one for position 0, otherwise the second. -/
def OwnPoint (position : Nat) (u : UPoint) : Prop := (position = 0 → u.type ≠ .second) ∧ (position ≠ 0 → u.type ≠ .first)

instance (position : Nat) (u : UPoint) : Decidable (OwnPoint position u) := by unfold OwnPoint; infer_instance

/-- The number of own points among the first `i` points of the union. -/
def ownBefore (position : Nat) (union : List (K × UPoint)) (i : Nat) : Nat :=
  ((union.take i).filter fun u => decide (OwnPoint position u.2)).length

/-- The union has the points of the own mesh, with `n` of them, among them the first and the last point, and its points are farther from each
other than `t`. -/
structure UnionOf (t : K) (position n : Nat) (union : List (K × UPoint)) : Prop where
  apart : Separated t (union.map Prod.fst)
  number : ownBefore position union union.length = n
  first : ∀ u, union.head? = some u → OwnPoint position u.2
  last : ∀ u, union.getLast? = some u → OwnPoint position u.2

/-- The conformed mesh has the points of the union. An own point has the cells of its point in the own mesh; another one the cells of the
own segment that it divides, which is the one after the own points before it. -/
structure IsConformed (position : Nat) (pts : List (K × CutPoint)) (segs : List (CutSegment K)) (union : List (K × UPoint))
    (new : List (K × ConformPoint)) : Prop where
  keys : new.map Prod.fst = union.map Prod.fst
  own : ∀ (i : Nat) u c, union[i]? = some u → new[i]? = some c → OwnPoint position u.2 →
    ∃ p, pts[ownBefore position union i]? = some p ∧ c.2 = ⟨p.2.cells2, p.2.cells1, p.2.cells0, .original⟩
  other : ∀ (i : Nat) u c, union[i]? = some u → new[i]? = some c → ¬ OwnPoint position u.2 →
    ∃ j s, ownBefore position union i = j + 1 ∧ segs[j]? = some s ∧ c.2 = ⟨s.cells2, s.cells1, [], .inherited⟩

end Verif
