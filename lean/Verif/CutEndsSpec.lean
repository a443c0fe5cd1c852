import Verif.CutEndsModel

/-
What the ends and the segments of an intersection are.
-/
namespace Verif

variable {K : Type} [Field K] [LinearOrder K] [IsStrictOrderedRing K]

/-- The keys are increasing and on the segment up to `t`. -/
structure CutsOnSegment {β : Type} (t : K) (pts : List (K × β)) : Prop where
  increasing : pts.Pairwise fun a b => a.1 < b.1
  range : ∀ p ∈ pts, -t ≤ p.1 ∧ p.1 ≤ 1 + t

/-- The points `new` are the points `pts`, with what they have, and the first one moved to 0 and the last one to 1 unless they are there up
to `t`. -/
structure WithEnds {β : Type} (t : K) (pts new : List (K × β)) : Prop where
  onSegment : CutsOnSegment t new
  values : new.map Prod.snd = pts.map Prod.snd
  inner : ∀ i, 0 < i → i + 1 < pts.length → new[i]? = pts[i]?
  origin : ∀ a, pts.head? = some a → new.head? = some (if |a.1| ≤ t then a.1 else 0, a.2)
  target : ∀ a, pts.getLast? = some a → new.getLast? = some (if |a.1 - 1| ≤ t then a.1 else 1, a.2)

/-- `L` is the increasing list of the numbers in both lists. -/
def IsMeet (l r L : List Nat) : Prop := L.Pairwise (· < ·) ∧ ∀ v, v ∈ L ↔ v ∈ l ∧ v ∈ r

/-- One segment between each point and the next, with the polygons and edges that both points have. -/
structure IsCutSegments (pts : List (K × CutPoint)) (S : List (CutSegment K)) : Prop where
  number : S.length + 1 = pts.length
  segment : ∀ (i : Nat) s p q, S[i]? = some s → pts[i]? = some p → pts[i + 1]? = some q → s.ends = (p.1, q.1) ∧
    IsMeet p.2.cells2 q.2.cells2 s.cells2 ∧ IsMeet p.2.cells1 q.2.cells1 s.cells1

end Verif
