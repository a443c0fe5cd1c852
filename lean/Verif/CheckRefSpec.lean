import Verif.CheckRefModel
import Verif.DirCutSpec

/-
The two sides of a polygon met by a line.
-/
namespace Verif

open Res

variable {K : Type} [Field K] [LinearOrder K] [IsStrictOrderedRing K]

/-- The vertex at position `j` is an end of the side at position `i`. -/
def TouchesSide (vs : List Nat) (i j : Nat) : Prop :=
  ∃ v, vs[j]? = some v ∧ (vs[i]? = some v ∨ vs[(i + 1) % vs.length]? = some v)

/-- The first and the second intersection among all intersections of a line with a polygon: no side up to the second one is on
the line, the intersections between them are vertices, and their sides start at an end of the first side. -/
structure FirstTwo (vs : List Nat) (hits : List (EdgeHit K)) (one two : EdgeHit K) : Prop where
  between : ∃ l r, hits = one :: (l ++ two :: r) ∧
    ∀ x ∈ l, (x.type = .onEdgeOrigin ∨ x.type = .onEdgeEnd) ∧ TouchesSide vs one.index x.index
  oneType : one.type ≠ .parallel
  twoType : two.type ≠ .parallel
  away : two.type ≠ .insideEdge → ¬ TouchesSide vs one.index two.index

/-- Two sides of a polygon have only the common ends of neighbouring sides in common. -/
def SidesMeetInCorners (ps : List (V3 K)) : Prop :=
  ∀ i j a b a' b' s t, i ≠ j → ps[i]? = some a → ps[(i + 1) % ps.length]? = some b → ps[j]? = some a' →
    ps[(j + 1) % ps.length]? = some b' → 0 ≤ s → s ≤ 1 → 0 ≤ t → t ≤ 1 → pointAt a b s = pointAt a' b' t →
    (s = 1 ∧ t = 0 ∧ (i + 1) % ps.length = j) ∨ (s = 0 ∧ t = 1 ∧ (j + 1) % ps.length = i)

/-- The point `p` of an intersection. -/
def IsHitPoint (ps : List (V3 K)) (h : DirHit K) (p : V3 K) : Prop :=
  ∃ a b, ps[h.index]? = some a ∧ ps[(h.index + 1) % ps.length]? = some b ∧ p = pointAt a b h.coordinate

end Verif
