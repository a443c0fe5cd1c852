import Verif.CutLineModel
import Verif.MomentSpec
import Verif.IntersectSpec

/-
Notions in which the lines along which a cell is to be cut are stated.
-/
namespace Verif

/-- The entry `k` is the greatest, and none before it is as great. -/
def IsFirstMax {K : Type} [LinearOrder K] (l : List K) (k : Nat) : Prop :=
  ∃ x, l[k]? = some x ∧ (∀ (j : Nat) y, l[j]? = some y → y ≤ x) ∧ ∀ (j : Nat) y, j < k → l[j]? = some y → y < x

variable {K : Type} [Field K]

/-- The point `p` is in the middle between `a` and `b`. -/
def IsMiddle (a b p : V3 K) : Prop :=
  p.x + p.x = a.x + b.x ∧ p.y + p.y = a.y + b.y ∧ p.z + p.z = a.z + b.z

/-- `p`, `q`, `o` are the vertices of the triangle `a`, `b`, `c` in the same sense of rotation. -/
def IsTurnOf (a b c p q o : V3 K) : Prop :=
  (p, q, o) = (a, b, c) ∨ (p, q, o) = (b, c, a) ∨ (p, q, o) = (c, a, b)

end Verif
