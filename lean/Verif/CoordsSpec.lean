import Verif.CoordsModel

/-
Notions in which the properties of coordinates on a segment are stated.
-/
namespace Verif

variable {K : Type} [Field K] [LinearOrder K] [IsStrictOrderedRing K]

/-- The coordinates start at `a`, end at `b`, and the next one is always larger by `d`. -/
def Equispaced (l : List K) (a b d : K) : Prop :=
  l.head? = some a ∧ l.getLast? = some b ∧
    ∀ (i : Nat) x y, l[i]? = some x → l[i + 1]? = some y → y - x = d

/-- The coordinates together with the ends of the segment. -/
def withExtremes (insertExtremes : Bool) (a b : K) (l : List K) : List K :=
  if insertExtremes then l else a :: l ++ [b]

/-- The coordinates increase by at least `d`. -/
def Apart (d : K) (l : List K) : Prop := l.Pairwise fun x y => x + d ≤ y

end Verif
