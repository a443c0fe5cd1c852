import Verif.UnionModel

/-
Specification of the union of two one-dimensional meshes.
-/
namespace Verif

variable {K : Type} [Field K] [LinearOrder K] [IsStrictOrderedRing K]

/-- The points of one mesh are further than `t` from each other, in increasing order. -/
def Separated (t : K) (l : List K) : Prop := l.Pairwise fun x y => x + t < y

/-- Two meshes whose points can be matched with tolerance `t`: each mesh is separated, no point of
one mesh is near two points of the other. -/
structure Matching (t : K) (one two : List K) : Prop where
  sep1 : Separated t one
  sep2 : Separated t two
  uniq1 : ∀ a ∈ one, ∀ b ∈ two, ∀ b' ∈ two, |a - b| ≤ t → |a - b'| ≤ t → b = b'
  uniq2 : ∀ b ∈ two, ∀ a ∈ one, ∀ a' ∈ one, |a - b| ≤ t → |a' - b| ≤ t → a = a'

/-- What the union has to say about coordinate `x`: the point is in one of the meshes only, or in
both. A point that is in both has the coordinate of the first mesh. An index that has no meaning
is 0. -/
def IsUnionPoint (t : K) (one two : List K) (x : K) (p : UPoint) : Prop :=
  (∃ i : Nat, one[i]? = some x ∧ (∀ b ∈ two, t < |x - b|) ∧ p = ⟨.first, [i, 0]⟩) ∨
  (∃ i j : Nat, ∃ b, one[i]? = some x ∧ two[j]? = some b ∧ |x - b| ≤ t ∧ p = ⟨.both, [i, j]⟩) ∨
  (∃ j : Nat, two[j]? = some x ∧ (∀ a ∈ one, t < |a - x|) ∧ p = ⟨.second, [0, j]⟩)

/-- The index of a union point in the first mesh. -/
def UPoint.index1 (p : UPoint) : Option Nat :=
  if p.type = .first ∨ p.type = .both then p.meshIndices[0]? else none

/-- The index of a union point in the second mesh. -/
def UPoint.index2 (p : UPoint) : Option Nat :=
  if p.type = .second ∨ p.type = .both then p.meshIndices[1]? else none

/-- The interval from `a` to `b` lies in segment `k` of a mesh, whose point `i` is the union point
with index `i` according to `sel`. -/
def LiesIn (points : List (K × UPoint)) (sel : UPoint → Option Nat) (k : Nat) (a b : K) : Prop :=
  ∃ x y p q, (x, p) ∈ points ∧ (y, q) ∈ points ∧ sel p = some k ∧ sel q = some (k + 1) ∧
    x ≤ a ∧ b ≤ y

/-- What a union segment has to say about the interval from `a` to `b`. -/
def IsUnionSegment (points : List (K × UPoint)) (a b : K) (s : USegment K) : Prop :=
  s.points = (a, b) ∧
  ((∃ i j, LiesIn points UPoint.index1 i a b ∧ LiesIn points UPoint.index2 j a b ∧
      s.type = .both ∧ s.meshIndices = (i, j)) ∨
    (∃ i, LiesIn points UPoint.index1 i a b ∧ (∀ j, ¬ LiesIn points UPoint.index2 j a b) ∧
      s.type = .first ∧ s.meshIndices = (i, 0)) ∨
    (∃ j, (∀ i, ¬ LiesIn points UPoint.index1 i a b) ∧ LiesIn points UPoint.index2 j a b ∧
      s.type = .second ∧ s.meshIndices = (0, j)))

end Verif
