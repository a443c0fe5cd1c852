import Mathlib.Data.List.Basic

/-
Chains and closed loops of segments.
-/
namespace Verif

/-- `l` is a chain of segments that leads from the vertex `s` to the vertex `e`: each entry is a
vertex and a segment that leaves it, in either direction, towards the vertex of the next entry. -/
def ChainFrom (segments : List (Int × Int)) : Int → List (Int × Nat) → Int → Prop
  | s, [], e => s = e
  | s, (v, i) :: l, e => v = s ∧ ∃ a b, segments[i]? = some (a, b) ∧
      ((a = v ∧ ChainFrom segments b l e) ∨ (b = v ∧ ChainFrom segments a l e))

/-- Number of times the vertex `x` is an end of the segment `j`. -/
def endsAt (segments : List (Int × Int)) (x : Int) (j : Nat) : Nat :=
  match segments[j]? with
  | some (a, b) => (if a = x then 1 else 0) + (if b = x then 1 else 0)
  | none => 0

/-- Number of ends at `x` among the segments with the given indices. -/
def degreeOn (segments : List (Int × Int)) (x : Int) (js : List Nat) : Nat :=
  (js.map (endsAt segments x)).sum

/-- Each vertex is the end of two segments or of none. -/
def LoopDegrees (segments : List (Int × Int)) : Prop :=
  ∀ x, degreeOn segments x (List.range segments.length) = 0 ∨
    degreeOn segments x (List.range segments.length) = 2

/-- The segments hang together: a set of segments that contains with a segment all segments that
share a vertex with it is empty or contains all segments. -/
def Connected (segments : List (Int × Int)) : Prop :=
  ∀ S : Nat → Prop, (∃ j < segments.length, S j) →
    (∀ i j x, i < segments.length → j < segments.length → S i → 0 < endsAt segments x i →
      0 < endsAt segments x j → S j) →
    ∀ j < segments.length, S j

end Verif
