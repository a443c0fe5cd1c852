import Verif.JoinModel

/-
What a mesh looks like after edges are joined.
-/
namespace Verif

open Res

variable {α : Type}

/-- The slot `k` of the list `l` of the cell `c` holds the cell `y`. -/
def HoldsAt (m : Mesh α) (l : Lst) (c k y : Nat) : Prop :=
  ∃ r, m.row l c = ok r ∧ r[k]? = some y ∧ y < m.num l.target

/-- The cell `x` is inside the union of the cells `subs`: it lists at least `min` neighbours, all slots are used, and only
by cells of `subs`. -/
def IsInner (m : Mesh α) (l : Lst) (min : Nat) (subs : List Nat) (x : Nat) : Prop :=
  ∃ r, m.row l x = ok r ∧ min ≤ r.length ∧ ∀ y ∈ r, y < m.num l.target ∧ y ∈ subs

/-- The vertex `x` is an end of an edge of `subs`. -/
def IsEndOf (m : Mesh α) (subs : List Nat) (x : Nat) : Prop :=
  ∃ c ∈ subs, ∃ a b, m.extremes c = ok (a, b) ∧ (x = a ∨ x = b)

/-- What is reported about the new edge, number `i`, with the ends `a` and `b`. -/
structure IsUnion (m m' : Mesh α) (subs : List Nat) (i a b : Nat) : Prop where
  extremes : m'.extremes i = ok (a, b)
  /-- the greatest marker -/
  marker : ∃ k, m'.marker .d1 i = ok k ∧ (∃ c ∈ subs, m.marker .d1 c = ok k) ∧
    ∀ c ∈ subs, ∀ k', m.marker .d1 c = ok k' → k' ≤ k
  active : m'.active .d1 i = ok true
  original : m'.original .d1 i = ok UINT_MAX
  updated : m'.updated .d1 i = ok none
  polyhedra : ∃ r, m'.row .nb13 i = ok r ∧ r.Nodup ∧ ∀ y, y ∈ r ↔ ∃ c ∈ subs, ∃ k, HoldsAt m .nb13 c k y
  noProperties : ∀ p, p < (m.ids .d1).length → m'.propSize .d1 i p = ok 0

/-- The new edge lists the polygons of the joined edges, once each. -/
def ListsPolygons (m m' : Mesh α) (subs : List Nat) (i : Nat) : Prop :=
  ∃ r, m'.row .nb12 i = ok r ∧ r.Nodup ∧ ∀ y, y ∈ r ↔ ∃ c ∈ subs, ∃ k, HoldsAt m .nb12 c k y

/-- The new edge has the polygons of the joined edges in the same slots, if `f 0` and `f 1` are the polygons on the two
sides. -/
def KeepsSides (m m' : Mesh α) (subs : List Nat) (i : Nat) (f : Nat → Nat) : Prop :=
  ∃ r, m'.row .nb12 i = ok r ∧ (r = [] → ∀ c ∈ subs, ∀ k y, ¬ HoldsAt m .nb12 c k y) ∧ (r ≠ [] → r.length = 2 ∧
    ∀ k, k < 2 → ((∃ c ∈ subs, ∃ y, HoldsAt m .nb12 c k y) → r[k]? = some (f k)) ∧
      ((∀ c ∈ subs, ∀ y, ¬ HoldsAt m .nb12 c k y) → r[k]? = some UINT_MAX))

/-- What is reported about everything else; the lists of edges of the vertices `a` and `b` are left out. -/
structure OthersKeptJoin (m m' : Mesh α) (subs removed : List Nat) (a b : Nat) : Prop where
  dimension : m'.dimension = m.dimension
  num1 : m'.num .d1 = m.num .d1 + 1
  num : ∀ d, d ≠ .d1 → m'.num d = m.num d
  coordinates : ∀ i, i < m.num .d0 → m'.coordinates i = m.coordinates i
  extremes : ∀ i, i < m.num .d1 → m'.extremes i = m.extremes i
  marker : ∀ d i, i < m.num d → m'.marker d i = m.marker d i
  active : ∀ d i, i < m.num d → ¬ (d = .d1 ∧ i ∈ subs) → ¬ (d = .d0 ∧ i ∈ removed) → m'.active d i = m.active d i
  original : ∀ d i, i < m.num d → m'.original d i = m.original d i
  updated : ∀ d i, i < m.num d → m'.updated d i = m.updated d i
  ids : m'.ids = m.ids
  propSize : ∀ d i p, i < m.num d → m'.propSize d i p = m.propSize d i p
  propValue : ∀ d i p k, i < m.num d → m'.propValue d i p k = m.propValue d i p k
  rows : ∀ l i, i < m.num l.owner → ¬ (l = .nb01 ∧ (i = a ∨ i = b)) → m'.row l i = m.row l i

/-- The edges of a vertex that are not joined. -/
def restOf (n : Nat) (subs r : List Nat) : List Nat := r.filter fun y => y < n ∧ y ∉ subs

/-- The list of edges of an end: the edges that are not joined, then the new edge. -/
def EndUpdated (m m' : Mesh α) (subs : List Nat) (new x : Nat) : Prop :=
  ∀ r, m.row .nb01 x = ok r → m'.row .nb01 x = ok (restOf (m.num .d1) subs r ++ [new])

end Verif
