import Verif.SplitSpec

/-
What a mesh looks like after an edge is split.
-/
namespace Verif

open Res

variable {α : Type}

/-- What is reported about a new edge, number `i`, with the vertices `sub`. -/
structure IsSubEdge (m m' : Mesh α) (c i : Nat) (sub : Nat × Nat) : Prop where
  extremes : m'.extremes i = ok sub
  marker : m'.marker .d1 i = m.marker .d1 c
  active : m'.active .d1 i = ok true
  original : m'.original .d1 i = ok c
  updated : m'.updated .d1 i = ok none
  /-- the polygons of the split edge, slots without a polygon stay without one -/
  polygons : ∀ r, m.row .nb12 c = ok r →
    m'.row .nb12 i = ok (r.map fun y => if y < m.num .d2 then y else UINT_MAX)
  /-- the polyhedra of the split edge -/
  polyhedra : ∀ r, m.row .nb13 c = ok r →
    m'.row .nb13 i = ok (r.map fun y => if y < m.num .d3 then y else UINT_MAX)
  noProperties : ∀ p, p < (m.ids .d1).length → m'.propSize .d1 i p = ok 0

/-- What is reported about the split edge. -/
structure IsParentEdge (m m' : Mesh α) (c k : Nat) : Prop where
  inactive : m'.active .d1 c = ok false
  updated : ∃ old new, m.updated .d1 c = ok old ∧ m'.updated .d1 c = ok new ∧
    ∀ j, j ∈ new.getD [] ↔ j ∈ old.getD [] ∨ m.num .d1 ≤ j ∧ j < m.num .d1 + k

/-- What is reported about everything else; the lists of edges of the vertices are left out. -/
structure OthersKeptEdge (m m' : Mesh α) (c k : Nat) : Prop where
  dimension : m'.dimension = m.dimension
  num1 : m'.num .d1 = m.num .d1 + k
  num : ∀ d, d ≠ .d1 → m'.num d = m.num d
  coordinates : ∀ i, i < m.num .d0 → m'.coordinates i = m.coordinates i
  extremes : ∀ i, i < m.num .d1 → m'.extremes i = m.extremes i
  marker : ∀ d i, i < m.num d → m'.marker d i = m.marker d i
  active : ∀ d i, i < m.num d → ¬ (d = .d1 ∧ i = c) → m'.active d i = m.active d i
  original : ∀ d i, i < m.num d → m'.original d i = m.original d i
  updated : ∀ d i, i < m.num d → ¬ (d = .d1 ∧ i = c) → m'.updated d i = m.updated d i
  ids : m'.ids = m.ids
  propSize : ∀ d i p, i < m.num d → m'.propSize d i p = m.propSize d i p
  propValue : ∀ d i p k, i < m.num d → m'.propValue d i p k = m.propValue d i p k
  rows : ∀ l i, i < m.num l.owner → l ≠ .nb01 → m'.row l i = m.row l i

end Verif
