import Verif.MeshModel

/-
What a mesh looks like after a cell is split.
-/
namespace Verif

open Res

/-- The first sub-cell that contains `x`, when the sub-cells are numbered from `first`; `c` when there
is none. -/
def heir (c first : Nat) (subs : List (List Nat)) (x : Nat) : Nat :=
  match subs.findIdx? fun s => decide (x ∈ s) with
  | some j => first + j
  | none => c

variable {α : Type}

/-- What is reported about a new cell, number `i`, made from the column list `sub`. -/
structure IsSubCell (m m' : Mesh α) (c i : Nat) (sub : List (Nat × Nat)) : Prop where
  vertices : m'.row .vert2 i = ok (sub.map Prod.fst)
  edges : m'.row .edge2 i = ok (sub.map Prod.snd)
  marker : m'.marker .d2 i = m.marker .d2 c
  active : m'.active .d2 i = ok true
  original : m'.original .d2 i = ok c
  updated : m'.updated .d2 i = ok none
  /-- the polyhedra of the split cell, slots without a polyhedron stay without one -/
  polyhedra : ∀ r, m.row .nb23 c = ok r →
    m'.row .nb23 i = ok (r.map fun y => if y < m.num .d3 then y else UINT_MAX)
  noProperties : ∀ p, p < (m.ids .d2).length → m'.propSize .d2 i p = ok 0
  noSubdivision : m'.row .sub2 i = ok []

/-- What is reported about the split cell. -/
structure IsParent (m m' : Mesh α) (c k : Nat) : Prop where
  inactive : m'.active .d2 c = ok false
  updated : ∃ old new, m.updated .d2 c = ok old ∧ m'.updated .d2 c = ok new ∧
    ∀ j, j ∈ new.getD [] ↔ j ∈ old.getD [] ∨ m.num .d2 ≤ j ∧ j < m.num .d2 + k

/-- What is reported about everything else; the lists of neighbour polygons of vertices and edges are
left out. -/
structure OthersKept (m m' : Mesh α) (c k : Nat) : Prop where
  dimension : m'.dimension = m.dimension
  num2 : m'.num .d2 = m.num .d2 + k
  num : ∀ d, d ≠ .d2 → m'.num d = m.num d
  coordinates : ∀ i, i < m.num .d0 → m'.coordinates i = m.coordinates i
  extremes : ∀ i, i < m.num .d1 → m'.extremes i = m.extremes i
  marker : ∀ d i, i < m.num d → m'.marker d i = m.marker d i
  active : ∀ d i, i < m.num d → ¬ (d = .d2 ∧ i = c) → m'.active d i = m.active d i
  original : ∀ d i, i < m.num d → m'.original d i = m.original d i
  updated : ∀ d i, i < m.num d → ¬ (d = .d2 ∧ i = c) → m'.updated d i = m.updated d i
  ids : m'.ids = m.ids
  propSize : ∀ d i p, i < m.num d → m'.propSize d i p = m.propSize d i p
  propValue : ∀ d i p k, i < m.num d → m'.propValue d i p k = m.propValue d i p k
  rows : ∀ l i, i < m.num l.owner → l ≠ .nb02 → l ≠ .nb12 → m'.row l i = m.row l i

/-- In every list of neighbour polygons the split cell `c` was replaced by one cell that depends on
the owner of the list; nothing else changed. -/
def ReplacedBy (m m' : Mesh α) (l : Lst) (c : Nat) (f : Nat → Nat) : Prop :=
  ∀ x r, m.row l x = ok r → m'.row l x = ok (r.map fun y => if y = c then f x else y)

end Verif
