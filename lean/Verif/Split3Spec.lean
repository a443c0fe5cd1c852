import Verif.SplitSpec

/-
What a mesh looks like after a polyhedron is split.
-/
namespace Verif

open Res

variable {α : Type}

/-- What is reported about a new polyhedron, number `i`. -/
structure IsSubCell3 (m m' : Mesh α) (c i : Nat) (vertices edges faces : List Nat) : Prop where
  vertices : m'.row .vert3 i = ok vertices
  edges : m'.row .edge3 i = ok edges
  faces : m'.row .face3 i = ok faces
  marker : m'.marker .d3 i = m.marker .d3 c
  active : m'.active .d3 i = ok true
  original : m'.original .d3 i = ok c
  updated : m'.updated .d3 i = ok none
  noProperties : ∀ p, p < (m.ids .d3).length → m'.propSize .d3 i p = ok 0

/-- What is reported about the split polyhedron. -/
structure IsParent3 (m m' : Mesh α) (c k : Nat) : Prop where
  inactive : m'.active .d3 c = ok false
  updated : ∃ old new, m.updated .d3 c = ok old ∧ m'.updated .d3 c = ok new ∧
    ∀ j, j ∈ new.getD [] ↔ j ∈ old.getD [] ∨ m.num .d3 ≤ j ∧ j < m.num .d3 + k

/-- What is reported about everything else; the lists of neighbour polyhedra are left out. -/
structure OthersKept3 (m m' : Mesh α) (c k : Nat) : Prop where
  dimension : m'.dimension = m.dimension
  num3 : m'.num .d3 = m.num .d3 + k
  num : ∀ d, d ≠ .d3 → m'.num d = m.num d
  coordinates : ∀ i, i < m.num .d0 → m'.coordinates i = m.coordinates i
  extremes : ∀ i, i < m.num .d1 → m'.extremes i = m.extremes i
  marker : ∀ d i, i < m.num d → m'.marker d i = m.marker d i
  active : ∀ d i, i < m.num d → ¬ (d = .d3 ∧ i = c) → m'.active d i = m.active d i
  original : ∀ d i, i < m.num d → m'.original d i = m.original d i
  updated : ∀ d i, i < m.num d → ¬ (d = .d3 ∧ i = c) → m'.updated d i = m.updated d i
  ids : m'.ids = m.ids
  propSize : ∀ d i p, i < m.num d → m'.propSize d i p = m.propSize d i p
  propValue : ∀ d i p k, i < m.num d → m'.propValue d i p k = m.propValue d i p k
  rows : ∀ l i, i < m.num l.owner → l ≠ .nb03 → l ≠ .nb13 → l ≠ .nb23 → m'.row l i = m.row l i

/-- The lists describe `vertices.length` sub-cells whose vertices, edges and faces are in the mesh. -/
structure AreSubCells (m : Mesh α) (vertices edges faces : List (List Nat)) : Prop where
  edgesLength : edges.length = vertices.length
  facesLength : faces.length = vertices.length
  vertices : ∀ s ∈ vertices, ∀ x ∈ s, x < m.num .d0
  edges : ∀ s ∈ edges, ∀ x ∈ s, x < m.num .d1
  faces : ∀ s ∈ faces, ∀ x ∈ s, x < m.num .d2

end Verif
