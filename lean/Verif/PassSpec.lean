import Verif.ChordSpec

/-
What a mesh looks like after a new vertex on an edge was passed on to the polygons of the edge.
-/
namespace Verif

open Res

variable {α : Type}

/-- The polygons `ns` of `m` were replaced in `m'` by polygons with the boundaries `R`, which are numbered from the number
of polygons of `m` on. -/
structure ReplacedAll (m m' : Mesh α) (ns : List Nat) (R : Nat → List (Nat × Nat)) : Prop where
  wf : m'.WF
  num2 : m'.num .d2 = m.num .d2 + ns.length
  num : ∀ d, d ≠ .d2 → m'.num d = m.num d
  coordinates : ∀ i, i < m.num .d0 → m'.coordinates i = m.coordinates i
  extremes : ∀ i, i < m.num .d1 → m'.extremes i = m.extremes i
  /-- the new polygons -/
  vertices : ∀ j d, ns[j]? = some d → m'.row .vert2 (m.num .d2 + j) = ok ((R d).map Prod.fst)
  edges : ∀ j d, ns[j]? = some d → m'.row .edge2 (m.num .d2 + j) = ok ((R d).map Prod.snd)
  activeNew : ∀ j, j < ns.length → m'.active .d2 (m.num .d2 + j) = ok true
  markerNew : ∀ j d, ns[j]? = some d → m'.marker .d2 (m.num .d2 + j) = m.marker .d2 d
  originalNew : ∀ j d, ns[j]? = some d → m'.original .d2 (m.num .d2 + j) = ok d
  updatedNew : ∀ j, j < ns.length → m'.updated .d2 (m.num .d2 + j) = ok none
  /-- the replaced polygons -/
  inactive : ∀ d ∈ ns, m'.active .d2 d = ok false
  updatedOld : ∀ j d, ns[j]? = some d → ∃ old new, m.updated .d2 d = ok old ∧ m'.updated .d2 d = ok (some new) ∧
    ∀ x, x ∈ new ↔ x ∈ old.getD [] ∨ x = m.num .d2 + j
  /-- everything else -/
  active : ∀ d i, i < m.num d → ¬ (d = .d2 ∧ i ∈ ns) → m'.active d i = m.active d i
  marker : ∀ d i, i < m.num d → m'.marker d i = m.marker d i
  original : ∀ d i, i < m.num d → m'.original d i = m.original d i
  updated : ∀ d i, i < m.num d → ¬ (d = .d2 ∧ i ∈ ns) → m'.updated d i = m.updated d i
  rows : ∀ l i, i < m.num l.owner → l ≠ .nb02 → l ≠ .nb12 → m'.row l i = m.row l i
  /-- the polygons around edges and vertices: a replaced polygon gives way to the new one, if this has the edge or vertex -/
  polygonsOfEdges : ∀ x r, m.row .nb12 x = ok r → m'.row .nb12 x = ok (r.map fun y =>
    if y ∈ ns ∧ x ∈ (R y).map Prod.snd then m.num .d2 + ns.idxOf y else y)
  polygonsOfVertices : ∀ x r, m.row .nb02 x = ok r → m'.row .nb02 x = ok (r.map fun y =>
    if y ∈ ns ∧ x ∈ (R y).map Prod.fst then m.num .d2 + ns.idxOf y else y)

/-- The boundary of the polygon with the vertices `vs` and edges `es` after the edge at position `k` was split at the vertex
`w` in the halves `h0` and `h1`; `dir` tells if the polygon runs along the edge in its direction. -/
def withVertex (vs es : List Nat) (k w h0 h1 : Nat) (dir : Bool) : List (Nat × Nat) :=
  boundary vs es fun i => if i = k then some (if dir then ⟨w, h0, h1⟩ else ⟨w, h1, h0⟩) else none

/-- The polygon `d` of the mesh has the vertices `vs` and as many edges `es`; they exist. -/
structure BoundedBy (m : Mesh α) (d : Nat) (vs es : List Nat) : Prop where
  vertices : m.row .vert2 d = ok vs
  edges : m.row .edge2 d = ok es
  count : es.length = vs.length
  vertex_lt : ∀ v ∈ vs, v < m.num .d0
  edge_lt : ∀ x ∈ es, x < m.num .d1

/-- The polygon `d` of the mesh has exactly one time the edge `e`, at position `k`. -/
structure SideOnce (m : Mesh α) (d e k : Nat) (vs es : List Nat) : Prop extends BoundedBy m d vs es where
  side : ∀ i, es[i]? = some e ↔ i = k

/-- The polygons `ns` are those of the list `r`, each one time, that exist, are different from `c` and were not replaced
before. -/
structure Concerned (m : Mesh α) (c : Nat) (r ns : List Nat) : Prop where
  sub : ns.Sublist r
  once : ns.Nodup
  mem : ∀ d, d ∈ ns ↔ d ∈ r ∧ d < m.num .d2 ∧ d ≠ c ∧ m.updated .d2 d = ok none

end Verif
