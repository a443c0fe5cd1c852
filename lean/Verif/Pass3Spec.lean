import Verif.PassSpec
import Verif.Split3Spec

/-
What a mesh looks like after a new vertex on an edge was passed on to the polyhedra of the edge.
-/
namespace Verif

open Res

variable {α : Type}

/-- The polyhedron `q` of the mesh has the vertices `vs`, the edges `es` and the different faces `gs`; they exist. -/
structure SolidOf (m : Mesh α) (q : Nat) (vs es gs : List Nat) : Prop where
  vertices : m.row .vert3 q = ok vs
  edges : m.row .edge3 q = ok es
  faces : m.row .face3 q = ok gs
  once : gs.Nodup
  vertex_lt : ∀ v ∈ vs, v < m.num .d0
  edge_lt : ∀ x ∈ es, x < m.num .d1

/-- The face `f'` takes the place of `f`: if `f` has the edge `e` it is the one that is in the table, else it is `f`. -/
def TakesPlace (m : Mesh α) (e : Nat) (M : List (Nat × Nat)) (f f' : Nat) : Prop :=
  ∃ l, m.row .edge2 f = ok l ∧ (e ∈ l ∧ (f, f') ∈ M ∨ e ∉ l ∧ f' = f)

/-- The polygons `fs` and the polyhedra `ns` of `m` were replaced in `m'`. The new polygons are numbered from the number of polygons of
`m` on and have the boundaries `B`; the new polyhedra are numbered from the number of polyhedra of `m` on, have the vertex `w` more,
the edges `h0` and `h1` for `e`, and for the faces with the edge `e` the polygons of the table `M`. -/
structure PassedOn (m m' : Mesh α) (e w h0 h1 : Nat) (B : Nat → List (Nat × Nat)) (fs ns : List Nat)
    (M : List (Nat × Nat)) : Prop where
  wf : m'.WF
  num0 : m'.num .d0 = m.num .d0
  num1 : m'.num .d1 = m.num .d1
  num2 : m'.num .d2 = m.num .d2 + fs.length
  num3 : m'.num .d3 = m.num .d3 + ns.length
  coordinates : ∀ i, i < m.num .d0 → m'.coordinates i = m.coordinates i
  extremes : ∀ i, i < m.num .d1 → m'.extremes i = m.extremes i
  /-- the new polygons -/
  polygons : ∀ (j : Nat) f, fs[j]? = some f →
    m'.row .vert2 (m.num .d2 + j) = ok ((B f).map Prod.fst) ∧ m'.row .edge2 (m.num .d2 + j) = ok ((B f).map Prod.snd) ∧
    m'.active .d2 (m.num .d2 + j) = ok true ∧ m'.marker .d2 (m.num .d2 + j) = m.marker .d2 f ∧
    m'.original .d2 (m.num .d2 + j) = ok f ∧ m'.updated .d2 (m.num .d2 + j) = ok none
  /-- the new polyhedra -/
  solids : ∀ (j : Nat) q, ns[j]? = some q → ∃ vs es gs gs', m.row .vert3 q = ok vs ∧ m.row .edge3 q = ok es ∧
    m.row .face3 q = ok gs ∧ m'.row .vert3 (m.num .d3 + j) = ok (vs ++ [w]) ∧
    m'.row .edge3 (m.num .d3 + j) = ok ((es.map fun x => if x = e then h0 else x) ++ [h1]) ∧
    m'.row .face3 (m.num .d3 + j) = ok gs' ∧ List.Forall₂ (TakesPlace m e M) gs gs' ∧
    m'.active .d3 (m.num .d3 + j) = ok true ∧ m'.marker .d3 (m.num .d3 + j) = m.marker .d3 q ∧
    m'.original .d3 (m.num .d3 + j) = ok q ∧ m'.updated .d3 (m.num .d3 + j) = ok none
  /-- the replaced ones -/
  oldPolygons : ∀ (j : Nat) f, fs[j]? = some f → m'.active .d2 f = ok false ∧ ∃ old new, m.updated .d2 f = ok old ∧
    m'.updated .d2 f = ok (some new) ∧ ∀ x, x ∈ new ↔ x ∈ old.getD [] ∨ x = m.num .d2 + j
  oldSolids : ∀ (j : Nat) q, ns[j]? = some q → m'.active .d3 q = ok false ∧ ∃ old new, m.updated .d3 q = ok old ∧
    m'.updated .d3 q = ok (some new) ∧ ∀ x, x ∈ new ↔ x ∈ old.getD [] ∨ x = m.num .d3 + j
  /-- everything else; the lists of neighbours are left out -/
  active : ∀ d i, i < m.num d → ¬ (d = .d2 ∧ i ∈ fs) → ¬ (d = .d3 ∧ i ∈ ns) → m'.active d i = m.active d i
  marker : ∀ d i, i < m.num d → m'.marker d i = m.marker d i
  original : ∀ d i, i < m.num d → m'.original d i = m.original d i
  updated : ∀ d i, i < m.num d → ¬ (d = .d2 ∧ i ∈ fs) → ¬ (d = .d3 ∧ i ∈ ns) → m'.updated d i = m.updated d i
  rows : ∀ l i, i < m.num l.owner → l ≠ .nb02 → l ≠ .nb12 → l ≠ .nb03 → l ≠ .nb13 → l ≠ .nb23 → m'.row l i = m.row l i
  /-- the polyhedra of the edge -/
  around : m'.row .nb13 e = m.row .nb13 e

/-- The polyhedra `ns` are those of the list `r`, each one time, that exist, are different from `c` and were not replaced
before. -/
structure SolidsConcerned (m : Mesh α) (c : Nat) (r ns : List Nat) : Prop where
  sub : ns.Sublist r
  once : ns.Nodup
  mem : ∀ q, q ∈ ns ↔ q ∈ r ∧ q < m.num .d3 ∧ q ≠ c ∧ m.updated .d3 q = ok none

/-- The polygons `fs` are the faces of the polyhedra `ns` with the edge `e`, each one time, that are not in the table `M`. -/
structure FacesConcerned (m : Mesh α) (e : Nat) (M : List (Nat × Nat)) (ns fs : List Nat) : Prop where
  once : fs.Nodup
  mem : ∀ f, f ∈ fs ↔ (∃ q gs, q ∈ ns ∧ m.row .face3 q = ok gs ∧ f ∈ gs) ∧ (∃ l, m.row .edge2 f = ok l ∧ e ∈ l) ∧
    ∀ x, (f, x) ∉ M

/-- The face `f` at position `p` of the polyhedron `q` has the vertices `vs f` and the edges `es f`; if `e` is among them, it is so one
time, at position `k f`, and `dir f` is given as its direction. -/
def FaceInput (m : Mesh α) (e : Nat) (directions : List (List (List Bool))) (k : Nat → Nat) (dir : Nat → Bool)
    (vs es : Nat → List Nat) (q p f : Nat) : Prop :=
  BoundedBy m f (vs f) (es f) ∧ (e ∈ es f → (∀ i, (es f)[i]? = some e ↔ i = k f) ∧
    ∃ d3 d2, directions[q]? = some d3 ∧ d3[p]? = some d2 ∧ d2[k f]? = some (dir f))

/-- The polyhedron `q` has exactly one time the edge `e`, and its faces are as above. -/
structure SolidInput (m : Mesh α) (e : Nat) (directions : List (List (List Bool))) (k : Nat → Nat) (dir : Nat → Bool)
    (vs es : Nat → List Nat) (q : Nat) (vs3 es3 gs : List Nat) : Prop extends SolidOf m q vs3 es3 gs where
  edge : ∃ i : Nat, ∀ j : Nat, es3[j]? = some e ↔ j = i
  face : ∀ (p : Nat) f, gs[p]? = some f → FaceInput m e directions k dir vs es q p f

end Verif
