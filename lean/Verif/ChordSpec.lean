import Verif.MeshSpec
import Verif.CheckSpec
import Mathlib.Data.List.Rotate

/-
What a polygon looks like after it is cut along a chord.
-/
namespace Verif

open Res

variable {α : Type}

/-- A point on a side of a polygon: the new vertex, the half of the side before it and the half after it, in the order of
the polygon. -/
structure SidePoint where
  w : Nat
  before : Nat
  after : Nat

/-- The boundary of a polygon with the vertices `vs` and the edges `es`, as the list of its vertices, each with the edge
that follows; the sides with a point on them are replaced by their halves. -/
def boundary (vs es : List Nat) (cut : Nat → Option SidePoint) : List (Nat × Nat) :=
  (vs.zip es).zipIdx.flatMap fun p =>
    match cut p.2 with
    | none => [p.1]
    | some s => [(p.1.1, s.before), (s.w, s.after)]

/-- The boundary `X` starts at `p`, the boundary `Y` starts at `q`, and one after the other they are the whole boundary
`R`. -/
structure Halves (R X Y : List (Nat × Nat)) (p q : Nat) : Prop where
  whole : (X ++ Y).IsRotated R
  first : (X.map Prod.fst).head? = some p
  second : (Y.map Prod.fst).head? = some q

/-- The polygon `c` of `m` was replaced in `m'` by two polygons: one has the boundary `X` and returns from `q` to `p` along a
new edge, the other has the boundary `Y` and returns along the new edge from `p` to `q`. -/
structure IsCutAlong (m m' : Mesh α) (c p q : Nat) (X Y : List (Nat × Nat)) : Prop where
  wf : m'.WF
  num1 : m'.num .d1 = m.num .d1 + 1
  num2 : m'.num .d2 = m.num .d2 + 2
  num : ∀ d, d ≠ .d1 → d ≠ .d2 → m'.num d = m.num d
  coordinates : ∀ i, i < m.num .d0 → m'.coordinates i = m.coordinates i
  extremes : ∀ i, i < m.num .d1 → m'.extremes i = m.extremes i
  /-- the new edge -/
  extremesNew : m'.extremes (m.num .d1) = ok (q, p)
  activeEdge : m'.active .d1 (m.num .d1) = ok true
  markerEdge : m'.marker .d1 (m.num .d1) = ok 0
  polygonsEdge : m'.row .nb12 (m.num .d1) = ok [m.num .d2 + 1, m.num .d2]
  /-- the new polygons -/
  vertices0 : m'.row .vert2 (m.num .d2) = ok (X.map Prod.fst ++ [q])
  edges0 : m'.row .edge2 (m.num .d2) = ok (X.map Prod.snd ++ [m.num .d1])
  vertices1 : m'.row .vert2 (m.num .d2 + 1) = ok (Y.map Prod.fst ++ [p])
  edges1 : m'.row .edge2 (m.num .d2 + 1) = ok (Y.map Prod.snd ++ [m.num .d1])
  activeNew : ∀ k, k < 2 → m'.active .d2 (m.num .d2 + k) = ok true
  markerNew : ∀ k, k < 2 → m'.marker .d2 (m.num .d2 + k) = m.marker .d2 c
  originalNew : ∀ k, k < 2 → m'.original .d2 (m.num .d2 + k) = ok c
  updatedNew : ∀ k, k < 2 → m'.updated .d2 (m.num .d2 + k) = ok none
  /-- the old polygon -/
  inactive : m'.active .d2 c = ok false
  updatedOld : ∃ old new, m.updated .d2 c = ok old ∧ m'.updated .d2 c = ok new ∧
    ∀ j, j ∈ new.getD [] ↔ j ∈ old.getD [] ∨ j = m.num .d2 ∨ j = m.num .d2 + 1
  /-- everything else -/
  active : ∀ d i, i < m.num d → ¬ (d = .d2 ∧ i = c) → m'.active d i = m.active d i
  marker : ∀ d i, i < m.num d → m'.marker d i = m.marker d i
  updated : ∀ i, i < m.num .d2 → i ≠ c → m'.updated .d2 i = m.updated .d2 i
  original : ∀ i, i < m.num .d2 → m'.original .d2 i = m.original .d2 i
  rows : ∀ l i, i < m.num l.owner → l ≠ .nb02 → l ≠ .nb12 → m'.row l i = m.row l i
  /-- the polygons around the edges: the old polygon was replaced by a new one that has the edge -/
  polygonsOfEdges : ∀ x r, x < m.num .d1 → m.row .nb12 x = ok r → m'.row .nb12 x = ok (r.map fun y =>
    if y = c then (if x ∈ X.map Prod.snd then m.num .d2 else if x ∈ Y.map Prod.snd then m.num .d2 + 1 else c) else y)
  /-- the polygons around the vertices: the old polygon was replaced by a new one that has the vertex -/
  polygonsOfVertices : ∀ x r, m.row .nb02 x = ok r → m'.row .nb02 x = ok (r.map fun y =>
    if y = c then (if x ∈ X.map Prod.fst ++ [q] then m.num .d2
      else if x ∈ Y.map Prod.fst ++ [p] then m.num .d2 + 1 else c) else y)

/-- The list `R` is a closed path of edges around the polygon `t`: the edge after a vertex joins it with the next vertex,
and has `t` as left neighbour if the path runs along it in its direction and as right neighbour otherwise. -/
def Encloses (m : Mesh α) (t : Nat) (R : List (Nat × Nat)) : Prop :=
  ∀ a b, (a, b) ∈ R.zip (R.rotate 1) → ∃ (dir : Bool) (r l : Nat), m.extremes a.2 = ok (if dir then (a.1, b.1) else (b.1, a.1)) ∧
    m.row .nb12 a.2 = ok [r, l] ∧ (if dir then l else r) = t

variable {K : Type} [Field K] [LinearOrder K] [IsStrictOrderedRing K]

/-- The points are on the lines of their sides. -/
def OnSides (pt : Nat → V3 K) (vs : List Nat) (cut : Nat → Option SidePoint) : Prop :=
  ∀ i s, cut i = some s → ∃ a b t, vs[i]? = some a ∧ vs[(i + 1) % vs.length]? = some b ∧
    (pt s.w).x = (1 - t) * (pt a).x + t * (pt b).x ∧ (pt s.w).y = (1 - t) * (pt a).y + t * (pt b).y

/-- The outcome `run` of a cut along the chord from `p` to `q`: the mesh `m'`, unless a part has no area or the chord no
length within the tolerances; then the mesh stays as it is. -/
structure ChordOutcome (g : GeoCfg K) (sqrt : K → K) (tol2D : K) (m m' : Mesh K) (rotation : M3 K) (translation : V3 K)
    (p q : Nat) (X Y : List (Nat × Nat)) (run : Res (Mesh K × Option (Nat × List Nat))) : Prop where
  cut : g.isAreaPositive sqrt tol2D m (X.map Prod.fst ++ [q]) rotation translation = ok true →
    g.isAreaPositive sqrt tol2D m (Y.map Prod.fst ++ [p]) rotation translation = ok true →
    (∀ u v, m.point q = ok u → m.point p = ok v → g.isValueZero ((v.sub u).norm sqrt) g.tol1D = false) →
    run = ok (m', some (m.num .d1, [m.num .d2, m.num .d2 + 1]))
  only : ∀ m'' r, run = ok (m'', r) →
    r = none ∧ m'' = m ∧
      (g.isAreaPositive sqrt tol2D m (X.map Prod.fst ++ [q]) rotation translation = ok false ∨
        g.isAreaPositive sqrt tol2D m (Y.map Prod.fst ++ [p]) rotation translation = ok false ∨
        ∃ u v, m.point q = ok u ∧ m.point p = ok v ∧ g.isValueZero ((v.sub u).norm sqrt) g.tol1D = true) ∨
    r = some (m.num .d1, [m.num .d2, m.num .d2 + 1]) ∧ m'' = m'
  /-- there is a result if both areas can be computed -/
  defined : (∃ b, g.isAreaPositive sqrt tol2D m (X.map Prod.fst ++ [q]) rotation translation = ok b) →
    (∃ b, g.isAreaPositive sqrt tol2D m (Y.map Prod.fst ++ [p]) rotation translation = ok b) → ∃ r, run = ok r

end Verif
