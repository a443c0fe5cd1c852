import Verif.DirectionSpec
import Verif.PassSpec
import Verif.BisectSpec

/-
What a mesh looks like after a polygon was cut by a direction: some of its sides are halved, then it is cut along a chord.
-/
namespace Verif

open Res

variable {K : Type} [Field K] [LinearOrder K] [IsStrictOrderedRing K]

/-- The edge `e` of `m` was replaced in `m'` by two edges, numbered from `h` on, that meet in the vertex `w` in its middle. -/
structure HalvedAt (m m' : Mesh K) (e w h : Nat) : Prop where
  ends : ∃ a b p q, m.extremes e = ok (a, b) ∧ m.point a = ok p ∧ m.point b = ok q ∧ m'.point w = ok (middle p q) ∧
    m'.extremes h = ok (a, w) ∧ m'.extremes (h + 1) = ok (w, b)
  inactive : m'.active .d1 e = ok false
  activeVertex : m'.active .d0 w = ok true
  activeHalves : ∀ k, k < 2 → m'.active .d1 (h + k) = ok true
  markerVertex : m'.marker .d0 w = m.marker .d1 e
  markerHalves : ∀ k, k < 2 → m'.marker .d1 (h + k) = m.marker .d1 e
  /-- the halves are next to the polygons of the edge; numbers that belong to no polygon become the largest number -/
  polygons : ∀ k r, k < 2 → m.row .nb12 e = ok r →
    m'.row .nb12 (h + k) = ok (r.map fun y => if y < m.num .d2 then y else UINT_MAX)

/-- The sides at the positions `S` of a polygon with the edges `es` were halved one after the other; everything else is as
it was. -/
structure HalvedSides (m m' : Mesh K) (es S : List Nat) : Prop where
  wf : m'.WF
  num0 : m'.num .d0 = m.num .d0 + S.length
  num1 : m'.num .d1 = m.num .d1 + 2 * S.length
  num2 : m'.num .d2 = m.num .d2
  coordinates : ∀ i, i < m.num .d0 → m'.coordinates i = m.coordinates i
  extremes : ∀ i, i < m.num .d1 → m'.extremes i = m.extremes i
  active0 : ∀ i, i < m.num .d0 → m'.active .d0 i = m.active .d0 i
  active1 : ∀ x, x < m.num .d1 → (∀ i ∈ S, es[i]? ≠ some x) → m'.active .d1 x = m.active .d1 x
  active2 : ∀ i, i < m.num .d2 → m'.active .d2 i = m.active .d2 i
  updated : ∀ i, i < m.num .d2 → m'.updated .d2 i = m.updated .d2 i
  marker : ∀ d i, d ≠ .d3 → i < m.num d → m'.marker d i = m.marker d i
  vertices : ∀ i, i < m.num .d2 → m'.row .vert2 i = m.row .vert2 i
  edges : ∀ i, i < m.num .d2 → m'.row .edge2 i = m.row .edge2 i
  polygons : ∀ x, x < m.num .d1 → m'.row .nb12 x = m.row .nb12 x
  halved : ∀ j i, S[j]? = some i → ∃ e, es[i]? = some e ∧ HalvedAt m m' e (m.num .d0 + j) (m.num .d1 + 2 * j)

/-- The point on the `j`-th halved side: `n0` vertices and `n1` edges were there before; `dir` tells if the polygon runs along
the side in its direction. -/
def sidePoint (n0 n1 j : Nat) (dir : Bool) : SidePoint :=
  if dir then ⟨n0 + j, n1 + 2 * j, n1 + 2 * j + 1⟩ else ⟨n0 + j, n1 + 2 * j + 1, n1 + 2 * j⟩

/-- The points on the sides at the positions `S`. -/
def sidePoints (n0 n1 : Nat) (dirs : List Bool) (S : List Nat) (k : Nat) : Option SidePoint :=
  if k ∈ S then dirs[k]?.map (sidePoint n0 n1 (S.idxOf k)) else none

/-- The polygon `c` of `m` with the vertices `vs` and the edges `es` was cut in `m'`: the sides at the positions `S` were
halved, which gave `mid`, then it was cut along the chord from `p` to `q` in the parts `X` and `Y` of the boundary. -/
structure CutBy (m mid m' : Mesh K) (c : Nat) (vs es : List Nat) (dirs : List Bool) (S : List Nat) (p q : Nat)
    (X Y : List (Nat × Nat)) : Prop where
  sides : HalvedSides m mid es S
  halves : Halves (boundary vs es (sidePoints (m.num .d0) (m.num .d1) dirs S)) X Y p q
  cut : IsCutAlong mid m' c p q X Y

/-- An end of the chord on the side at position `i`: the new vertex in its middle if it was halved, otherwise an end of the
side. -/
def ChordEndOn (m : Mesh K) (vs S : List Nat) (i p : Nat) : Prop :=
  (∃ j, S[j]? = some i ∧ p = m.num .d0 + j) ∨ (i ∉ S ∧ ∃ v, EndOfSide vs.length i v ∧ vs[v]? = some p)

/-- The new vertices, edges and cells that are reported. -/
structure Reported (m : Mesh K) (es S ws : List Nat) (edges : List RefinedEdge) (cells : List Nat) : Prop where
  vertices : ws = (List.range S.length).map (m.num .d0 + ·)
  edges : edges = S.zipIdx.map (fun x => .updated (es.getD x.1 0) x.1 [m.num .d1 + 2 * x.2, m.num .d1 + 2 * x.2 + 1]
    (m.num .d0 + x.2)) ++ [.new (m.num .d1 + 2 * S.length)]
  cells : cells = [m.num .d2, m.num .d2 + 1]

/-- The vertex at position `v` is on the line of the side at position `i`, by the middle of the side and one of its ends;
`first` tells if the vertex or the end of the side is the first point of the line in the test. -/
def OnSideLine (g : GeoCfg K) (sqrt : K → K) (ps : List (V3 K)) (i v : Nat) (first : Bool) : Prop :=
  ∃ p a b, ps[v]? = some p ∧ ps[i]? = some a ∧ ps[(i + 1) % ps.length]? = some b ∧
    ∃ x, (x = a ∨ x = b) ∧ (if first then g.pointIsAligned sqrt p x (middle a b) = true
      else g.pointIsAligned sqrt x p (middle a b) = true)

/-- The corner `v` at the other end of a chord from the middle of the side `i`: the end of the other side nearer to its
intersection, or the other end if that is on the line of the side `i` and the intersection is not a vertex. -/
structure IsOpposite (g : GeoCfg K) (sqrt : K → K) (ps : List (V3 K)) (i : Nat) (h : DirHit K) (s : SideCheck) (first : Bool)
    (v : Nat) : Prop where
  isEnd : EndOfSide ps.length h.index v
  off : ¬ OnSideLine g sqrt ps i v first
  near : ∀ v0, IsNearEnd g ps.length h v0 → ¬ OnSideLine g sqrt ps i v0 first → v = v0
  fixed : s.verdict = .notInside → IsNearEnd g ps.length h v

/-- The polygon `c` runs along its edges `es` in the directions `dirs` and is next to them on the proper side. -/
def RunsAlong (m : Mesh K) (c : Nat) (vs es : List Nat) (dirs : List Bool) : Prop :=
  dirs.length = vs.length ∧
  ∀ i a b e d, vs[i]? = some a → vs[(i + 1) % vs.length]? = some b → es[i]? = some e → dirs[i]? = some d →
    m.extremes e = ok (if d then (a, b) else (b, a)) ∧ ∃ r l, m.row .nb12 e = ok [r, l] ∧ (if d then l else r) = c

/-- The polygon `c` with the vertices `vs` at the points `ps` and the edges `es`, and two different sides met by a line. -/
structure DirInput (m : Mesh K) (c : Nat) (vs es : List Nat) (ps : List (V3 K)) (k : DirCheck K) : Prop where
  wf : m.WF
  bounded : BoundedBy m c vs es
  points : ps.length = vs.length
  once : es.Nodup
  ends : ∀ e ∈ es, ∃ a b, m.extremes e = ok (a, b) ∧ a < m.num .d0 ∧ b < m.num .d0
  one : es[k.hitOne.index]? = some k.edgeOne
  two : es[k.hitTwo.index]? = some k.edgeTwo
  apart : k.hitOne.index ≠ k.hitTwo.index

/-- The polygon itself and a neighbour object to the split of a side. -/
def SideVerdict.blamed : SideVerdict → Bool × Bool
  | .bothQuality | .bothAligned => (true, true)
  | .onlyLocalQuality | .onlyLocalAligned => (true, false)
  | .onlyNeighQuality | .onlyNeighAligned => (false, true)
  | _ => (false, false)

/-- A part of the cut along the chord from `p` to `q` has no area, or the chord no length, within the tolerances. -/
def NoCut (g : GeoCfg K) (sqrt : K → K) (tol2D : K) (m : Mesh K) (rotation : M3 K) (translation : V3 K) (p q : Nat)
    (X Y : List (Nat × Nat)) : Prop :=
  g.isAreaPositive sqrt tol2D m (X.map Prod.fst ++ [q]) rotation translation = ok false ∨
    g.isAreaPositive sqrt tol2D m (Y.map Prod.fst ++ [p]) rotation translation = ok false ∨
    ∃ u v, m.point q = ok u ∧ m.point p = ok v ∧ g.isValueZero ((v.sub u).norm sqrt) g.tol1D = true

/-- The halved sides at the positions `S` are whole again: the cells have the numbers they had in `m`, the sides are active, and
the rest is as it was, as far as the numbers in the lists of polygons and edges belong to cells. The lists of the edges at
a vertex are left out. -/
structure GivenUp (m m' : Mesh K) (es S : List Nat) : Prop where
  wf : m'.WF
  num : ∀ d, d ≠ .d3 → m'.num d = m.num d
  coordinates : ∀ i, i < m.num .d0 → m'.coordinates i = m.coordinates i
  extremes : ∀ i a b, m.extremes i = ok (a, b) → a < m.num .d0 → b < m.num .d0 → m'.extremes i = ok (a, b)
  sides : ∀ i e, i ∈ S → es[i]? = some e → m'.active .d1 e = ok true
  active : ∀ d x, d ≠ .d3 → x < m.num d → (d = .d1 → ∀ i ∈ S, es[i]? ≠ some x) → m'.active d x = m.active d x
  updated : ∀ i, i < m.num .d2 → m'.updated .d2 i = m.updated .d2 i
  marker : ∀ d i, d ≠ .d3 → i < m.num d → m'.marker d i = m.marker d i
  vertices : ∀ i r, m.row .vert2 i = ok r → (∀ y ∈ r, y < m.num .d0) → m'.row .vert2 i = ok r
  edges : ∀ i r, m.row .edge2 i = ok r → (∀ y ∈ r, y < m.num .d1) → m'.row .edge2 i = ok r
  polygons : ∀ x, x < m.num .d1 → m'.row .nb12 x = m.row .nb12 x

/-- The result of a cut along the chord from `p` to `q` after the sides at the positions `S` were halved: the cut is made and
reported, or it is refused since a part has no area or the chord no length; then the sides are made whole again. -/
def CutOrNot (g : GeoCfg K) (sqrt : K → K) (tol2D : K) (m m' : Mesh K) (c : Nat) (vs es : List Nat) (dirs : List Bool)
    (rotation : M3 K) (translation : V3 K) (S : List Nat) (p q : Nat) (r : DirResult) : Prop :=
  ∃ mid X Y, HalvedSides m mid es S ∧ Halves (boundary vs es (sidePoints (m.num .d0) (m.num .d1) dirs S)) X Y p q ∧
    ((r = .underTolerance ∧ NoCut g sqrt tol2D mid rotation translation p q X Y ∧ GivenUp m m' es S ∧ (S = [] → m' = m)) ∨
      ∃ ws edges cells, r = .successful ws edges cells ∧ Reported m es S ws edges cells ∧ IsCutAlong mid m' c p q X Y)

/-- After the sides at some positions were halved, the area of one of the parts cannot be computed. -/
def AreaUndefined (g : GeoCfg K) (sqrt : K → K) (tol2D : K) (m : Mesh K) (vs es : List Nat) (dirs : List Bool)
    (rotation : M3 K) (translation : V3 K) : Prop :=
  ∃ S mid X Y p q, HalvedSides m mid es S ∧ Halves (boundary vs es (sidePoints (m.num .d0) (m.num .d1) dirs S)) X Y p q ∧
    ((∀ b, g.isAreaPositive sqrt tol2D mid (X.map Prod.fst ++ [q]) rotation translation ≠ ok b) ∨
      ∀ b, g.isAreaPositive sqrt tol2D mid (Y.map Prod.fst ++ [p]) rotation translation ≠ ok b)

end Verif
