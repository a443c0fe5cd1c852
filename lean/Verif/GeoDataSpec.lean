import Verif.GeoDataModel
import Verif.MomentSpec
import Verif.CheckSpec

/-
Notions in which the geometric data of a mesh are stated.
-/
namespace Verif

open Res

variable {K : Type} [Field K] [LinearOrder K]

/-- Twice the integral of a coordinate over a polygon, times three. -/
def firstMoment (f : V3 K → K) (ps : List (V3 K)) : K :=
  ((ps.zip (ps.rotate 1)).map fun e => (f e.1 + f e.2) * (e.1.x * e.2.y - e.2.x * e.1.y)).sum

/-- `G` is the centroid of the polygon `ps`: its coordinates times the area are the integrals of the coordinates. -/
def IsCentroid (ps : List (V3 K)) (G : V3 K) : Prop :=
  G.x * (3 * shoelace ps) = firstMoment V3.x ps ∧ G.y * (3 * shoelace ps) = firstMoment V3.y ps ∧ G.z = 0

/-- The box with the corners `lo` and `hi` is the smallest one that contains the points. -/
def IsBox (ps : List (V3 K)) (lo hi : V3 K) : Prop :=
  (∀ q ∈ ps, lo.x ≤ q.x ∧ q.x ≤ hi.x ∧ lo.y ≤ q.y ∧ q.y ≤ hi.y ∧ lo.z ≤ q.z ∧ q.z ≤ hi.z) ∧
  (∃ q ∈ ps, lo.x = q.x) ∧ (∃ q ∈ ps, hi.x = q.x) ∧ (∃ q ∈ ps, lo.y = q.y) ∧ (∃ q ∈ ps, hi.y = q.y) ∧
  (∃ q ∈ ps, lo.z = q.z) ∧ ∃ q ∈ ps, hi.z = q.z

/-- `d` is the largest distance of two points, up to the tolerance `tol`. -/
def IsDiameter (tol : K) (ps : List (V3 K)) (d : K) : Prop :=
  0 ≤ d ∧ (d = 0 ∨ ∃ a ∈ ps, ∃ b ∈ ps, IsLength a b d) ∧
  ∀ a ∈ ps, ∀ b ∈ ps, ∀ l, IsLength a b l → l ≤ d + tol * max 1 d

/-- Vertices that follow each other are different. -/
def MovesOn (ps : List (V3 K)) : Prop :=
  ∀ (i : Nat) (a b : V3 K), ps[i]? = some a → ps[(i + 1) % ps.length]? = some b → a.x ≠ b.x ∨ a.y ≠ b.y

variable [IsStrictOrderedRing K]

/-- The tolerance does not judge three of the points aligned that are not. -/
def AlignedExact (g : GeoCfg K) (sqrt : K → K) (ps : List (V3 K)) : Prop :=
  ∀ a ∈ ps, ∀ b ∈ ps, ∀ c ∈ ps, g.pointIsAligned sqrt a b c = true → area2 a b c = 0

/-- The polygon `c` of the mesh has as many edges as vertices, the edges exist and no two of them run from the same
vertex to the same vertex; the vertices are in the plane, those that follow each other differ, the area is not zero
and the tolerance tells aligned vertices apart. -/
structure CellReady (g : GeoCfg K) (sqrt : K → K) (m : Mesh K) (c : Nat) (vs es : List Nat) (ps : List (V3 K)) :
    Prop where
  vertices : m.row .vert2 c = ok vs
  edges : m.row .edge2 c = ok es
  count : vs.length = es.length
  known : ∀ e ∈ es, e < m.num .d1
  differ : ∀ (i j e f : Nat) (x : Nat × Nat), es[i]? = some e → es[j]? = some f → m.extremes e = ok x →
    m.extremes f = ok x → i = j
  points : List.Forall₂ (fun v q => m.point v = ok q) vs ps
  three : 2 < ps.length
  flat : ∀ q ∈ ps, q.z = 0
  moves : MovesOn ps
  exact : AlignedExact g sqrt ps
  area : shoelace ps ≠ 0

/-- The data `d` are those of the polygon `c` of the mesh with the vertices `vs`, at the points `ps`, and the edges
`es`. -/
structure GeoOf (g : GeoCfg K) (m : Mesh K) (vs es : List Nat) (ps : List (V3 K)) (d : CellGeo K) : Prop where
  vertices : d.vertices = ps
  box : IsBox ps d.box.1 d.box.2
  corners : ∀ t ∈ d.triangles, t.1 ∈ ps ∧ t.2.1 ∈ ps ∧ t.2.2 ∈ ps
  cover : (d.triangles.map fun t => area2 t.1 t.2.1 t.2.2).sum = shoelace ps
  proper : ConvexCcw ps → ∀ t ∈ d.triangles, 0 < area2 t.1 t.2.1 t.2.2
  area : 2 * d.area = shoelace ps
  centroid : IsCentroid ps d.centroid
  diameter : IsDiameter g.tol1D ps d.diameter
  directions : d.directions.length = es.length ∧ ∀ (k e x y : Nat), es[k]? = some e → vs[k]? = some x →
    vs[(k + 1) % vs.length]? = some y → (d.directions[k]? = some true ↔ m.extremes e = ok (x, y))
  edgesCentroid : PerEdge (fun a b c => c = ⟨(a.x + b.x) / 2, (a.y + b.y) / 2, (a.z + b.z) / 2⟩) ps d.edgesCentroid
  lengths : PerEdge IsLength ps d.lengths
  tangents : PerEdge (fun a b t => t = ⟨b.x - a.x, b.y - a.y, b.z - a.z⟩) ps d.tangents
  normals : PerEdge IsRightNormal ps d.normals

/-- The two values are judged equal with the tolerance `t`: absolute if one of them is within it of zero and relative to
the first one otherwise. -/
def CloseTo (t a b : K) : Prop := |b - a| ≤ t * (if t < |a| ∧ t < |b| then |a| else 1)

/-- The area that the vertices, lengths, tangents and normals of the edges give by the divergence theorem: the sum over
the edges of the first coordinate of the middle times the first coordinate of the normal times the length. -/
def boundaryArea (d : CellGeo K) : K :=
  ((List.range d.vertices.length).map fun e => |d.lengths.getD e 0| *
    ((d.vertices.getD e V3.zero).x + (d.tangents.getD e V3.zero).x / 2) * (d.normals.getD e V3.zero).x).sum

/-- What the check asks of the data of a polygon with `n` edges; `t1` and `t2` are the tolerances for lengths and
areas. -/
structure DataPasses (t1 t2 : K) (cfg : GeoCheckCfg) (n : Nat) (d : CellGeo K) : Prop where
  lengths : cfg.cell1DMeasure = true → ∀ e < n, ∃ l, d.lengths[e]? = some l ∧ t1 < l
  normals : cfg.cell1DNormals = true → 2 < d.vertices.length ∧ d.lengths.length = d.vertices.length ∧
    d.tangents.length = d.vertices.length ∧ d.normals.length = d.vertices.length ∧
    CloseTo t2 d.area (boundaryArea d)
  area : cfg.cell2DMeasure = true → t2 < d.area
  triangles : cfg.cell2DTriangles = true →
    CloseTo t2 d.area (d.triangles.map fun t => |area2 t.1 t.2.1 t.2.2| / 2).sum

end Verif
