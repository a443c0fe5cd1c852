import Verif.NeighSpec
import Verif.GeomModel

/-
What a structured mesh of a parallelogram is. The grid has `B` points in the base direction and `H` in
the height direction; point `p` is in column `p % B` and row `p / B`.
-/
namespace Verif

open Res

variable {K : Type} [Field K]

/-- `cells` are the polygons that have the edge `e`. -/
def EdgeCells {α : Type} (m : Mesh α) (e : Nat) (cells : List Nat) : Prop :=
  cells.Nodup ∧ ∀ c, c ∈ cells ↔ ∃ es, m.row .edge2 c = ok es ∧ e ∈ es

/-- The marker `k` says on which part of the border the point in column `b`, row `h` lies. -/
def PointMarker (B H b h k : Nat) : Prop :=
  (k = 1 ↔ b = 0 ∧ h = 0) ∧ (k = 2 ↔ b + 1 = B ∧ h = 0) ∧ (k = 3 ↔ b + 1 = B ∧ h + 1 = H) ∧
  (k = 4 ↔ b = 0 ∧ h + 1 = H) ∧ (k = 5 ↔ 0 < b ∧ b + 1 < B ∧ h = 0) ∧
  (k = 6 ↔ b + 1 = B ∧ 0 < h ∧ h + 1 < H) ∧ (k = 7 ↔ 0 < b ∧ b + 1 < B ∧ h + 1 = H) ∧
  (k = 8 ↔ b = 0 ∧ 0 < h ∧ h + 1 < H) ∧ (k = 0 ↔ 0 < b ∧ b + 1 < B ∧ 0 < h ∧ h + 1 < H)

/-- The marker `k` says on which side of the border the edge from point `a` to point `c` lies. -/
def EdgeMarker (B H a c k : Nat) : Prop :=
  (k = 5 ↔ a / B = 0 ∧ c / B = 0) ∧ (k = 6 ↔ a % B + 1 = B ∧ c % B + 1 = B) ∧
  (k = 7 ↔ a / B + 1 = H ∧ c / B + 1 = H) ∧ (k = 8 ↔ a % B = 0 ∧ c % B = 0) ∧
  (k = 0 ∨ k = 5 ∨ k = 6 ∨ k = 7 ∨ k = 8)

/-- `m` is a structured mesh, with polygons of `sides` sides, of the parallelogram with corner `o` and
edges `bt`, `ht` cut at the coordinates `bs`, `hs`. -/
structure GridMesh (o bt ht : V3 K) (bs hs : List K) (sides : Nat) (m : Mesh K) : Prop where
  wf : m.WF
  dim : m.dimension = 2
  numPoints : m.num .d0 = bs.length * hs.length
  numSolids : m.num .d3 = 0
  /-- The coordinates of the points. -/
  points : ∀ (b h : Nat) (x y : K), bs[b]? = some x → hs[h]? = some y →
    m.coordinates (b + h * bs.length) =
      ok (o.x + x * bt.x + y * ht.x, o.y + x * bt.y + y * ht.y, o.z + x * bt.z + y * ht.z) ∧
    m.active .d0 (b + h * bs.length) = ok true
  /-- Points are marked by the part of the border they are on. -/
  pointMarkers : ∀ b < bs.length, ∀ h < hs.length, ∃ k,
    m.marker .d0 (b + h * bs.length) = ok k ∧ PointMarker bs.length hs.length b h k
  /-- Every edge joins two different points, and is marked by the side of the border it is on. It has
  two polygons, or one if it is on the border. -/
  edges : ∀ e < m.num .d1, m.active .d1 e = ok true ∧ ∃ a c k cells,
    m.extremes e = ok (a, c) ∧ a < m.num .d0 ∧ c < m.num .d0 ∧ a ≠ c ∧
    m.marker .d1 e = ok k ∧ EdgeMarker bs.length hs.length a c k ∧
    EdgeCells m e cells ∧ cells.length = if k = 0 then 2 else 1
  /-- No two edges join the same points. -/
  simple : ∀ e e' a c, m.extremes e = ok (a, c) →
    (m.extremes e' = ok (a, c) ∨ m.extremes e' = ok (c, a)) → e = e'
  /-- Every polygon is active, has marker `0` and `sides` vertices and edges; edge number `k` joins
  vertices number `k` and `k + 1`. -/
  cells : PolygonsOk m ∧ ∀ c < m.num .d2, m.active .d2 c = ok true ∧ m.marker .d2 c = ok 0 ∧
    ∃ vs, m.row .vert2 c = ok vs ∧ vs.length = sides

end Verif
