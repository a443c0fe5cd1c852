import Verif.MeshSpec
import Verif.PointPosModel
import Verif.HullSpec

/-
Conforming triangle meshes, in terms of what the mesh reports.
-/
namespace Verif

open Res

variable {α : Type}

/-- Cell `t` is a triangle: three different vertices and three edges. -/
structure IsTri (m : Mesh α) (t : Nat) (vs es : List Nat) : Prop where
  vertices : m.row .vert2 t = ok vs
  edges : m.row .edge2 t = ok es
  vlen : vs.length = 3
  elen : es.length = 3
  nodup : vs.Nodup
  lt : ∀ v ∈ vs, v < m.num .d0

/-- Side `i` of the cell `t` is the edge `e`, run through from its origin to its end (`dir = true`) or
backwards. -/
def SideAt (m : Mesh α) (t i e : Nat) (dir : Bool) : Prop :=
  ∃ vs es x y, m.row .vert2 t = ok vs ∧ m.row .edge2 t = ok es ∧ i < 3 ∧ es[i]? = some e ∧
    vs[i]? = some x ∧ vs[(i + 1) % 3]? = some y ∧
    m.extremes e = ok (if dir then (x, y) else (y, x))

/-- The edge `e` has two neighbour slots, right and left; the left one (`dir = true`) or the right one
holds `t`. -/
def SlotIs (m : Mesh α) (e : Nat) (dir : Bool) (t : Nat) : Prop :=
  ∃ r l, m.row .nb12 e = ok [r, l] ∧ (if dir then l else r) = t

/-- A conforming mesh of triangles: every side of an active triangle is an active edge between the
same vertices, which has the triangle as left neighbour if the triangle runs through the edge in its
direction and as right neighbour otherwise; every neighbour slot of an active edge is empty or holds an
active triangle with this side. -/
structure Conforming (m : Mesh α) : Prop where
  wf : m.WF
  triangles : ∀ t, m.active .d2 t = ok true → m.updated .d2 t = ok none ∧ (∃ vs es, IsTri m t vs es) ∧
    ∀ i, i < 3 → ∃ e dir, SideAt m t i e dir ∧ m.active .d1 e = ok true ∧ SlotIs m e dir t
  edges : ∀ e, m.active .d1 e = ok true →
    (∃ x y, m.extremes e = ok (x, y) ∧ x < m.num .d0 ∧ y < m.num .d0) ∧
    ∀ dir, ∃ t, SlotIs m e dir t ∧
      (t = UINT_MAX ∨ m.active .d2 t = ok true ∧ ∃ i, SideAt m t i e dir)

/-- The triangle `t` of `m` is replaced in `m'` by two triangles, numbers `n` and `n + 1`, which have the
corner opposite to side `i` and the vertex `w` in common. -/
structure IsHalved (m m' : Mesh α) (t i w n : Nat) : Prop where
  inactive : m'.active .d2 t = ok false
  updated : ∃ u, m'.updated .d2 t = ok (some u) ∧ n ∈ u ∧ n + 1 ∈ u
  vertices : ∃ vs x y o, m.row .vert2 t = ok vs ∧ vs[i]? = some x ∧ vs[(i + 1) % 3]? = some y ∧
    vs[(i + 2) % 3]? = some o ∧ m'.row .vert2 n = ok [o, x, w] ∧ m'.row .vert2 (n + 1) = ok [w, y, o]
  active : m'.active .d2 n = ok true ∧ m'.active .d2 (n + 1) = ok true
  original : m'.original .d2 n = ok t ∧ m'.original .d2 (n + 1) = ok t

section
variable {K : Type} [Field K] [LinearOrder K] [IsStrictOrderedRing K]

/-- No corner of the triangle is taken for a point on the line through the other two. -/
def GeoCfg.Corners (g : GeoCfg K) (sqrt : K → K) (p q r : V3 K) : Prop :=
  g.pointIsAligned sqrt r p q = false ∧ g.pointIsAligned sqrt p q r = false ∧
    g.pointIsAligned sqrt q r p = false

/-- The triangle with the corners `p, q, r`, moved into the plane, is a triangle within the
tolerances. -/
def GeoCfg.ProperTri (g : GeoCfg K) (sqrt : K → K) (tol2D : K) (rotation : M3 K) (translation : V3 K)
    (p q r : V3 K) : Prop :=
  g.Corners sqrt (rotateTo2D rotation translation p) (rotateTo2D rotation translation q)
      (rotateTo2D rotation translation r) ∧
    g.isValueZero (1 / 2 * area2 (rotateTo2D rotation translation p)
      (rotateTo2D rotation translation q) (rotateTo2D rotation translation r)) tol2D = false

/-- The middle of two points. -/
def middle (p q : V3 K) : V3 K := ⟨(p.x + q.x) / 2, (p.y + q.y) / 2, (p.z + q.z) / 2⟩

/-- Both halves of the triangle `p, q, r`, cut from the middle of `p q` to `r`, are triangles within the
tolerances, and the cut is not too short. -/
def GeoCfg.Halvable (g : GeoCfg K) (sqrt : K → K) (tol2D : K) (rotation : M3 K) (translation : V3 K)
    (p q r : V3 K) : Prop :=
  g.ProperTri sqrt tol2D rotation translation r p (middle p q) ∧
    g.ProperTri sqrt tol2D rotation translation (middle p q) q r ∧
    g.isValueZero ((r.sub (middle p q)).norm sqrt) g.tol1D = false

end

end Verif
