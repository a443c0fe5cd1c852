import Verif.PlaneMarkModel
import Verif.MarkSpec
import Verif.MapSpec

/-
Marking the part of a mesh that is on a plane, and the faces at the boundary in a direction.
-/
namespace Verif

open Res

variable {K : Type} [Field K] [LinearOrder K] [IsStrictOrderedRing K]

/-- The new mesh is the old one, except that the cells in `S` have the marker. -/
structure MarkedWhere (S : Dim → Nat → Prop) (marker : Nat) (m m' : Mesh K) : Prop where
  same : m' = { m with mark := m'.mark }
  inside : ∀ d i, i < m.num d → S d i → m'.marker d i = ok marker
  outside : ∀ d i, ¬ S d i → m'.marker d i = m.marker d i

/-- Some point of the plane through `o` with normal `n` is within the tolerance of `p`. -/
def GeoCfg.NearPlane (g : GeoCfg K) (n o p : V3 K) : Prop :=
  ∃ q : V3 K, n.dot (q.sub o) = 0 ∧ dist2 p q ≤ g.tol1D * g.tol1D

/-- The vertices of every face are vertices of the mesh. -/
def CornersExist {α : Type} (m : Mesh α) : Prop := ∀ f vs, m.row .vert2 f = ok vs → ∀ v ∈ vs, v < m.num .d0

/-- The edges of every face are edges of the mesh. -/
def SidesExist {α : Type} (m : Mesh α) : Prop := ∀ f es, m.row .edge2 f = ok es → ∀ e ∈ es, e < m.num .d1

/-- The vertex `v` is in the set `On`. -/
def VertexIn (m : Mesh K) (On : V3 K → Prop) (v : Nat) : Prop := ∃ p, m.point v = ok p ∧ On p

/-- The vertices in the set `On`, the edges with both ends in it and the faces with all vertices in it. -/
def AllIn (m : Mesh K) (On : V3 K → Prop) : Dim → Nat → Prop
  | .d0, v => VertexIn m On v
  | .d1, e => ∃ x y, m.extremes e = ok (x, y) ∧ VertexIn m On x ∧ VertexIn m On y
  | .d2, f => ∃ vs, m.row .vert2 f = ok vs ∧ ∀ v ∈ vs, VertexIn m On v
  | .d3, _ => False

/-- The face has one polyhedron of the mesh at exactly one of its places for neighbours. -/
def AtBoundary {α : Type} (m : Mesh α) (f : Nat) : Prop :=
  ∃ r, m.row .nb23 f = ok r ∧ (r.filter fun c => decide (c < m.num .d3)).length = 1

/-- The absolute value of the cosine of the angle between the directions is 1, up to the tolerance. -/
def GeoCfg.AlmostParallel (g : GeoCfg K) (a b : V3 K) : Prop :=
  (1 - g.tolSq) * (1 - g.tolSq) * (a.dot a * b.dot b) ≤ a.dot b * a.dot b

/-- The face is at the boundary and its normal has the direction `n`, in one orientation or the other. -/
def GeoCfg.Facing (g : GeoCfg K) (m : Mesh K) (n : V3 K) (normals : List (V3 K)) (f : Nat) : Prop :=
  f < m.num .d2 ∧ AtBoundary m f ∧ ∃ b, normals[f]? = some b ∧ g.AlmostParallel n b

/-- These faces with their vertices and edges. -/
def OfFaces {α : Type} (m : Mesh α) (F : Nat → Prop) : Dim → Nat → Prop
  | .d0, v => ∃ f vs, F f ∧ m.row .vert2 f = ok vs ∧ v ∈ vs
  | .d1, e => ∃ f es, F f ∧ m.row .edge2 f = ok es ∧ e ∈ es
  | .d2, f => F f
  | .d3, _ => False

end Verif
