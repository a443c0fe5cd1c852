import Verif.GeomModel

/-
Notions in which the properties of the reference maps are stated.
-/
namespace Verif

variable {K : Type} [Field K]

/-- Twice the signed area of the triangle `p`, `q`, `r`, seen from `+z`. -/
def area2 (p q r : V3 K) : K := (q.x - p.x) * (r.y - p.y) - (q.y - p.y) * (r.x - p.x)

/-- Six times the signed volume of the tetrahedron `p`, `q`, `r`, `s`. -/
def vol6 (p q r s : V3 K) : K :=
  (q.x - p.x) * ((r.y - p.y) * (s.z - p.z) - (r.z - p.z) * (s.y - p.y)) -
  (q.y - p.y) * ((r.x - p.x) * (s.z - p.z) - (r.z - p.z) * (s.x - p.x)) +
  (q.z - p.z) * ((r.x - p.x) * (s.y - p.y) - (r.y - p.y) * (s.x - p.x))

/-- Two points agree up to `T` in each coordinate. -/
def Near [LinearOrder K] (T : K) (a b : V3 K) : Prop :=
  |a.x - b.x| ≤ T ∧ |a.y - b.y| ≤ T ∧ |a.z - b.z| ≤ T

/-- The corners of the parallelepiped at `o` spanned by `e₁`, `e₂`, `e₃`, numbered like the
reference cube: bottom face counter-clockwise, then the top face. -/
def boxCorners (o e₁ e₂ e₃ : V3 K) : List (V3 K) :=
  [o, o.add e₁, (o.add e₁).add e₂, o.add e₂,
   o.add e₃, (o.add e₁).add e₃, ((o.add e₁).add e₂).add e₃, (o.add e₂).add e₃]

/-- A square root on the nonnegative elements. -/
def IsSqrt [LinearOrder K] (sqrt : K → K) : Prop :=
  ∀ a, 0 ≤ a → 0 ≤ sqrt a ∧ sqrt a * sqrt a = a

/-- `F` and `G` are inverse to each other. -/
def MutualInverse {α : Type} (F G : α → α) : Prop := (∀ x, G (F x) = x) ∧ ∀ y, F (G y) = y

/-- `F` changes signed areas by the factor `d`. -/
def ScalesArea (F : V3 K → V3 K) (d : K) : Prop :=
  ∀ p q r, area2 (F p) (F q) (F r) = d * area2 p q r

/-- `F` changes signed volumes by the factor `d`. -/
def ScalesVolume (F : V3 K → V3 K) (d : K) : Prop :=
  ∀ p q r s, vol6 (F p) (F q) (F r) (F s) = d * vol6 p q r s

/-- The edges of the reference cube, by the numbers of their ends. -/
def cubeEdges : List (Nat × Nat) :=
  [(0, 1), (1, 2), (2, 3), (3, 0), (4, 5), (5, 6), (6, 7), (7, 4), (0, 4), (1, 5), (2, 6), (3, 7)]

/-- Two corners of the cube are joined by an edge. -/
def CubeEdge (u v : Nat) : Prop := (u, v) ∈ cubeEdges ∨ (v, u) ∈ cubeEdges

instance (u v : Nat) : Decidable (CubeEdge u v) := inferInstanceAs (Decidable (_ ∨ _))

/-- Four corners that follow each other around a face of the cube. -/
def IsCubeFace (face : List Nat) : Prop :=
  ∃ a b c d, face = [a, b, c, d] ∧ [a, b, c, d].Nodup ∧ (∀ v ∈ [a, b, c, d], v < 8) ∧
    CubeEdge a b ∧ CubeEdge b c ∧ CubeEdge c d ∧ CubeEdge d a

/-- The vertices of a hexahedron that are not on the given face, by increasing index. -/
def offFace (face : List Nat) : List Nat := (List.range 8).filter fun v => v ∉ face

/-- Four different vertices of a hexahedron. -/
def IsFace (face : List Nat) : Prop := face.length = 4 ∧ face.Nodup ∧ ∀ v ∈ face, v < 8

/-- The eight monomials of degree at most one in each coordinate. -/
def monomials (p : V3 K) : List K :=
  [1, p.x, p.y, p.z, p.x * p.y, p.x * p.z, p.y * p.z, p.x * p.y * p.z]

end Verif
