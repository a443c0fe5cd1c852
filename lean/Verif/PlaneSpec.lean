import Verif.PlaneModel
import Verif.MapSpec

/-
Notions in which the properties of planes are stated.
-/
namespace Verif

variable {K : Type} [Field K] [LinearOrder K] [IsStrictOrderedRing K]

/-- The matrix is a rotation: its columns are orthonormal and its determinant is one. -/
structure IsRotation (Q : M3 K) : Prop where
  unit0 : Q.col0.dot Q.col0 = 1
  unit1 : Q.col1.dot Q.col1 = 1
  unit2 : Q.col2.dot Q.col2 = 1
  orth01 : Q.col0.dot Q.col1 = 0
  orth02 : Q.col0.dot Q.col2 = 0
  orth12 : Q.col1.dot Q.col2 = 0
  det : Q.det = 1

/-- How far `p` is from the plane through `o` with unit normal `n`, with sign. -/
def planeHeight (n o p : V3 K) : K := n.dot (p.sub o)

/-- Distances are kept by `F`. -/
def KeepsDistances (F : V3 K → V3 K) : Prop :=
  ∀ p q, ((F p).sub (F q)).dot ((F p).sub (F q)) = (p.sub q).dot (p.sub q)

end Verif
